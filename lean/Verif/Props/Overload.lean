import Verif.Lemmas.TypedExpr

/-!
# Overload resolution and typed expressions: property C121
-/

namespace Ieme

open Res IntTy Overload

variable {L R W F : IntTy} {o o' : Ops} {e : TExpr} {t : Ty} {q : ℚ} {v : Val}

/-- **C121** A binary operator on integers, fractions, mixed numbers and literals of any
representation and policy gets a type exactly when the intended rules give it one, and then that one. -/
theorem C121_signature (op : ArithOp) {l r : Ty} (h : ∀ A B, ¬ (l = .int A ∧ r = .int B)) :
    Ty.bin op l r = signature op l r := bin_eq h

example : Ty.bin .plus (.frac i32 .safe) (.frac i64 .safe) = some (.frac i64 .safe) ∧
    Ty.bin .plus (.frac i32 .safe) (.mixed i32 i64 .safe) = some (.mixed i32 i64 .safe) ∧
    Ty.bin .divides (.int u32) (.lit true .fast) = some (.frac u32 .fast) ∧
    Ty.bin .minus (.mixed i32 i32 .safe) (.mixed i32 i32 .safe) = none := by decide

/-- **C121** Being more specialised is a strict partial order on the overloads, and no two overloads are
equally specialised: ambiguity only comes from overloads of which neither is more specialised. -/
theorem C121_more_specialised :
    (∀ f : Fn, f.better f = false) ∧ (∀ f g : Fn, f.better g = true → g.better f = false) ∧
    (∀ f g h : Fn, f.better g = true → g.better h = true → f.better h = true) ∧
    ∀ f g : Fn, f.atLeast g = true → g.atLeast f = true → f = g := by
  refine ⟨?_, ?_, ?_, ?_⟩
  · intro f; cases f <;> rfl
  · intro f g; cases f <;> cases g <;> decide
  · intro f g h; cases f <;> cases g <;> cases h <;> decide
  · intro f g; cases f <;> cases g <;> decide

example : Fn.better .fracFrac .fracRep = true ∧ Fn.better .fracRep .fracFrac = false ∧
    Fn.better .fracRep .repFrac = false ∧ Fn.better .repFrac .fracRep = false := by decide

/-- **C121** Operands of different policies are rejected: between fractions the deleted overload
is chosen by every arithmetic operator, every comparison and every compound assignment; the addition
of mixed numbers and the division by a literal are ambiguous. -/
theorem C121_policies_rejected (op : ArithOp) (h : o ≠ o') (s : Bool) :
    resolve op (.frac L o) (.frac R o') = .deleted ∧
    resolveCmp (.frac L o) (.frac R o') = .deleted ∧
    resolveAssign (.frac L o) (.frac R o') = .deleted ∧
    resolve .plus (.mixed W F o) (.mixed L R o') = .ambiguous ∧
    resolve .plus (.mixed W F o) (.frac R o') = .ambiguous ∧
    resolve .plus (.frac L o) (.mixed W F o') = .ambiguous ∧
    resolve .divides (.frac L o) (.lit s o') = .ambiguous := by
  refine ⟨?_, ?_, ?_, ?_, ?_, ?_, ?_⟩
  · rw [resolve_eq]; cases op <;> simp [h]
  · simp only [resolveCmp, List.filter, viable_frac_frac, h, decide_false, ne_eq, not_false_iff,
      decide_true]
    rfl
  · simp only [resolveAssign, List.filter, viable_frac_frac, assignable, h, decide_false, ne_eq,
      not_false_iff, decide_true, Bool.false_and, Bool.true_and]
    rfl
  all_goals rw [resolve_eq]; simp [h]

example : resolve .plus (.frac i32 .safe) (.frac i32 .fast) = .deleted ∧
    (Ops.safe : Ops) ≠ .fast := by decide

/-- **C121** A comparison is accepted exactly between two fractions of the same policy and between
a fraction and an integer; mixed numbers and literals are compared with nothing. -/
theorem C121_comparisons {l r : Ty} : (∃ f, resolveCmp l r = .calls f .bool) ↔
    (∃ A B p, l = .frac A p ∧ r = .frac B p) ∨ (∃ A B p, l = .frac A p ∧ r = .int B) ∨
    ∃ A B p, l = .int A ∧ r = .frac B p := by
  rw [resolveCmp_eq]
  cases l <;> cases r <;> simp
  split_ifs <;> simp_all [eq_comm]

example : resolveCmp (.frac i32 .safe) (.int i64) = .calls .fracRep .bool ∧
    resolveCmp (.mixed i32 i32 .safe) (.mixed i32 i32 .safe) = .noViable ∧
    resolveCmp (.mixed i32 i32 .safe) (.frac i32 .safe) = .calls .repFrac .strange := by decide

/-- **C121** A compound assignment is accepted exactly when the left operand is a fraction and the
right one is a fraction of the same policy or an integer, and has the type of the left operand. -/
theorem C121_compound {l r t : Ty} : (∃ f, resolveAssign l r = .calls f (.ty t)) ↔
    t = l ∧ ∃ A p, l = .frac A p ∧ ((∃ B, r = .frac B p) ∨ ∃ B, r = .int B) := by
  rw [resolveAssign_eq]
  cases l <;> cases r <;> simp [eq_comm]
  split_ifs <;> simp_all [eq_comm]

/-- **C121** Compound assignment accepts less than the binary operator: a fraction can be divided by
a literal, but not be divided by one in place, and adding a mixed number in place is rejected too. -/
theorem C121_compound_missing (T : IntTy) (o : Ops) (s : Bool) :
    Ty.bin .divides (.frac T o) (.lit s o) = some (.frac T o) ∧
    resolveAssign (.frac T o) (.lit s o) = .noViable ∧
    resolveAssign (.mixed W F o) (.mixed W F o) = .noViable ∧
    resolveAssign (.mixed W F o) (.int W) = .noViable := by
  rw [resolveAssign_eq, resolveAssign_eq, resolveAssign_eq, C121_signature _ (by simp)]
  simp [signature]

example : resolveAssign (.frac i32 .safe) (.int i64) = .calls .fracRep (.ty (.frac i32 .safe)) ∧
    resolveAssign (.frac i32 .safe) (.lit false .safe) = .noViable := by decide

/-- **C121** An expression that compiles mixes no policies: the policies of the objects in it are
exactly the policy of its type. -/
theorem C121_one_policy (h : e.ty = some t) (p : Ops) : p ∈ e.policies ↔ t.policy = some p :=
  policies_eq h p

/-- `1 + 2 / 3_fr - x` for a fraction `x` over `long long`. -/
def exampleTyped : TExpr :=
  .bin .minus (.bin .plus (.leaf (.int i32) (.int 1))
    (.bin .divides (.leaf (.int i32) (.int 2)) (.leaf (.lit false .defaults) (.lit 3))))
    (.leaf (.frac i64 .defaults) (.frac ⟨1, 2⟩))

example : exampleTyped.ty = some (.frac i64 .defaults) := by decide

/-- **C121** The representation of an expression without mixed numbers is, of the integer types and
representations in it, the one the usual arithmetic conversions prefer. -/
theorem C121_type_from_leaves (hm : e.NoMixed) (h : e.ty = some t) (T : IntTy) :
    t.rep = some T ↔ T ∈ e.reps ∧ ∀ S ∈ e.reps, rank S ≤ rank T := by
  rcases reps_eq hm h with ⟨T', h1, h2⟩ | ⟨⟨s, o, rfl⟩, h2⟩
  · rw [h1]
    constructor
    · intro e; cases e; exact h2
    · intro h3; rw [h2.unique h3]
  · simp [h2, Ty.rep]

/-- **C121** Two expressions without mixed numbers that compile, with the same representations and the
same policies in whatever order and with whatever parentheses and operators, have the same type. -/
theorem C121_order_irrelevant {e' : TExpr} {t' : Ty} (hm : e.NoMixed) (hm' : e'.NoMixed)
    (h : e.ty = some t) (h' : e'.ty = some t') (hr : ∀ T, T ∈ e.reps ↔ T ∈ e'.reps)
    (hp : ∀ p, p ∈ e.policies ↔ p ∈ e'.policies) (hn : e.reps ≠ []) : t = t' := by
  rcases reps_eq hm h with ⟨T, h1, h2⟩ | ⟨-, h2⟩
  · have e2 : t'.rep = some T :=
      (C121_type_from_leaves hm' h' T).2 ⟨(hr T).1 h2.1, fun S hS => h2.2 S ((hr S).2 hS)⟩
    have e3 : t.policy = t'.policy := by
      ext p
      rw [← policies_eq h, ← policies_eq h', hp]
    cases t <;> cases t' <;> simp_all [Ty.rep, Ty.policy]
  · exact absurd h2 hn

example : exampleTyped.NoMixed ∧ exampleTyped.reps = [i32, i32, i64] := by
  refine ⟨⟨⟨trivial, trivial, trivial⟩, trivial⟩, by decide⟩

/-- **C121** With mixed numbers the parentheses matter: `(n + x) + m` and `n + (x + m)` for an
integer `n` of type `long long` have different types. -/
theorem C121_mixed_type_depends (n x m : Val) (o : Ops) :
    (TExpr.bin .plus (.bin .plus (.leaf (.int i64) n) (.leaf (.frac i32 o) x))
      (.leaf (.mixed i32 i32 o) m)).ty = some (.mixed i64 i64 o) ∧
    (TExpr.bin .plus (.leaf (.int i64) n) (.bin .plus (.leaf (.frac i32 o) x)
      (.leaf (.mixed i32 i32 o) m))).ty = some (.mixed i64 i32 o) := by
  simp [TExpr.ty, bin_eq, signature]
  decide

/-- **C121** Whatever an expression of objects of their types evaluates to is a value of its type;
an expression without a type has no value. -/
theorem C121_type_sound {w : Bool} (hw : e.WellTyped) (h : e.eval = .ok v w) :
    ∃ t, e.ty = some t ∧ v.HasTy t := by
  cases ht : e.ty with
  | none => exact absurd (eval_untyped ht v w h) id
  | some t => exact ⟨t, rfl, eval_type hw ht v w h⟩

/-- **C121** An expression that evaluates cleanly has its exact value, whichever overloads its
operators call. -/
theorem C121_exact (h : e.eval ⇓ v) (hq : e.value = some q) : v.Denotes q := eval_exact h hq

example : exampleTyped.WellTyped ∧ exampleTyped.eval ⇓ .frac ⟨7, 6⟩ ∧
    exampleTyped.value = some (7 / 6) := by
  refine ⟨?_, by decide +kernel, by decide +kernel⟩
  simp only [exampleTyped, TExpr.WellTyped, Val.HasTy]
  decide

/-- **C121** Over one representation and policy these are the expressions of C11. -/
theorem C121_homogeneous (e : Expr) (T : IntTy) (o : Ops) :
    (e.typed T o).ty = some (.frac T o) ∧
    (e.typed T o).eval = (do return .frac (← e.eval T o)) := typed_eval T o e

example : (Expr.fr .plus (.lit ⟨1, 2⟩) 3).typed i32 .safe =
    .bin .plus (.leaf (.frac i32 .safe) (.frac ⟨1, 2⟩)) (.leaf (.int i32) (.int 3)) := rfl

end Ieme
