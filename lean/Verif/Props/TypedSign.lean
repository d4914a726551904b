import Verif.Lemmas.TypedSign
import Verif.Props.TypedWiden

/-!
# C127: programs over variables of different types whose denominators stay positive
-/

namespace Ieme

open Res IntTy Overload

variable {Γ : Decls} {m m' : Vars} {s s' : ℕ → ℚ} {c : Stmt} {n k : ℕ} {l r : Ty} {u v w : Val}
  {x y q : ℚ}

/-- **C127** A program all of whose quotients and reciprocals get positive denominators computes
exactly its rational meaning, whatever it compares with what and under whatever policy: order
comparisons of fractions with integers, and those of `fast`, are right.  Denominators stay positive. -/
theorem C127_exact (hr : Straight Γ c s s') (hm : m.Holds s) (hu : m.Upright)
    (hp : c.All VExpr.Proper) (h : c.exec Γ n m ⇓ some m') : m'.Holds s' ∧ m'.Upright :=
  (straight_exec hr hp).1 m n m' hm hu h

/-- **C127** Such a program does not run for ever. -/
theorem C127_terminates (hr : Straight Γ c s s') (hp : c.All VExpr.Proper) :
    ∃ N, ∀ m : Vars, m.Holds s → m.Upright → ∀ n ≥ N, ¬ (c.exec Γ n m ⇓ none) :=
  (straight_exec hr hp).2

/-- **C127** These programs have the meaning of C125, with a condition on the divisors. -/
theorem C127_meaning (hr : Straight Γ c s s') : Meaning Γ c s s' := hr.meaning

/-- `if (x < 0) x = x / -2; else x = reciprocal(x);` -/
def exampleSign : Stmt :=
  .ite .less (.var 1) (.obj (.int i32) (.int 0))
    (.assign 1 (.bin .divides (.var 1) (.obj (.int i32) (.int (-2)))))
    (.call .reciprocal 1 (.var 1))

/-- From `x = -1/2` the example takes the first branch, divides by a negative number, and ends with
`x = 1/4`; from `x = 2/3` it takes the second. -/
example :
    let m : Vars := fun | 0 => .int 0 | 1 => .frac ⟨-1, 2⟩ | _ => .mixed ⟨0, ⟨0, 1⟩⟩
    let s : ℕ → ℚ := fun | 1 => -1 / 2 | _ => 0
    Straight exampleDecls exampleSign s (put s 1 (1 / 4)) ∧ m.Holds s ∧ m.Upright ∧
    exampleSign.All VExpr.Proper ∧ exampleSign.Compiles exampleDecls ∧
    (exampleSign.exec exampleDecls 2 m).bind (fun r => pure (r.map fun m => m 1)) ⇓
      some (.frac ⟨1, 4⟩) ∧
    (exampleSign.exec exampleDecls 2 (m.set 1 (.frac ⟨2, 3⟩))).bind
      (fun r => pure (r.map fun m => m 1)) ⇓ some (.frac ⟨3, 2⟩) := by
  refine ⟨.iteTrue (p := -1 / 2) (q := 0) ?_ ?_ trivial trivial ?_ (.assign ?_ ⟨trivial, trivial, ?_⟩),
    fun x => ?_, fun x => ?_, ?_, ?_, by decide +kernel, by decide +kernel⟩
  · simp [VExpr.value]
  · simp [VExpr.value, Val.value]
  · norm_num [CmpOp.Holds]
  · norm_num [VExpr.value, VExpr.ty, Val.value, binValue, ArithOp.value, exampleDecls]
  · rintro - a b y ha hb hy
    cases ha
    exact .inr trivial
  · match x with
    | 0 => exact ⟨by simp [Val.Denotes], trivial⟩
    | 1 => exact ⟨by norm_num [Val.Denotes, Denotes], trivial⟩
    | x + 2 =>
      exact ⟨⟨0, by norm_num [Denotes], by simp⟩, 0, by norm_num [Denotes], by simp, by simp, by simp⟩
  · match x with
    | 0 => trivial
    | 1 => exact two_pos
    | x + 2 => exact one_pos
  · exact ⟨trivial, trivial, ⟨trivial, trivial⟩, trivial⟩
  · exact ⟨⟨_, _, rfl, rfl, rfl⟩, ⟨_, rfl, by decide⟩, _, _, rfl, rfl, by decide⟩

/-- **C127** What can be seen without running the program: if quotients are normalised by the policy or
their divisors are always positive, and `reciprocal` is not called, every run is of this kind. -/
theorem C127_static (hr : Meaning Γ c s s') (hc : c.Upright Γ) : Straight Γ c s s' :=
  straight_of_upright hr hc

/-- `while (x < 2) x = (x + 1 / 2_fr) / n;` with the default policy, whatever `n` is; and not the
program of `C125_order_wrong`, which divides by `-2_fr`. -/
example :
    (Stmt.loop .less (.var 1) (.obj (.int i32) (.int 2)) (.assign 1 (.bin .divides (.bin .plus (.var 1)
      (.bin .divides (.obj (.int i64) (.int 1)) (.obj (.lit false .defaults) (.lit 2))))
        (.var 0)))).Upright exampleDecls ∧
    ¬ (Stmt.assign 1 (.bin .divides (.obj (.int i64) (.int 1))
        (.neg (.obj (.lit false .defaults) (.lit 2))))).Upright exampleDecls := by
  refine ⟨⟨fun s => ⟨trivial, trivial⟩, fun s => ⟨⟨trivial, ⟨trivial, trivial, ?_⟩, nofun⟩, trivial, ?_⟩⟩,
    fun h => ?_⟩
  · rintro - a b y ha hb hy
    cases ha; cases hb; cases hy
    norm_num [DivisorOk]
  · rintro - a b y ha hb hy
    have : a = .frac i64 .defaults := by
      revert ha
      decide +kernel +revert
    subst this
    exact .inr trivial
  · have := (h fun _ => 0).2.2 rfl _ _ _ rfl rfl rfl
    norm_num [DivisorOk, Ty.neg] at this

/-- **C127** The condition on divisors is exact: when an operator is applied to operands with
positive denominators and the result has a value, its denominator is positive if and only if the
condition holds. -/
theorem C127_divisor_iff {op : ArithOp} (h : apply op l r u v ⇓ w) (hx : u.Denotes x)
    (hy : v.Denotes y) (hq : binValue op l r x y = some q) (hu : u.Upright) (hv : v.Upright) :
    w.Upright ↔ (op = .divides → DivisorOk l r y) :=
  ⟨fun hw ho => divisorOk_of_upright h hx hy hu hv hw ho, apply_upright h hx hy hq hu hv⟩

example : apply .divides (.frac i32 .fast) (.int i32) (.frac ⟨1, 2⟩) (.int (-3)) ⇓ .frac ⟨1, -6⟩ ∧
    apply .divides (.frac i32 .defaults) (.int i32) (.frac ⟨1, 2⟩) (.int (-3)) ⇓ .frac ⟨-1, 6⟩ ∧
    apply .divides (.frac i32 .defaults) (.lit true .defaults) (.frac ⟨1, 2⟩) (.lit (-3)) ⇓
      .frac ⟨-1, 6⟩ ∧
    apply .divides (.int i32) (.lit true .defaults) (.int 1) (.lit (-3)) ⇓ .frac ⟨1, -3⟩ := by
  decide +kernel

/-- **C127** Such a program completes, when all its integer types and representations are replaced by
one wide enough signed type, with the same exact results. -/
theorem C127_completes (hr : Straight Γ c s s') (hm : m.Holds s) (hu : m.Upright) (hT : m.HasTy Γ)
    (hΓ : Γ.NoLiterals) (hc : c.Compiles Γ) (ho : c.All VExpr.Objects)
    (hl : c.All VExpr.SmallLiterals) (hp : c.All VExpr.Proper) :
    ∃ (n N : ℕ) (m' : Vars), m'.Holds s' ∧ m'.Upright ∧ ∀ T : IntTy, T.signed = true → N ≤ T.bits →
      ∀ k ≥ n, (c.retype fun _ => T).exec (Γ.retype fun _ => T) k m ⇓ some m' := by
  obtain ⟨n, N, m', h, hu', -, h'⟩ := settles_straight hr hm hu (like_of_hasTy hT hΓ) hΓ hc ho hl hp
  exact ⟨n, N, m', h, hu', h'⟩

/-- The example above meets the other conditions, too. -/
example : exampleSign.All VExpr.Objects ∧ exampleSign.All VExpr.SmallLiterals ∧
    ¬ exampleSign.Reliable exampleDecls := by
  refine ⟨?_, ?_, ?_⟩
  · simp only [exampleSign, Stmt.All, VExpr.Objects, Val.HasTy]; decide
  · simp [exampleSign, Stmt.All, VExpr.SmallLiterals]
  · simp [exampleSign, Stmt.Reliable, Overload.Reliable, VExpr.ty, exampleDecls, CmpOp.IsOrder]

/-- **C127** (negation) Without the condition on reciprocals the answer is wrong with the default
policy, too: `x = reciprocal(x); if (x < 0) n = 1;` from `x = -1/2` leaves `n` alone. -/
theorem C127_reciprocal_wrong :
    let c : Stmt := .seq (.call .reciprocal 1 (.var 1))
      (.ite .less (.var 1) (.obj (.int i32) (.int 0)) (.assign 0 (.obj (.int i32) (.int 1))) .skip)
    let m : Vars := fun | 0 => .int 0 | 1 => .frac ⟨-1, 2⟩ | _ => .mixed ⟨0, ⟨0, 1⟩⟩
    c.Compiles exampleDecls ∧ m.Upright ∧
    (∀ (s s' : ℕ → ℚ), m.Holds s → Meaning exampleDecls c s s' → s' 0 = 1) ∧
    (c.exec exampleDecls 3 m).bind (fun r => pure (r.map fun m => (m 0, m 1))) ⇓
      some (.int 0, .frac ⟨2, -1⟩) := by
  refine ⟨⟨⟨_, _, rfl, rfl, by decide⟩, ⟨_, _, rfl, rfl, rfl⟩, ⟨_, rfl, rfl⟩, trivial⟩, fun x => ?_,
    fun s s' hm h => ?_, by decide +kernel⟩
  · match x with
    | 0 => trivial
    | 1 => exact two_pos
    | x + 2 => exact one_pos
  have h1 : s 1 = -1 / 2 := by
    have := (hm 1).1
    norm_num [Val.Denotes, Denotes] at this
    linarith
  cases h with
  | seq hc hd =>
    cases hc with
    | call he hq =>
      simp only [VExpr.value, h1, Option.some.injEq] at he
      subst he
      norm_num [Call.value] at hq
      subst hq
      cases hd with
      | iteTrue a b hlt hc =>
        cases hc with
        | assign he' =>
          norm_num [VExpr.value, Val.value] at he'
          simp [put, ← he']
      | iteFalse a b hlt hc =>
        norm_num [VExpr.value, Val.value, put] at a b
        subst a; subst b
        norm_num [CmpOp.Holds] at hlt

end Ieme
