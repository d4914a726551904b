import Verif.Lemmas.Overload
import Verif.Lemmas.MixedNumber

/-!
# Lemmas about typed expressions
-/

namespace Ieme.Overload

open Res IntTy

variable {e : TExpr} {t l r : Ty} {q x y : ℚ} {u v : Val} {op : ArithOp}

theorem bin_eq (h : ∀ A B, ¬ (l = .int A ∧ r = .int B)) : Ty.bin op l r = signature op l r := by
  cases l <;> cases r <;> cases op <;>
    first
    | exact absurd ⟨rfl, rfl⟩ (h _ _)
    | (simp only [Ty.bin, resolve_eq, signature]; done)
    | (simp only [Ty.bin, resolve_eq, signature]
       split_ifs with h <;> first
         | rfl
         | (subst h; rfl))

/-- The common type has the larger rank. -/
theorem rank_common (A B : IntTy) : (IntTy.common A B = A ∧ rank B ≤ rank A) ∨
    (IntTy.common A B = B ∧ rank A ≤ rank B) := by
  unfold IntTy.common rank
  split_ifs <;> simp_all <;> omega

theorem rank_inj {A B : IntTy} (h : rank A = rank B) : A = B := by
  obtain ⟨s, b, h1⟩ := A
  obtain ⟨s', b', h2⟩ := B
  cases s <;> cases s' <;> simp [rank] at h ⊢ <;> omega

theorem common_symm (A B : IntTy) : IntTy.common A B = IntTy.common B A := by
  rcases rank_common A B with h | h <;> rcases rank_common B A with h' | h' <;>
    rw [h.1, h'.1] <;> exact rank_inj (by omega)

/-- The result of an operator that is not built in. -/
theorem bin_some (h : Ty.bin op l r = some t) : (∃ A B, l = .int A ∧ r = .int B ∧
    t = .int (IntTy.common A B)) ∨ signature op l r = some t := by
  by_cases hi : ∀ A B, ¬ (l = .int A ∧ r = .int B)
  · exact .inr (bin_eq hi ▸ h)
  · push Not at hi
    obtain ⟨A, B, rfl, rfl⟩ := hi
    cases h
    exact .inl ⟨A, B, rfl, rfl, rfl⟩

/-- The policy of the result. -/
theorem bin_policy (h : Ty.bin op l r = some t) (p : Ops) :
    t.policy = some p ↔ l.policy = some p ∨ r.policy = some p := by
  rcases bin_some h with ⟨A, B, rfl, rfl, rfl⟩ | h
  · simp [Ty.policy]
  · unfold signature at h
    split at h <;> first
      | (cases h; simp [Ty.policy]; done)
      | (split_ifs at h with ho; cases h; simp [Ty.policy, ho]; done)
      | (cases h; done)

/-- The policies in an expression are those of its type. -/
theorem policies_eq (h : e.ty = some t) (p : Ops) : p ∈ e.policies ↔ t.policy = some p := by
  induction e generalizing t with
  | leaf t' v => cases h; simp [TExpr.policies]
  | pos e ih => exact ih h
  | neg e ih =>
    obtain ⟨t', h', rfl⟩ := Option.map_eq_some_iff.1 h
    rw [TExpr.policies, ih h']
    cases t' <;> rfl
  | bin op l r ih1 ih2 =>
    simp only [TExpr.ty, Option.bind_eq_some_iff] at h
    obtain ⟨a, ha, b, hb, h⟩ := h
    rw [TExpr.policies, List.mem_append, ih1 ha, ih2 hb, bin_policy h]

/-! ### Representations -/

/-- `T` is the first in rank of the list. -/
def Top (s : List IntTy) (T : IntTy) : Prop := T ∈ s ∧ ∀ S ∈ s, rank S ≤ rank T

theorem Top.common {s s' : List IntTy} {A B : IntTy} (h : Top s A) (h' : Top s' B) :
    Top (s ++ s') (IntTy.common A B) := by
  rcases rank_common A B with ⟨e, hr⟩ | ⟨e, hr⟩ <;> rw [e]
  · refine ⟨List.mem_append_left _ h.1, fun S hS => ?_⟩
    rcases List.mem_append.1 hS with hS | hS
    · exact h.2 S hS
    · exact (h'.2 S hS).trans hr
  · refine ⟨List.mem_append_right _ h'.1, fun S hS => ?_⟩
    rcases List.mem_append.1 hS with hS | hS
    · exact (h.2 S hS).trans hr
    · exact h'.2 S hS

theorem Top.unique {s : List IntTy} {A B : IntTy} (h : Top s A) (h' : Top s B) : A = B :=
  rank_inj (le_antisymm (h'.2 A h.1) (h.2 B h'.1))

/-- What the type of an expression without mixed numbers says about its leaves. -/
theorem reps_eq (hm : e.NoMixed) (h : e.ty = some t) :
    (∃ T, t.rep = some T ∧ Top e.reps T) ∨ ((∃ s o, t = .lit s o) ∧ e.reps = []) := by
  induction e generalizing t with
  | leaf t' v =>
    cases h
    cases t' with
    | int T => exact .inl ⟨T, rfl, by simp [Top, TExpr.reps]⟩
    | frac T o => exact .inl ⟨T, rfl, by simp [Top, TExpr.reps]⟩
    | mixed W F o => exact absurd hm id
    | lit s o => exact .inr ⟨⟨s, o, rfl⟩, rfl⟩
  | pos e ih => exact ih hm h
  | neg e ih =>
    obtain ⟨t', h', rfl⟩ := Option.map_eq_some_iff.1 h
    rcases ih hm h' with ⟨T, h1, h2⟩ | ⟨⟨s, o, rfl⟩, h2⟩
    · refine .inl ⟨T, ?_, h2⟩
      cases t' <;> simp_all [Ty.neg, Ty.rep]
    · exact .inr ⟨⟨true, o, rfl⟩, h2⟩
  | bin op l r ih1 ih2 =>
    simp only [TExpr.ty, Option.bind_eq_some_iff] at h
    obtain ⟨a, ha, b, hb, h⟩ := h
    have e1 := ih1 hm.1 ha
    have e2 := ih2 hm.2 hb
    rcases bin_some h with ⟨A, B, rfl, rfl, rfl⟩ | h
    · obtain ⟨T, h1, h2⟩ | ⟨⟨s, o, h1⟩, -⟩ := e1 <;> [skip; cases h1]
      obtain ⟨T', h1', h2'⟩ | ⟨⟨s, o, h1'⟩, -⟩ := e2 <;> [skip; cases h1']
      cases h1; cases h1'
      exact .inl ⟨_, rfl, h2.common h2'⟩
    · rcases e1 with ⟨A, hA, tA⟩ | ⟨⟨s, o, rfl⟩, nA⟩ <;>
        rcases e2 with ⟨B, hB, tB⟩ | ⟨⟨s', o', rfl⟩, nB⟩
      · left
        have := tA.common tB
        cases a <;> cases b <;> cases hA <;> cases hB <;> cases op <;>
          simp only [signature, reduceCtorEq] at h <;>
          first
          | (cases h; exact ⟨_, rfl, this⟩)
          | (split_ifs at h; cases h; exact ⟨_, rfl, this⟩)
      · left
        rw [TExpr.reps, nB, List.append_nil]
        cases a <;> cases hA <;> cases op <;> simp only [signature, reduceCtorEq] at h <;>
          first
          | (cases h; exact ⟨_, rfl, tA⟩)
          | (split_ifs at h; cases h; exact ⟨_, rfl, tA⟩)
      · exfalso
        cases b <;> cases hB <;> cases op <;> simp [signature] at h
      · exfalso
        cases op <;> simp [signature] at h

/-! ### Evaluation -/

theorem value_denotes (h : v.value = some q) : v.Denotes q := by
  cases v with
  | int n => simpa [Val.value, Val.Denotes] using h
  | frac f =>
    simp only [Val.value, litValue] at h
    split_ifs at h with hd
    exact ⟨hd, Option.some.inj h⟩
  | mixed m =>
    simp only [Val.value, litValue, Option.map_eq_some_iff] at h
    obtain ⟨y, h, rfl⟩ := h
    split_ifs at h with hd
    exact ⟨y, ⟨hd, Option.some.inj h⟩, rfl⟩
  | lit n => simpa [Val.value, Val.Denotes] using h

theorem builtin_exact {A B : IntTy} {m n k : ℤ} (h : builtin A B op m n ⇓ k)
    (hq : binValue op (.int A) (.int B) m n = some q) : (k : ℚ) = q := by
  simp only [builtin, bind_eq_clean, conv_clean] at h
  obtain ⟨x', ⟨-, rfl⟩, y', ⟨-, rfl⟩, h⟩ := h
  cases op <;> simp only [binValue, ArithOp.value, Option.some.injEq] at h hq
  · obtain ⟨-, rfl⟩ := add_clean.1 h; subst hq; push_cast; rfl
  · obtain ⟨-, rfl⟩ := sub_clean.1 h; subst hq; push_cast; rfl
  · obtain ⟨-, rfl⟩ := mul_clean.1 h; subst hq; push_cast; rfl
  · obtain ⟨-, -, rfl⟩ := div_clean.1 h
    split_ifs at hq
    rw [← Option.some.inj hq, ratTrunc_div]
  · obtain ⟨-, -, rfl⟩ := mod_clean.1 h
    split_ifs at hq
    rw [← Option.some.inj hq, ratTrunc_div, Int.tmod_def]
    push_cast; rfl

theorem negate_exact (h : negate t u ⇓ v) (hx : u.Denotes x) : v.Denotes (-x) := by
  unfold negate at h
  split at h
  · simp only [bind_eq_clean, pure_eq_ok, and_true] at h
    obtain ⟨k, hk, rfl⟩ := h
    obtain ⟨-, rfl⟩ := neg_clean.1 hk
    cases hx; simp [Val.Denotes]
  · simp only [bind_eq_clean, pure_eq_ok, and_true] at h
    obtain ⟨k, hk, rfl⟩ := h
    exact Ops.negate_exact hx hk
  · simp only [bind_eq_clean, pure_eq_ok, and_true] at h
    obtain ⟨k, hk, rfl⟩ := h
    exact (Mixed.neg_ok hk).2.2 x hx
  · simp only [bind_eq_clean, pure_eq_ok, and_true, DenLit.neg] at h
    obtain ⟨k, ⟨a, ha, b, hb, rfl⟩, rfl⟩ := h
    obtain ⟨-, rfl⟩ := conv_clean.1 ha
    obtain ⟨-, rfl⟩ := neg_clean.1 hb
    cases hx; simp [Val.Denotes]
  · cases h

theorem arith_exact {L R : IntTy} {o : Ops} {a : Args} {f : Raw} (ha : a.Denote x y)
    (h : Fraction.arith L R o op a ⇓ f) : op.Exact x y f := by
  obtain ⟨a', h1, h2⟩ := bind_eq_clean.1 h
  rw [Fraction.toCommon_clean h1] at h2
  exact Ops.arith_exact ha h2

theorem call_exact {f : Fn} {w : Val} (h : call f op l r u v ⇓ w) (hx : u.Denotes x)
    (hy : v.Denotes y) (hf : resolve op l r = .calls f (.ty t)) (hq : op.value x y = some q) :
    w.Denotes q := by
  unfold call at h
  split at h
  all_goals try simp only [bind_eq_clean, pure_eq_ok, and_true] at h
  all_goals try obtain ⟨k, hk, rfl⟩ := h
  · exact (arith_exact (a := .ff _ _) ⟨hx, hy⟩ hk).value hq
  · exact (arith_exact (a := .fr _ _) ⟨hx, hy⟩ hk).value hq
  · exact (arith_exact (a := .rf _ _) ⟨hx, hy⟩ hk).value hq
  all_goals first | cases h | skip
  all_goals
    cases op <;> simp only [resolve_eq, reduceCtorEq, Resolution.calls.injEq, false_and] at hf
  all_goals simp only [ArithOp.value, Option.some.injEq] at hq
  · subst hq; exact (Mixed.add_ok hk).2.2 _ _ hx hy
  · subst hq; exact (Mixed.addFraction_ok hk).2.2.2 _ _ hx hy
  · subst hq; rw [add_comm]; exact (Mixed.addFraction_ok hk).2.2.2 _ _ hy hx
  · subst hq; cases hy; exact (Mixed.addWhole_ok hk).2.2 _ hx
  · subst hq; cases hx; rw [add_comm]; exact (Mixed.addWhole_ok hk).2.2 _ hy
  · simp only [DenLit.divFraction, bind_eq_clean, conv_clean] at hk
    obtain ⟨d, ⟨-, rfl⟩, hk⟩ := hk
    exact (arith_exact (a := .fr _ _) ⟨hx, hy⟩ hk).value (op := .divides) hq
  · simp only [DenLit.divRep, bind_eq_clean, conv_clean, pure_eq_ok, and_true] at hk
    obtain ⟨d, ⟨-, rfl⟩, rfl⟩ := hk
    split_ifs at hq with h0
    cases hx; cases hy
    exact ⟨fun h => h0 (by exact_mod_cast h), Option.some.inj hq⟩

theorem apply_exact {w : Val} (h : apply op l r u v ⇓ w) (hx : u.Denotes x)
    (hy : v.Denotes y) (hq : binValue op l r x y = some q) : w.Denotes q := by
  unfold apply at h
  split at h
  · simp only [bind_eq_clean, pure_eq_ok, and_true] at h
    obtain ⟨k, hk, rfl⟩ := h
    cases hx; cases hy
    exact builtin_exact hk hq
  · split at h
    · rename_i heq
      refine call_exact h hx hy heq ?_
      unfold binValue at hq
      split at hq
      · rw [resolve_eq] at heq; cases heq
      · exact hq
    · cases h

theorem eval_exact (h : e.eval ⇓ v) (hq : e.value = some q) : v.Denotes q := by
  induction e generalizing v q with
  | leaf t u =>
    obtain ⟨rfl, -⟩ := pure_eq_ok.1 h
    exact value_denotes hq
  | pos e ih => exact ih h hq
  | neg e ih =>
    rw [TExpr.eval] at h
    split at h
    · obtain ⟨u, hu, h⟩ := bind_eq_clean.1 h
      obtain ⟨x, hx, rfl⟩ := Option.map_eq_some_iff.1 hq
      exact negate_exact h (ih hu hx)
    · cases h
  | bin op l r ih1 ih2 =>
    rw [TExpr.eval] at h
    split at h
    · rename_i a b ha hb
      obtain ⟨u, hu, h⟩ := bind_eq_clean.1 h
      obtain ⟨v, hv, h⟩ := bind_eq_clean.1 h
      simp only [TExpr.value, ha, hb, Option.bind_eq_some_iff] at hq
      obtain ⟨x, hx, y, hy, hq⟩ := hq
      exact apply_exact h (ih1 hu hx) (ih2 hv hy) hq
    · cases h

/-! ### Types of values -/

theorem negate_type (hu : u.HasTy t) : (negate t u).All fun v => v.HasTy t.neg := by
  cases t <;> cases u <;> first | exact absurd hu id | skip
  · exact .bind neg_all fun _ h => .pure h
  · exact .bind (Ops.negate_all hu) fun _ h => .pure h
  · exact .bind (Mixed.neg_all hu) fun _ h => .pure h
  · refine .bind (P := fun l => l.signed = true ∧ l.InRange) ?_ ?_
    · exact .bind' fun _ => .bind neg_all fun _ h => .pure ⟨rfl, h⟩
    · rintro ⟨s, n⟩ ⟨h1, h2⟩
      cases h1
      exact .pure h2

theorem apply_type (hu : u.HasTy l) (hv : v.HasTy r) (hb : Ty.bin op l r = some t) :
    (apply op l r u v).All fun w => w.HasTy t := by
  rcases bin_some hb with ⟨A, B, rfl, rfl, rfl⟩ | h <;> clear hb
  · cases u <;> first | exact absurd hu id | skip
    cases v <;> first | exact absurd hv id | skip
    refine .bind (P := (IntTy.common A B).InRange) ?_ fun _ h => .pure h
    refine .bind conv_all fun _ hx => .bind' fun _ => ?_
    cases op
    · exact add_all
    · exact sub_all
    · exact mul_all
    · exact div_all
    · exact fun _ _ => mod_inRange hx
  · unfold signature at h
    split at h
    all_goals first | (cases h; done) | skip
    all_goals
      cases u <;> first | exact absurd hu id | skip
      cases v <;> first | exact absurd hv id | skip
    all_goals try split_ifs at h with ho; subst ho
    all_goals cases h
    · simp only [apply, resolve_eq, if_true, call]
      exact .bind (Fraction.arith_all (a := .ff _ _) ⟨hu, hv⟩) fun _ h => .pure h
    · simp only [apply, resolve_eq, call]
      exact .bind (Fraction.arith_all (a := .fr _ _) ⟨hu, hv⟩) fun _ h => .pure h
    · simp only [apply, resolve_eq, call]
      exact .bind (Fraction.arith_all (a := .rf _ _) ⟨hu, hv⟩) fun _ h => .pure h
    · simp only [apply, resolve_eq, if_true, call]
      exact .bind Mixed.add_all fun _ h => .pure h
    · simp only [apply, resolve_eq, if_true, call]
      exact .bind Mixed.addFraction_all fun _ h => .pure h
    · simp only [apply, resolve_eq, if_true, call]
      exact .bind Mixed.addFraction_all fun _ h => .pure h
    · simp only [apply, resolve_eq, call]
      exact .bind (Mixed.addWhole_all hu.2) fun _ h => .pure h
    · simp only [apply, resolve_eq, call]
      rw [common_symm]
      exact .bind (Mixed.addWhole_all hv.2) fun _ h => .pure h
    · simp only [apply, resolve_eq, if_true, call]
      exact .bind (.bind conv_all fun _ h => Fraction.arith_self_all (a := .fr _ _) ⟨hu, h⟩)
        fun _ h => .pure h
    · simp only [apply, resolve_eq, call]
      exact .bind (P := Raw.InRange _) (.bind conv_all fun _ h => .pure ⟨hu, h⟩) fun _ h => .pure h

theorem eval_type (hw : e.WellTyped) (h : e.ty = some t) : e.eval.All fun v => v.HasTy t := by
  induction e generalizing t with
  | leaf t' u => cases h; exact .pure hw
  | pos e ih => exact ih hw h
  | neg e ih =>
    obtain ⟨t', h', rfl⟩ := Option.map_eq_some_iff.1 h
    simp only [TExpr.eval, h']
    exact .bind (ih hw h') fun _ hu => negate_type hu
  | bin op l r ih1 ih2 =>
    simp only [TExpr.ty, Option.bind_eq_some_iff] at h
    obtain ⟨a, ha, b, hb, h⟩ := h
    simp only [TExpr.eval, ha, hb]
    exact .bind (ih1 hw.1 ha) fun _ hu => .bind (ih2 hw.2 hb) fun _ hv => apply_type hu hv h

/-- An expression without a type is not evaluated. -/
theorem eval_untyped (h : e.ty = none) : e.eval.All fun _ => False := by
  induction e with
  | leaf t' u => cases h
  | pos e ih => exact ih h
  | neg e ih =>
    rw [TExpr.ty, Option.map_eq_none_iff] at h
    simp only [TExpr.eval, h]
    exact .fault
  | bin op l r ih1 ih2 =>
    rw [TExpr.eval]
    split
    · rename_i a b ha hb
      rw [TExpr.ty, ha, hb] at h
      refine .bind' fun u => .bind' fun v => ?_
      unfold apply
      split
      · cases h
      · split
        · rename_i heq
          change Ty.bin op a b = none at h
          unfold Ty.bin at h
          split at h
          · cases h
          · rw [heq] at h; cases h
        · exact .fault
    · exact .fault

/-! ### One representation -/

theorem typed_eval (T : IntTy) (o : Ops) : ∀ e : Expr, (e.typed T o).ty = some (.frac T o) ∧
    (e.typed T o).eval = (do return .frac (← e.eval T o))
  | .lit f => ⟨rfl, rfl⟩
  | .neg e => by
    obtain ⟨h1, h2⟩ := typed_eval T o e
    refine ⟨by simp [Expr.typed, TExpr.ty, h1, Ty.neg], ?_⟩
    simp only [Expr.typed, TExpr.eval, h1, h2, Expr.eval, bind_assoc, pure_bind, negate]
  | .pos e => by
    obtain ⟨h1, h2⟩ := typed_eval T o e
    refine ⟨h1, ?_⟩
    simp only [Expr.typed, TExpr.eval, h2, Expr.eval, bind_assoc, pure_bind, Fraction.pos]
  | .ff op a b => by
    obtain ⟨h1, h2⟩ := typed_eval T o a
    obtain ⟨h3, h4⟩ := typed_eval T o b
    refine ⟨by simp [Expr.typed, TExpr.ty, h1, h3, bin_eq, signature, IntTy.common], ?_⟩
    simp only [Expr.typed, TExpr.eval, h1, h2, h3, h4, Expr.eval, bind_assoc, pure_bind, apply,
      resolve_eq, if_true, call]
  | .fr op a n => by
    obtain ⟨h1, h2⟩ := typed_eval T o a
    refine ⟨by simp [Expr.typed, TExpr.ty, h1, bin_eq, signature, IntTy.common], ?_⟩
    simp only [Expr.typed, TExpr.eval, TExpr.ty, h1, h2, Expr.eval, bind_assoc, pure_bind, apply,
      resolve_eq, call]
  | .rf op n b => by
    obtain ⟨h1, h2⟩ := typed_eval T o b
    refine ⟨by simp [Expr.typed, TExpr.ty, h1, bin_eq, signature, IntTy.common], ?_⟩
    simp only [Expr.typed, TExpr.eval, TExpr.ty, h1, h2, Expr.eval, bind_assoc, pure_bind, apply,
      resolve_eq, call]

end Ieme.Overload
