import Verif.Lemmas.SafeFast
import Verif.Spec.Expr

/-!
# Operators of `fraction<Rep, Ops>`
-/

namespace Ieme

open Res IntTy

variable {T L R : IntTy}

@[simp] theorem IntTy.common_self (T : IntTy) : IntTy.common T T = T := by
  simp [IntTy.common]

theorem Fraction.toCommon_self (a : Args) : Fraction.toCommon T T a ⇓ a := by
  cases a <;> simp [Fraction.toCommon, pure_def]

theorem Fraction.arith_self (o : Ops) (op : ArithOp) (a : Args) :
    Fraction.arith T T o op a = o.arith T op a := by
  simp only [Fraction.arith, Fraction.toCommon_self, ok_bind_false, IntTy.common_self]

theorem Fraction.cmp_self (o : Ops) (op : CmpOp) (a : Args) :
    Fraction.cmp T T o op a = o.cmp T op a := by
  simp only [Fraction.cmp, Fraction.toCommon_self, ok_bind_false, IntTy.common_self]

theorem Raw.conv_clean {f r : Raw} : f.conv T ⇓ r ↔ f.InRange T ∧ r = f := by
  simp only [Raw.conv, bind_eq_clean, IntTy.conv_clean, pure_eq_ok, and_true]
  constructor
  · rintro ⟨_, ⟨h1, rfl⟩, _, ⟨h2, rfl⟩, rfl⟩; exact ⟨⟨h1, h2⟩, rfl⟩
  · rintro ⟨⟨h1, h2⟩, rfl⟩; exact ⟨_, ⟨h1, rfl⟩, _, ⟨h2, rfl⟩, rfl⟩

/-- A clean conversion of the operands to the common type changes nothing. -/
theorem Fraction.toCommon_clean {a a' : Args} (h : Fraction.toCommon L R a ⇓ a') : a' = a := by
  have h1 : ∀ {S : IntTy} {f r : Raw}, (if S = IntTy.common L R then pure f
      else f.conv (IntTy.common L R)) = .ok r false → r = f := by
    intro S f r h
    split at h
    · simp at h; exact h.symm
    · exact (Raw.conv_clean.1 h).2
  have h2 : ∀ {S : IntTy} {x r : ℤ}, (if S = IntTy.common L R then pure x
      else (IntTy.common L R).conv x) = .ok r false → r = x := by
    intro S f r h
    split at h
    · simp at h; exact h.symm
    · exact (IntTy.conv_clean.1 h).2
  cases a <;> simp only [Fraction.toCommon, bind_eq_clean, pure_eq_ok, and_true] at h
  · obtain ⟨_, e1, _, e2, rfl⟩ := h; rw [h1 e1, h1 e2]
  · obtain ⟨_, e1, _, e2, rfl⟩ := h; rw [h1 e1, h2 e2]
  · obtain ⟨_, e1, _, e2, rfl⟩ := h; rw [h2 e1, h1 e2]

/-- Operands that fit the common type are converted without change. -/
theorem Fraction.toCommon_of_inRange {a : Args} (h : a.InRange (IntTy.common L R)) :
    Fraction.toCommon L R a ⇓ a := by
  have h1 : ∀ {S : IntTy} {f : Raw}, f.InRange (IntTy.common L R) →
      (if S = IntTy.common L R then pure f else f.conv (IntTy.common L R)) = .ok f false := by
    intro S f h
    split
    · rfl
    · exact Raw.conv_clean.2 ⟨h, rfl⟩
  have h2 : ∀ {S : IntTy} {x : ℤ}, (IntTy.common L R).InRange x →
      (if S = IntTy.common L R then pure x else (IntTy.common L R).conv x) = .ok x false := by
    intro S f h
    split
    · rfl
    · exact IntTy.conv_clean.2 ⟨h, rfl⟩
  cases a <;> simp only [Fraction.toCommon]
  · simp only [h1 h.1, h1 h.2, ok_bind_false]; rfl
  · simp only [h1 h.1, h2 h.2, ok_bind_false]; rfl
  · simp only [h2 h.1, h1 h.2, ok_bind_false]; rfl

/-! ## Expressions -/

theorem ArithOp.Exact.value {op : ArithOp} {x y q : ℚ} {r : Raw} (h : op.Exact x y r)
    (hv : op.value x y = some q) : Denotes r q := by
  cases op <;> simp only [ArithOp.value, Option.some.injEq] at hv
  · subst hv; exact h
  · subst hv; exact h
  · subst hv; exact h
  · split at hv
    · cases hv
    · rename_i hy
      simp only [Option.some.injEq] at hv
      subst hv; exact h.1 hy
  · split at hv
    · cases hv
    · simp only [Option.some.injEq] at hv
      subst hv; exact h.2

theorem Expr.eval_exact {o : Ops} {e : Expr} {r : Raw} {q : ℚ} (h : e.eval T o ⇓ r)
    (hv : e.value = some q) : Denotes r q := by
  induction e generalizing r q with
  | lit f =>
    simp only [Expr.eval, pure_eq_ok, and_true] at h
    subst h
    simp only [Expr.value, litValue] at hv
    split at hv
    · cases hv
    · rename_i hd
      simp only [Option.some.injEq] at hv
      exact ⟨hd, hv⟩
  | neg e ih =>
    simp only [Expr.eval, bind_eq_clean] at h
    obtain ⟨v, h1, h2⟩ := h
    simp only [Expr.value, Option.map_eq_some_iff] at hv
    obtain ⟨x, hx, rfl⟩ := hv
    exact Ops.negate_exact (ih h1 hx) h2
  | pos e ih =>
    simp only [Expr.eval, bind_eq_clean, pure_eq_ok, and_true] at h
    obtain ⟨v, h1, rfl⟩ := h
    exact ih h1 hv
  | ff op e1 e2 ih1 ih2 =>
    simp only [Expr.eval, bind_eq_clean, Fraction.arith_self] at h
    obtain ⟨v1, h1, v2, h2, h3⟩ := h
    simp only [Expr.value, Option.bind_eq_some_iff] at hv
    obtain ⟨x, hx, y, hy, hv⟩ := hv
    have ha : (Args.ff v1 v2).Denote x y := ⟨ih1 h1 hx, ih2 h2 hy⟩
    exact (Ops.arith_exact ha h3).value hv
  | fr op e n ih =>
    simp only [Expr.eval, bind_eq_clean, Fraction.arith_self] at h
    obtain ⟨v1, h1, h3⟩ := h
    simp only [Expr.value, Option.bind_eq_some_iff] at hv
    obtain ⟨x, hx, hv⟩ := hv
    have ha : (Args.fr v1 n).Denote x n := ⟨ih h1 hx, rfl⟩
    exact (Ops.arith_exact ha h3).value hv
  | rf op n e ih =>
    simp only [Expr.eval, bind_eq_clean, Fraction.arith_self] at h
    obtain ⟨v1, h1, h3⟩ := h
    simp only [Expr.value, Option.bind_eq_some_iff] at hv
    obtain ⟨x, hx, hv⟩ := hv
    have ha : (Args.rf n v1).Denote n x := ⟨rfl, ih h1 hx⟩
    exact (Ops.arith_exact ha h3).value hv

/-! ## Canonical results -/

theorem Raw.reduce_flag {mode : ReduceMode} {f r : Raw} {w : Bool} (hf : f.InRange T)
    (h : f.reduce T mode = .ok r w) : w = false := by
  cases hs : T.signed
  · have hd := hf.2.nonneg hs
    by_cases h0 : f.den = 0
    · rw [Raw.reduce_undefined mode h0] at h
      simp only [Res.ok.injEq] at h; exact h.2.symm
    · cases mode
      · simp only [Raw.reduce, Raw.reduceNormalizeSigns, bind_eq_ok] at h
        obtain ⟨s, w1, w2, hs', h, rfl⟩ := h
        obtain ⟨-, -, -, -, rfl, g, hg, hn, hd', hc⟩ := (Raw.reduceIgnoreSigns_eq_ok h0).1 hs'
        have : 0 < s.den := by
          by_contra hcn
          have : s.den * g ≤ 0 := by nlinarith
          omega
        rw [Raw.normalizeSigns_pos this] at h
        simp only [Res.ok.injEq] at h
        rw [← h.2]; rfl
      · obtain ⟨-, -, -, -, rfl, -⟩ := (Raw.reduceIgnoreSigns_eq_ok h0).1 h
        rfl
  · exact (Raw.reduce_noWrap hs mode).flag h

/-- Canonical or exactly `0/0`. -/
def CanonicalOrZero (f : Raw) : Prop := Canonical f ∨ f = ⟨0, 0⟩

theorem Raw.reduce_canonicalOrZero {f r : Raw} {w : Bool} (hf : f.InRange T)
    (h : f.reduce T .normalizeSigns = .ok r w) : CanonicalOrZero r := by
  have := Raw.reduce_flag hf h
  subst this
  by_cases h0 : f.den = 0
  · right; exact Raw.reduce_clean_undefined h0 h
  · left; exact Raw.reduce_canonical h0 h

theorem Raw.reduce_canonicalOrZero_keep {f r : Raw} {mode : ReduceMode} {w : Bool}
    (hf : f.InRange T) (hc : CanonicalOrZero f) (h : f.reduce T mode = .ok r w) :
    CanonicalOrZero r := by
  have := Raw.reduce_flag hf h
  subst this
  rcases hc with hc | rfl
  · left
    obtain ⟨g, hg, hn, hd, hcp, -⟩ := Raw.reduce_clean_spec hc.1.ne' h
    exact ⟨Raw.reduce_posDen hc.1 h, hcp⟩
  · right; exact Raw.reduce_clean_undefined rfl h

theorem Ops.arith_canonical {o : Ops} {op : ArithOp} {a : Args} {r : Raw} {w : Bool}
    (hn : o.NormalizesOutput) (ha : a.InRange T) (h : o.arith T op a = .ok r w) :
    CanonicalOrZero r := by
  induction o generalizing a r w with
  | safe => exact hn.elim
  | fast => exact hn.elim
  | reducedInput o mode ih =>
    simp only [Ops.arith, bind_eq_ok] at h
    obtain ⟨a', _, _, ha', h, -⟩ := h
    exact ih hn (Args.reduce_inRange ha ha') h
  | reducedOutput o mode ih =>
    simp only [Ops.arith, bind_eq_ok] at h
    obtain ⟨s, _, _, hs, h, -⟩ := h
    cases mode
    · exact Raw.reduce_canonicalOrZero (Ops.arith_inRange ha hs) h
    · exact Raw.reduce_canonicalOrZero_keep (Ops.arith_inRange ha hs) (ih hn ha hs) h

theorem Ops.negate_canonical {o : Ops} {v r : Raw} {w : Bool}
    (hn : o.NormalizesOutput) (ha : v.InRange T) (h : o.negate T v = .ok r w) :
    CanonicalOrZero r := by
  induction o generalizing v r w with
  | safe => exact hn.elim
  | fast => exact hn.elim
  | reducedInput o mode ih =>
    simp only [Ops.negate, bind_eq_ok] at h
    obtain ⟨a', _, _, ha', h, -⟩ := h
    exact ih hn (Raw.reduce_inRange ha') h
  | reducedOutput o mode ih =>
    simp only [Ops.negate, bind_eq_ok] at h
    obtain ⟨s, _, _, hs, h, -⟩ := h
    cases mode
    · exact Raw.reduce_canonicalOrZero (Ops.negate_inRange ha hs) h
    · exact Raw.reduce_canonicalOrZero_keep (Ops.negate_inRange ha hs) (ih hn ha hs) h

theorem fit_of_absLe {a : Args} {B : ℕ} (hr : a.InRange T) (hB : a.AbsLe B) : a.Fit T B := by
  have key : ∀ {f : Raw}, f.InRange T → f.AbsLe B → f.Fit T B := fun h h' =>
    ⟨Fit.of_inRange h.1 h'.1, Fit.of_inRange h.2 h'.2⟩
  cases a with
  | ff l r => exact ⟨key hr.1 hB.1, key hr.2 hB.2⟩
  | fr l r => exact ⟨key hr.1 hB.1, Fit.of_inRange hr.2 hB.2⟩
  | rf l r => exact ⟨Fit.of_inRange hr.1 hB.1, key hr.2 hB.2⟩

end Ieme
