import Verif.Spec.LimitsTraits
import Verif.Lemmas.Limits
import Verif.Lemmas.Undefined
import Verif.Lemmas.ToSafe
import Mathlib.RingTheory.Coprime.Lemmas

/-!
# Lemmas about whole numbers as fractions
-/

namespace Ieme

open Res IntTy

variable {T : IntTy} {x y z : ℤ} {a : Args} {op : ArithOp} {o : Ops}

theorem reduce_whole (mode : ReduceMode) (hx : T.InRange x) (ha : T.InRange x.natAbs) :
    (⟨x, 1⟩ : Raw).reduce T mode ⇓ ⟨x, 1⟩ := by
  have h1 := T.max_ge
  have h2 := T.min_le_zero
  have h3 : T.InRange 1 := ⟨by omega, by omega⟩
  have e : (⟨x, 1⟩ : Raw).reduceIgnoreSigns T ⇓ ⟨x, 1⟩ :=
    (Raw.reduceIgnoreSigns_eq_ok one_ne_zero).2 ⟨ha, h3, hx, h3, rfl, 1, one_pos, by simp, by simp,
      by simp⟩
  cases mode
  · show Raw.reduceNormalizeSigns T _ = _
    rw [Raw.reduceNormalizeSigns, e, ok_bind_false]
    exact Raw.normalizeSigns_pos one_pos
  · exact e

theorem Args.Whole.reduce (mode : ReduceMode) (h : a.Whole x y) (hx : T.InRange x)
    (hx' : T.InRange x.natAbs) (hy : T.InRange y) (hy' : T.InRange y.natAbs) :
    a.reduce T mode ⇓ a := by
  have e1 := reduce_whole mode hx hx'
  have e2 := reduce_whole mode hy hy'
  cases a <;> obtain ⟨rfl, rfl⟩ := h <;>
    simp only [Args.reduce, e1, e2, ok_bind_false, pure_def]

theorem lcm_one_one : T.lcm 1 1 ⇓ 1 := by
  have h1 := T.max_ge
  have h2 := T.min_le_zero
  exact lcm_eq_ok.2 ⟨⟨by simp; omega, by simp; omega⟩, ⟨by simp; omega, by simp; omega⟩,
    ⟨by simp; omega, by simp; omega⟩, by simp, rfl⟩

theorem div_one_one : T.div 1 1 ⇓ 1 := by
  have h1 := T.max_ge
  have h2 := T.min_le_zero
  exact div_clean.2 ⟨one_ne_zero, ⟨by simp; omega, by simp; omega⟩, by simp⟩

theorem mul_one_left (hx : T.InRange x) : T.mul 1 x ⇓ x := mul_clean.2 ⟨by simpa using hx, by simp⟩

theorem mul_one_right (hx : T.InRange x) : T.mul x 1 ⇓ x := mul_clean.2 ⟨by simpa using hx, by simp⟩

theorem inRange_one : T.InRange 1 := by
  have h1 := T.max_ge
  have h2 := T.min_le_zero
  exact ⟨by omega, by omega⟩

/-- Sum, difference and product of whole numbers under the two basic policies. -/
theorem whole_arith (ho : o = .safe ∨ o = .fast) (h : a.Whole x y) (hz : op.Ring x y z)
    (hx : T.InRange x) (hy : T.InRange y) :
    o.arith T op a = (T.arith z).bind fun n => .ok ⟨n, 1⟩ false := by
  have m1 := mul_one_left hx
  have m2 := mul_one_left hy
  have m3 := mul_one_right hx
  have m4 := mul_one_right hy
  have m5 := mul_one_left (T := T) inRange_one
  rcases ho with rfl | rfl <;> cases a <;> obtain ⟨rfl, rfl⟩ := h <;> cases op <;>
    (first | exact hz.elim | skip) <;> obtain rfl := hz <;>
    simp only [Ops.arith, Safe.arith, Fast.arith, Safe.plusFF, Safe.plusFR, Safe.plusRF, Safe.minusFF,
      Safe.minusFR, Safe.minusRF, Safe.multipliesFF, Safe.multipliesFR, Safe.multipliesRF,
      Fast.plusFF, Fast.plusFR, Fast.plusRF, Fast.minusFF,
      Fast.minusFR, Fast.minusRF, Fast.multipliesFF, Fast.multipliesFR, Fast.multipliesRF,
      lcm_one_one, div_one_one, m1, m2, m3, m4, m5, ok_bind_false, pure_def, IntTy.add, IntTy.sub,
      add_comm, mul_comm] <;> rfl

theorem natAbs_inRange_unsigned (hs : T.signed = false) (hx : T.InRange x) :
    T.InRange x.natAbs := by
  have := hx.nonneg hs
  rwa [Int.natAbs_of_nonneg this]

/-- Unsigned whole numbers wrap around under every policy. -/
theorem whole_wraps (hs : T.signed = false) (h : a.Whole x y) (hz : op.Ring x y z)
    (hx : T.InRange x) (hy : T.InRange y) : ∃ w, o.arith T op a = .ok ⟨T.wrap z, 1⟩ w := by
  have base : ∀ o', o' = Ops.safe ∨ o' = .fast → ∃ w, o'.arith T op a = .ok ⟨T.wrap z, 1⟩ w := by
    intro o' ho
    rw [whole_arith ho h hz hx hy, IntTy.arith]
    split
    · rename_i hr
      exact ⟨false, by rw [wrap_of_inRange hr]; rfl⟩
    · rw [if_neg (by simp [hs])]
      exact ⟨true, rfl⟩
  induction o with
  | safe => exact base _ (.inl rfl)
  | fast => exact base _ (.inr rfl)
  | reducedInput o mode ih =>
    obtain ⟨w, hw⟩ := ih
    refine ⟨w, ?_⟩
    rw [Ops.arith, h.reduce mode hx (natAbs_inRange_unsigned hs hx) hy
      (natAbs_inRange_unsigned hs hy), ok_bind_false, hw]
  | reducedOutput o mode ih =>
    obtain ⟨w, hw⟩ := ih
    have hr := T.wrap_inRange z
    exact ⟨w, by
      rw [Ops.arith, hw]
      show Res.bind _ _ = _
      rw [Res.bind, reduce_whole mode hr (natAbs_inRange_unsigned hs hr)]
      simp⟩

/-- Signed whole numbers overflow under every policy. -/
theorem whole_overflows (hs : T.signed = true) (h : a.Whole x y) (hz : op.Ring x y z)
    (hx : T.InRange x) (hx' : T.InRange x.natAbs) (hy : T.InRange y) (hy' : T.InRange y.natAbs)
    (hr : ¬ T.InRange z) : o.arith T op a = .fault .overflow := by
  have base : ∀ o', o' = Ops.safe ∨ o' = .fast → o'.arith T op a = .fault .overflow := by
    intro o' ho
    rw [whole_arith ho h hz hx hy, IntTy.arith, if_neg hr, if_pos hs]
    rfl
  induction o with
  | safe => exact base _ (.inl rfl)
  | fast => exact base _ (.inr rfl)
  | reducedInput o mode ih => rw [Ops.arith, h.reduce mode hx hx' hy hy', ok_bind_false, ih]
  | reducedOutput o mode ih => rw [Ops.arith, ih]; rfl

/-- One half less one, unsigned. -/
theorem half_less_one (hs : T.signed = false) :
    ∃ w, o.arith T .minus (.ff ⟨1, 2⟩ ⟨1, 1⟩) = .ok ⟨T.max, 2⟩ w := by
  have h1 := T.max_ge
  have h2 : T.min = 0 := by simp [IntTy.min, hs]
  have h3 : T.max = (2 : ℤ) ^ T.bits - 1 := by simp [IntTy.max, hs]
  have hm : T.InRange T.max := ⟨by omega, le_rfl⟩
  have i1 : T.InRange 1 := inRange_one
  have i2 : T.InRange 2 := ⟨by omega, by omega⟩
  have ew : T.arith (1 - 2) = .ok T.max true := by
    rw [IntTy.arith, if_neg (by intro h; have := h.1; omega), if_neg (by simp [hs])]
    have : T.wrap (1 - 2) = T.max := by
      rw [IntTy.wrap, if_neg (by simp [hs]), h3]
      push_cast
      have hM : (1 : ℤ) < 2 ^ T.bits := by omega
      rw [show (-1 : ℤ) % 2 ^ T.bits = (2 ^ T.bits - 1) % 2 ^ T.bits by
        rw [sub_eq_add_neg, Int.add_emod_left]]
      exact Int.emod_eq_of_lt (by omega) (by omega)
    rw [this]
  have coprime : Int.gcd T.max 2 = 1 := by
    refine Int.isCoprime_iff_gcd_eq_one.1 ⟨-1, 2 ^ (T.bits - 1), ?_⟩
    have e : (2 : ℤ) ^ T.bits = 2 ^ (T.bits - 1) * 2 := by
      rw [← pow_succ, Nat.sub_add_cancel (by have := T.wide; omega)]
    rw [h3, e]
    ring
  have red : ∀ (n d : ℤ) mode, T.InRange n → T.InRange d → 0 < d → Int.gcd n d = 1 →
      (⟨n, d⟩ : Raw).reduce T mode ⇓ ⟨n, d⟩ := by
    intro n d mode hn hd hp hg
    have e : (⟨n, d⟩ : Raw).reduceIgnoreSigns T ⇓ ⟨n, d⟩ :=
      (Raw.reduceIgnoreSigns_eq_ok hp.ne').2 ⟨natAbs_inRange_unsigned hs hn,
        natAbs_inRange_unsigned hs hd, hn, hd, rfl, 1, one_pos, by simp, by simp, hg⟩
    cases mode
    · show Raw.reduceNormalizeSigns T _ = _
      rw [Raw.reduceNormalizeSigns, e, ok_bind_false]
      exact Raw.normalizeSigns_pos hp
    · exact e
  induction o with
  | safe =>
    refine ⟨true, ?_⟩
    have l1 : T.lcm 2 1 ⇓ 2 := lcm_eq_ok.2 ⟨i2, i1, i2, rfl, rfl⟩
    have d1 : T.div 2 2 ⇓ 1 := div_clean.2 ⟨by decide, i1, rfl⟩
    have d2 : T.div 2 1 ⇓ 2 := div_clean.2 ⟨by decide, i2, rfl⟩
    simp only [Ops.arith, Safe.arith, Safe.minusFF, l1, d1, d2, mul_one_right i1, mul_one_right i2,
      ok_bind_false, IntTy.sub, ew]
    rfl
  | fast =>
    refine ⟨true, ?_⟩
    simp only [Ops.arith, Fast.arith, Fast.minusFF, mul_one_right i1, mul_one_left i2,
      mul_one_right i2, ok_bind_false, IntTy.sub, ew]
    rfl
  | reducedInput o mode ih =>
    obtain ⟨w, hw⟩ := ih
    refine ⟨w, ?_⟩
    rw [Ops.arith, Args.reduce, red 1 2 mode i1 i2 (by decide) rfl, ok_bind_false,
      red 1 1 mode i1 i1 (by decide) rfl, ok_bind_false, pure_def, ok_bind_false, hw]
  | reducedOutput o mode ih =>
    obtain ⟨w, hw⟩ := ih
    exact ⟨w, by
      rw [Ops.arith, hw]
      show Res.bind _ _ = _
      rw [Res.bind, red _ _ mode hm i2 (by decide) coprime]
      simp⟩

end Ieme
