import Verif.Spec.Narrow
import Verif.Props.Parts
import Verif.Props.Compare

namespace Ieme
open Res IntTy

variable {N : NarrowTy} {f : Raw} {x y : ℤ}

theorem i32_iff : i32.InRange x ↔ -2147483648 ≤ x ∧ x ≤ 2147483647 := Iff.rfl

namespace NarrowTy

theorem abs_le_pow (h : N.InRange x) :
    |x| ≤ 2 ^ N.bits - 1 ∨ N.signed = true ∧ |x| ≤ 2 ^ (N.bits - 1) := by
  obtain ⟨h1, h2⟩ := h
  cases hs : N.signed
  · simp only [min, max, hs] at h1 h2
    push_cast at h2
    left; rw [abs_of_nonneg (by simpa using h1)]; simpa using h2
  · simp only [min, max, hs] at h1 h2
    push_cast at h1 h2
    right; refine ⟨rfl, abs_le.2 ⟨by simpa using h1, ?_⟩⟩
    omega

theorem abs_le (h : N.InRange x) : |x| ≤ 2147483647 := by
  have hb := N.narrow
  have hm : (2 : ℤ) ^ N.bits ≤ 2 ^ 31 := pow_le_pow_right₀ (by norm_num) (by omega)
  have hm' : (2 : ℤ) ^ (N.bits - 1) ≤ 2 ^ 30 := pow_le_pow_right₀ (by norm_num) (by omega)
  norm_num at hm hm'
  rcases abs_le_pow h with h | ⟨-, h⟩ <;> omega

theorem inRange_int (h : N.InRange x) : i32.InRange x := by
  have := _root_.abs_le.1 (abs_le h); exact i32_iff.2 ⟨by omega, by omega⟩

theorem neg_inRange_int (h : N.InRange x) : i32.InRange (-x) := by
  have := _root_.abs_le.1 (abs_le h); exact i32_iff.2 ⟨by omega, by omega⟩

theorem abs_small (hp : N.ProductsFit) (h : N.InRange x) : |x| ≤ 32768 := by
  unfold ProductsFit at hp
  rcases abs_le_pow h with h | ⟨hs, h⟩
  · cases hs : N.signed
    · simp only [hs] at hp
      have hm : (2 : ℤ) ^ N.bits ≤ 2 ^ 15 := pow_le_pow_right₀ (by norm_num) (by simpa using hp)
      norm_num at hm; omega
    · obtain ⟨h1, h2⟩ := ‹N.InRange x›
      simp only [hs, if_true] at hp
      simp only [min, max, hs, if_true] at h1 h2
      have hm : (2 : ℤ) ^ (N.bits - 1) ≤ 2 ^ 15 := pow_le_pow_right₀ (by norm_num) (by omega)
      push_cast at h1 h2
      norm_num at hm
      exact _root_.abs_le.2 ⟨by omega, by omega⟩
  · simp only [hs, if_true] at hp
    have hm : (2 : ℤ) ^ (N.bits - 1) ≤ 2 ^ 15 := pow_le_pow_right₀ (by norm_num) (by omega)
    norm_num at hm; omega

theorem mul_inRange (hp : N.ProductsFit) (hx : N.InRange x) (hy : N.InRange y) :
    i32.InRange (x * y) := by
  have h : |x * y| ≤ 32768 * 32768 := by
    rw [abs_mul]
    exact mul_le_mul (abs_small hp hx) (abs_small hp hy) (abs_nonneg _) (by norm_num)
  have := _root_.abs_le.1 h; exact i32_iff.2 ⟨by omega, by omega⟩

theorem conv_ok (h : N.InRange x) : N.conv x ⇓ x := by simp [conv, h]

theorem zero_inRange : N.InRange 0 := by
  have h1 : (0 : ℤ) < ((2 ^ (N.bits - 1) : ℕ) : ℤ) := by exact_mod_cast Nat.two_pow_pos _
  have h2 : (0 : ℤ) < ((2 ^ N.bits : ℕ) : ℤ) := by exact_mod_cast Nat.two_pow_pos _
  unfold InRange min max
  split <;> constructor <;> omega

/-- Everything between two values of the type is one. -/
theorem between {a b : ℤ} (ha : N.InRange a) (hb : N.InRange b) (h1 : a ≤ x) (h2 : x ≤ b) :
    N.InRange x := ⟨ha.1.trans h1, h2.trans hb.2⟩

theorem neg_inRange (h : N.InRange x) (hs : N.signed = true) (hm : x ≠ N.min) :
    N.InRange (-x) := by
  obtain ⟨h1, h2⟩ := h
  simp only [InRange, min, max, hs, if_true] at *
  omega

/-- The absolute value of a value other than the least is a value. -/
theorem natAbs_inRange (h : N.InRange x) (hm : N.signed = true → x ≠ N.min) :
    N.InRange x.natAbs := by
  rcases Int.natAbs_eq x with e | e
  · rwa [← e]
  · cases hs : N.signed
    · have : 0 ≤ x := by simpa [InRange, min, hs] using h.1
      rwa [Int.natAbs_of_nonneg this]
    · have := neg_inRange h hs (hm hs)
      rwa [show (x.natAbs : ℤ) = -x by omega]

end NarrowTy

theorem Args.InNarrow.int {a : Args} (h : a.InNarrow N) : a.InRange i32 := by
  cases a <;> simp only [Args.InNarrow, Raw.InNarrow, Args.InRange, Raw.InRange] at h ⊢
  · exact ⟨⟨NarrowTy.inRange_int h.1.1, NarrowTy.inRange_int h.1.2⟩, NarrowTy.inRange_int h.2.1, NarrowTy.inRange_int h.2.2⟩
  · exact ⟨⟨NarrowTy.inRange_int h.1.1, NarrowTy.inRange_int h.1.2⟩, NarrowTy.inRange_int h.2⟩
  · exact ⟨NarrowTy.inRange_int h.1, NarrowTy.inRange_int h.2.1, NarrowTy.inRange_int h.2.2⟩

theorem Args.InTypes.int {L R : NarrowTy} {a : Args} (h : a.InTypes L R) : a.InRange i32 := by
  cases a <;> simp only [Args.InTypes, Raw.InNarrow, Args.InRange, Raw.InRange] at h ⊢
  · exact ⟨⟨NarrowTy.inRange_int h.1.1, NarrowTy.inRange_int h.1.2⟩,
      NarrowTy.inRange_int h.2.1, NarrowTy.inRange_int h.2.2⟩
  · exact ⟨⟨NarrowTy.inRange_int h.1.1, NarrowTy.inRange_int h.1.2⟩, NarrowTy.inRange_int h.2⟩
  · exact ⟨NarrowTy.inRange_int h.1, NarrowTy.inRange_int h.2.1, NarrowTy.inRange_int h.2.2⟩

theorem NarrowTy.abs_le_two_pow (h : N.InRange x) : |x| ≤ 2 ^ N.bits := by
  have : (2 : ℤ) ^ (N.bits - 1) ≤ 2 ^ N.bits := pow_le_pow_right₀ (by norm_num) (by omega)
  rcases NarrowTy.abs_le_pow h with h | ⟨-, h⟩ <;> omega

theorem Args.InTypes.bounds {L R : NarrowTy} {a : Args} (h : a.InTypes L R)
    (hb : L.bits + R.bits ≤ 29) : ∃ A B : ℤ, A * B ≤ 536870912 ∧ |a.left.num| ≤ A ∧
      |a.left.den| ≤ A ∧ |a.right.num| ≤ B ∧ |a.right.den| ≤ B := by
  refine ⟨2 ^ L.bits, 2 ^ R.bits, ?_, ?_⟩
  · rw [← pow_add]
    exact (pow_le_pow_right₀ (by norm_num) hb).trans (by norm_num)
  have one : ∀ n : ℕ, |(1 : ℤ)| ≤ 2 ^ n := fun n => by
    rw [abs_one]; exact one_le_pow₀ (by norm_num)
  cases a <;> simp only [Args.InTypes, Raw.InNarrow, Args.left, Args.right] at h ⊢
  · exact ⟨NarrowTy.abs_le_two_pow h.1.1, NarrowTy.abs_le_two_pow h.1.2,
      NarrowTy.abs_le_two_pow h.2.1, NarrowTy.abs_le_two_pow h.2.2⟩
  · exact ⟨NarrowTy.abs_le_two_pow h.1.1, NarrowTy.abs_le_two_pow h.1.2,
      NarrowTy.abs_le_two_pow h.2, one _⟩
  · exact ⟨NarrowTy.abs_le_two_pow h.1, one _, NarrowTy.abs_le_two_pow h.2.1,
      NarrowTy.abs_le_two_pow h.2.2⟩

/-- The quotient is a value of the type, and so is its neighbour away from zero when the division
leaves a remainder. -/
theorem NarrowTy.quotient {a b : ℤ} (ha : N.InRange a) (hb : N.InRange b) (h0 : b ≠ 0)
    (hm : ¬ (a = N.min ∧ b = -1)) :
    N.InRange (a.tdiv b) ∧ (¬ b ∣ a →
      (0 ≤ a.tdiv b → N.InRange (a.tdiv b + 1)) ∧ (a.tdiv b < 0 → N.InRange (a.tdiv b - 1))) := by
  have hle : |a.tdiv b| ≤ |a| := by
    rw [Int.abs_eq_natAbs, Int.abs_eq_natAbs, Int.natAbs_tdiv]
    exact_mod_cast Nat.div_le_self _ _
  have hhalf : b.natAbs ≠ 1 → 2 * |a.tdiv b| ≤ |a| := by
    intro h1
    rw [Int.abs_eq_natAbs, Int.abs_eq_natAbs, Int.natAbs_tdiv]
    have h2 : 2 ≤ b.natAbs := by omega
    have h3 : a.natAbs / b.natAbs * b.natAbs ≤ a.natAbs := Nat.div_mul_le_self _ _
    have h4 : a.natAbs / b.natAbs * 2 ≤ a.natAbs / b.natAbs * b.natAbs := Nat.mul_le_mul_left _ h2
    have : 2 * (a.natAbs / b.natAbs) ≤ a.natAbs := by omega
    exact_mod_cast this
  have hz : N.InRange 0 := NarrowTy.zero_inRange
  generalize hq : a.tdiv b = q at *
  cases hs : N.signed
  · have hbn : 0 ≤ b := by simpa [NarrowTy.InRange, NarrowTy.min, hs] using hb.1
    have han : 0 ≤ a := by simpa [NarrowTy.InRange, NarrowTy.min, hs] using ha.1
    have hqn : 0 ≤ q := hq ▸ Int.tdiv_nonneg han hbn
    rw [abs_of_nonneg hqn, abs_of_nonneg han] at hle hhalf
    refine ⟨NarrowTy.between hz ha hqn hle, fun hd => ⟨fun _ => ?_, fun h => by omega⟩⟩
    have h1 : b.natAbs ≠ 1 := fun h => hd (Int.natAbs_dvd.1 (by simp [h]))
    have ha0 : a ≠ 0 := fun h => hd (h ▸ dvd_zero b)
    have := hhalf h1
    exact NarrowTy.between hz ha (by omega) (by omega)
  · have hmin : N.min = -(N.max + 1) := by simp [NarrowTy.min, NarrowTy.max, hs]
    have hmx := hz.2
    obtain ⟨a1, a2⟩ := ha
    have habs : |a| ≤ N.max + 1 := _root_.abs_le.2 ⟨by omega, by omega⟩
    have hmain : N.InRange q := by
      by_cases h1 : b.natAbs = 1
      · rcases Int.natAbs_eq b with e | e <;> rw [h1] at e
        · have : q = a := by rw [← hq, e]; simp
          exact this ▸ ⟨a1, a2⟩
        · have hqa : q = -a := by rw [← hq, e]; simp
          have : a ≠ N.min := fun h => hm ⟨h, by simpa using e⟩
          exact ⟨by omega, by omega⟩
      · have := hhalf h1
        have h5 := neg_abs_le q
        have h6 := le_abs_self q
        have h7 := abs_nonneg q
        exact ⟨by omega, by omega⟩
    refine ⟨hmain, fun hd => ?_⟩
    have h1 : b.natAbs ≠ 1 := fun h => hd (Int.natAbs_dvd.1 (by simp [h]))
    have := hhalf h1
    have h5 := neg_abs_le q
    have h6 := le_abs_self q
    have ha0 : a ≠ 0 := fun h => hd (h ▸ dvd_zero b)
    have ha1 : 0 < |a| := abs_pos.2 ha0
    have hstrict : 2 * |q| < |a| := by
      rcases lt_or_eq_of_le this with h | h
      · exact h
      · exfalso
        have h2 : 2 ≤ b.natAbs := by omega
        have hmul : a.natAbs / b.natAbs * b.natAbs ≤ a.natAbs := Nat.div_mul_le_self _ _
        have hqa : q.natAbs = a.natAbs / b.natAbs := by rw [← hq, Int.natAbs_tdiv]; rfl
        rw [← hqa] at hmul
        have h3 : 2 * q.natAbs = a.natAbs := by
          rw [Int.abs_eq_natAbs, Int.abs_eq_natAbs] at h; exact_mod_cast h
        have hq0 : 0 < q.natAbs := by have := Int.natAbs_pos.2 ha0; omega
        have h4 : q.natAbs * b.natAbs ≤ q.natAbs * 2 := by omega
        have h5 : b.natAbs = 2 := le_antisymm (Nat.le_of_mul_le_mul_left h4 hq0) h2
        exact hd (Int.natAbs_dvd_natAbs.1 (by rw [h5]; exact ⟨q.natAbs, h3.symm⟩))
    have hmax1 : 1 ≤ N.max := by
      obtain ⟨b1, b2⟩ := hb
      omega
    exact ⟨fun h => ⟨by omega, by rw [abs_of_nonneg h] at *; omega⟩,
      fun h => ⟨by rw [abs_of_neg h] at *; omega, by omega⟩⟩

namespace Narrow

variable {l r : Raw} {op : CmpOp}

/-- When the narrow preconditions of `std::lcm` hold, so do those on `int`, and the comparison is
the one of `fraction<int>`. -/
theorem safeCmp_eq (hc : N.InRange l.den.natAbs ∧ N.InRange r.den.natAbs ∧
    N.InRange (Int.lcm l.den r.den)) :
    cmp N .safe op (.ff l r) = Ops.safe.cmp i32 op (.ff l r) := by
  have e1 : N.lcm l.den r.den = i32.lcm l.den r.den := by
    rw [NarrowTy.lcm, IntTy.lcm, if_pos hc, if_pos ⟨NarrowTy.inRange_int hc.1,
      NarrowTy.inRange_int hc.2.1, NarrowTy.inRange_int hc.2.2⟩]
  have e2 : N.lcm r.den l.den = i32.lcm r.den l.den := by
    rw [NarrowTy.lcm, IntTy.lcm, Int.lcm_comm r.den l.den, if_pos ⟨hc.2.1, hc.1, hc.2.2⟩,
      if_pos ⟨NarrowTy.inRange_int hc.2.1, NarrowTy.inRange_int hc.1,
      NarrowTy.inRange_int hc.2.2⟩]
  cases op <;> simp only [cmp, safeCmp, overLcm, Ops.cmp, Safe.cmp, Safe.equalToFF,
    Safe.notEqualToFF, Safe.lessFF, Safe.lessEqualFF, Safe.greaterFF, Safe.greaterEqualFF, e1, e2]
    <;> rfl

theorem safeCmp_fault (h1 : l.den ≠ 0) (h2 : r.den ≠ 0) (hc : ¬ (N.InRange l.den.natAbs ∧
    N.InRange r.den.natAbs ∧ N.InRange (Int.lcm l.den r.den))) :
    cmp N .safe op (.ff l r) = .fault .lcmPrecond := by
  have e1 : N.lcm l.den r.den = .fault .lcmPrecond := by rw [NarrowTy.lcm, if_neg hc]
  have e2 : N.lcm r.den l.den = .fault .lcmPrecond := by
    rw [NarrowTy.lcm, Int.lcm_comm r.den l.den, if_neg fun h => hc ⟨h.2.1, h.1, h.2.2⟩]
  cases op <;> simp only [cmp, safeCmp, overLcm, Raw.isUndefined, Raw.isDefined, h1, h2, e1, e2,
    fault_bind, bne_iff_ne, ne_eq, not_false_eq_true, bne_self_eq_false, Bool.or_self,
    bne, beq_eq_false_iff_ne.2 h1, beq_eq_false_iff_ne.2 h2, Bool.not_false, Bool.not_true,
    Bool.false_eq_true, if_false]

theorem safe_finishes (hN : N.ProductsFit) (hl : l.InNarrow N) (hr : r.InNarrow N)
    (h1 : l.den ≠ 0) (h2 : r.den ≠ 0) (hc : N.InRange (Int.lcm l.den r.den)) :
    ∃ b, Ops.safe.cmp i32 op (.ff l r) ⇓ b := by
  classical
  have key : ∀ {n d : ℤ} {m : ℕ}, N.InRange n → N.InRange m → d ≠ 0 → d ∣ m →
      ∃ p, p * d = n * m ∧ i32.InRange p := by
    rintro n d m hn hm hd ⟨k, hk⟩
    refine ⟨n * k, by rw [hk]; ring, ?_⟩
    have hkm : |k| ≤ |(m : ℤ)| := by
      rw [hk, abs_mul]
      exact le_mul_of_one_le_left (abs_nonneg _) (Int.one_le_abs hd)
    have : |n * k| ≤ 32768 * 32768 := by
      rw [abs_mul]
      exact mul_le_mul (NarrowTy.abs_small hN hn) (hkm.trans (NarrowTy.abs_small hN hm))
        (abs_nonneg _) (by norm_num)
    have := _root_.abs_le.1 this
    exact i32_iff.2 ⟨by omega, by omega⟩
  obtain ⟨p, hp, hp'⟩ := key hl.1 hc h1 (Int.dvd_lcm_left _ _)
  obtain ⟨q, hq, hq'⟩ := key hr.1 hc h2 (Int.dvd_lcm_right _ _)
  exact ⟨decide (op.HoldsInt p q), (C85_safe_cmp_iff
    ⟨NarrowTy.inRange_int hl.1, NarrowTy.inRange_int hl.2⟩
    ⟨NarrowTy.inRange_int hr.1, NarrowTy.inRange_int hr.2⟩).2
    (.inr ⟨h1, h2, NarrowTy.inRange_int hc, p, q, hp, hq, hp', hq', by simp⟩)⟩

end Narrow

end Ieme
