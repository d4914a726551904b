import Verif.Lemmas.Raw
import Mathlib.Tactic.Positivity

/-!
# Exactness of the arithmetic and comparison functions of every policy
-/

namespace Ieme

open Res IntTy

theorem ratTrunc_div_pos (a : ℤ) (d : ℕ) (hd : 0 < d) : ratTrunc ((a : ℚ) / (d : ℚ)) = a.tdiv d := by
  unfold ratTrunc
  have hq : (0 : ℚ) < d := by exact_mod_cast hd
  rw [Rat.floor_intCast_div_natCast, Rat.ceil_intCast_div_natCast]
  by_cases ha : 0 ≤ a
  · rw [if_pos (by positivity), Int.tdiv_eq_ediv_of_nonneg ha]
  · have : (a : ℚ) / d < 0 := div_neg_of_neg_of_pos (by exact_mod_cast (not_le.1 ha)) hq
    rw [if_neg (not_le.2 this)]
    have h2 : a = -(-a) := (neg_neg a).symm
    conv_rhs => rw [h2, Int.neg_tdiv, Int.tdiv_eq_ediv_of_nonneg (by omega)]

/-- Truncation of a quotient of integers is the truncated integer division. -/
theorem ratTrunc_div (a b : ℤ) : ratTrunc ((a : ℚ) / b) = a.tdiv b := by
  rcases lt_trichotomy b 0 with hb | rfl | hb
  · obtain ⟨d, rfl⟩ : ∃ d : ℕ, b = -(d : ℤ) := ⟨b.natAbs, by omega⟩
    have h := ratTrunc_div_pos (-a) d (by omega)
    rw [Int.neg_tdiv, ← Int.tdiv_neg] at h
    rw [← h]
    push_cast
    rw [div_neg, neg_div]
  · simp [ratTrunc]
  · obtain ⟨d, rfl⟩ : ∃ d : ℕ, b = (d : ℤ) := ⟨b.natAbs, by omega⟩
    exact ratTrunc_div_pos a d (by omega)

/-- The least common multiple of two non-zero denominators and its two cofactors. -/
theorem lcm_split {a b : ℤ} (ha : a ≠ 0) (hb : b ≠ 0) : ∃ (L k m : ℤ), (Int.lcm a b : ℤ) = L ∧
    0 < L ∧ L = a * k ∧ L = b * m ∧ L.tdiv a = k ∧ L.tdiv b = m ∧ k ≠ 0 ∧ m ≠ 0 := by
  have hL : 0 < Int.lcm a b := Int.lcm_pos ha hb
  obtain ⟨k, hk⟩ := Int.dvd_lcm_left a b
  obtain ⟨m, hm⟩ := Int.dvd_lcm_right a b
  refine ⟨Int.lcm a b, k, m, rfl, by exact_mod_cast hL, hk, hm, ?_, ?_, ?_, ?_⟩
  · rw [hk]; exact Int.mul_tdiv_cancel_left _ ha
  · rw [hm]; exact Int.mul_tdiv_cancel_left _ hb
  · rintro rfl; simp at hk; omega
  · rintro rfl; simp at hm; omega

/-- Bringing two fractions to a common denominator. -/
theorem common_den {l r : Raw} {x y : ℚ} (hl : Denotes l x) (hr : Denotes r y) {L k m : ℤ}
    (hL : L ≠ 0) (hk : L = l.den * k) (hm : L = r.den * m) :
    x = ((k * l.num : ℤ) : ℚ) / L ∧ y = ((m * r.num : ℤ) : ℚ) / L := by
  have hlq : (l.den : ℚ) ≠ 0 := by exact_mod_cast hl.1
  have hrq : (r.den : ℚ) ≠ 0 := by exact_mod_cast hr.1
  have hLq : (L : ℚ) ≠ 0 := by exact_mod_cast hL
  have hkq : (L : ℚ) = l.den * k := by exact_mod_cast hk
  have hmq : (L : ℚ) = r.den * m := by exact_mod_cast hm
  constructor
  · rw [← hl.2]; push_cast
    rw [div_eq_div_iff hlq hLq, hkq]; ring
  · rw [← hr.2]; push_cast
    rw [div_eq_div_iff hrq hLq, hmq]; ring

section arith

variable {T : IntTy}

theorem exact_sum {a b L : ℤ} {x y : ℚ} (hL : L ≠ 0) (hx : x = (a : ℚ) / L) (hy : y = (b : ℚ) / L) :
    Denotes ⟨a + b, L⟩ (x + y) := by
  refine ⟨hL, ?_⟩
  rw [hx, hy]; push_cast; rw [add_div]

theorem exact_diff {a b L : ℤ} {x y : ℚ} (hL : L ≠ 0) (hx : x = (a : ℚ) / L) (hy : y = (b : ℚ) / L) :
    Denotes ⟨a - b, L⟩ (x - y) := by
  refine ⟨hL, ?_⟩
  rw [hx, hy]; push_cast; rw [sub_div]

theorem exact_mod {a b L : ℤ} {x y : ℚ} (hL : L ≠ 0) (hb : b ≠ 0) (hx : x = (a : ℚ) / L)
    (hy : y = (b : ℚ) / L) : y ≠ 0 ∧ Denotes ⟨a.tmod b, L⟩ (x - y * ratTrunc (x / y)) := by
  have hLq : (L : ℚ) ≠ 0 := by exact_mod_cast hL
  have hbq : (b : ℚ) ≠ 0 := by exact_mod_cast hb
  have hxy : x / y = (a : ℚ) / b := by
    rw [hx, hy, div_div_div_cancel_right₀ hLq]
  refine ⟨by rw [hy]; exact div_ne_zero hbq hLq, hL, ?_⟩
  rw [hxy, ratTrunc_div, hx, hy]
  have : (a.tmod b : ℤ) = a - b * a.tdiv b := by
    have := Int.mul_tdiv_add_tmod a b; omega
  simp only [this]
  push_cast
  rw [sub_div]; ring

/-- Exactness of multiplication on parts. -/
theorem exact_mul {l r : Raw} {x y : ℚ} (hl : Denotes l x) (hr : Denotes r y) :
    Denotes ⟨l.num * r.num, l.den * r.den⟩ (x * y) := by
  refine ⟨mul_ne_zero hl.1 hr.1, ?_⟩
  rw [← hl.2, ← hr.2]; push_cast; rw [div_mul_div_comm]

theorem exact_div {l r : Raw} {x y : ℚ} (hl : Denotes l x) (hr : Denotes r y) :
    ArithOp.divides.Exact x y ⟨l.num * r.den, l.den * r.num⟩ := by
  have hrq : (r.den : ℚ) ≠ 0 := by exact_mod_cast hr.1
  constructor
  · intro hy
    have hn : r.num ≠ 0 := by
      rintro e; apply hy; rw [← hr.2, e]; simp
    refine ⟨mul_ne_zero hl.1 hn, ?_⟩
    rw [← hl.2, ← hr.2]; push_cast; rw [div_div_div_eq]
  · intro hy
    have : r.num = 0 := by
      have h := hr.2; rw [hy, div_eq_zero_iff] at h
      rcases h with h | h
      · exact_mod_cast h
      · exact absurd h hrq
    simp [this]

theorem denotes_int (n : ℤ) : Denotes ⟨n, 1⟩ (n : ℚ) := by simp [Denotes]

/-- A fraction and an integer over the fraction's denominator. -/
theorem int_over {l : Raw} (h : l.den ≠ 0) (r : ℤ) : (r : ℚ) = ((r * l.den : ℤ) : ℚ) / l.den := by
  have : (l.den : ℚ) ≠ 0 := by exact_mod_cast h
  push_cast; rw [mul_div_cancel_right₀ _ this]

theorem Safe.arith_exact {op : ArithOp} {a : Args} {x y : ℚ} {res : Raw} (ha : a.Denote x y)
    (h : Safe.arith T op a ⇓ res) : op.Exact x y res := by
  cases a with
  | ff l r =>
    obtain ⟨hl, hr⟩ := ha
    obtain ⟨L, k, m, hL, hpos, hk, hm, hdk, hdm, -, -⟩ := lcm_split hl.1 hr.1
    obtain ⟨hx, hy⟩ := common_den hl hr (by omega) hk hm
    cases op
    · simp only [Safe.arith, Safe.plusFF, bind_eq_clean, lcm_clean, div_clean, mul_clean,
        add_clean, pure_eq_ok, and_true, hL] at h
      obtain ⟨_, ⟨-, -, -, rfl⟩, _, ⟨-, -, rfl⟩, _, ⟨-, rfl⟩, _, ⟨-, -, rfl⟩, _, ⟨-, rfl⟩,
        _, ⟨-, rfl⟩, rfl⟩ := h
      rw [hdk, hdm]
      exact exact_sum (by omega) hx hy
    · simp only [Safe.arith, Safe.minusFF, bind_eq_clean, lcm_clean, div_clean, mul_clean,
        sub_clean, pure_eq_ok, and_true, hL] at h
      obtain ⟨_, ⟨-, -, -, rfl⟩, _, ⟨-, -, rfl⟩, _, ⟨-, rfl⟩, _, ⟨-, -, rfl⟩, _, ⟨-, rfl⟩,
        _, ⟨-, rfl⟩, rfl⟩ := h
      rw [hdk, hdm]
      exact exact_diff (by omega) hx hy
    · simp only [Safe.arith, Safe.multipliesFF, bind_eq_clean, mul_clean, pure_eq_ok,
        and_true] at h
      obtain ⟨_, ⟨-, rfl⟩, _, ⟨-, rfl⟩, rfl⟩ := h
      exact exact_mul hl hr
    · simp only [Safe.arith, Safe.dividesFF, bind_eq_clean, mul_clean, pure_eq_ok,
        and_true] at h
      obtain ⟨_, ⟨-, rfl⟩, _, ⟨-, rfl⟩, rfl⟩ := h
      exact exact_div hl hr
    · simp only [Safe.arith, Safe.modulusFF, bind_eq_clean, lcm_clean, div_clean, mul_clean,
        mod_clean, pure_eq_ok, and_true, hL] at h
      obtain ⟨_, ⟨-, -, -, rfl⟩, _, ⟨-, -, rfl⟩, _, ⟨-, rfl⟩, _, ⟨-, -, rfl⟩, _, ⟨-, rfl⟩,
        _, ⟨hb, -, rfl⟩, rfl⟩ := h
      rw [hdm] at hb
      rw [hdk, hdm]
      exact exact_mod (by omega) hb hx hy
  | fr l r =>
    obtain ⟨hl, rfl⟩ := ha
    have hi := int_over hl.1 r
    cases op
    · simp only [Safe.arith, Safe.plusFR, bind_eq_clean, mul_clean, add_clean, pure_eq_ok,
        and_true] at h
      obtain ⟨_, ⟨-, rfl⟩, _, ⟨-, rfl⟩, rfl⟩ := h
      exact exact_sum hl.1 hl.2.symm hi
    · simp only [Safe.arith, Safe.minusFR, bind_eq_clean, mul_clean, sub_clean, pure_eq_ok,
        and_true] at h
      obtain ⟨_, ⟨-, rfl⟩, _, ⟨-, rfl⟩, rfl⟩ := h
      exact exact_diff hl.1 hl.2.symm hi
    · simp only [Safe.arith, Safe.multipliesFR, bind_eq_clean, mul_clean, pure_eq_ok,
        and_true] at h
      obtain ⟨_, ⟨-, rfl⟩, rfl⟩ := h
      simpa [ArithOp.Exact] using exact_mul hl (denotes_int r)
    · simp only [Safe.arith, Safe.dividesFR, bind_eq_clean, mul_clean, pure_eq_ok,
        and_true] at h
      obtain ⟨_, ⟨-, rfl⟩, rfl⟩ := h
      simpa using exact_div hl (denotes_int r)
    · simp only [Safe.arith, Safe.modulusFR, bind_eq_clean, mul_clean, mod_clean, pure_eq_ok,
        and_true] at h
      obtain ⟨_, ⟨-, rfl⟩, _, ⟨hb, -, rfl⟩, rfl⟩ := h
      rw [mul_comm] at hb
      rw [mul_comm l.den r]
      exact exact_mod hl.1 hb hl.2.symm hi
  | rf l r =>
    obtain ⟨rfl, hr⟩ := ha
    have hi := int_over hr.1 l
    cases op
    · simp only [Safe.arith, Safe.plusRF, Safe.plusFR, bind_eq_clean, mul_clean, add_clean,
        pure_eq_ok, and_true] at h
      obtain ⟨_, ⟨-, rfl⟩, _, ⟨-, rfl⟩, rfl⟩ := h
      rw [add_comm r.num]
      exact exact_sum hr.1 hi hr.2.symm
    · simp only [Safe.arith, Safe.minusRF, bind_eq_clean, mul_clean, sub_clean, pure_eq_ok,
        and_true] at h
      obtain ⟨_, ⟨-, rfl⟩, _, ⟨-, rfl⟩, rfl⟩ := h
      exact exact_diff hr.1 hi hr.2.symm
    · simp only [Safe.arith, Safe.multipliesRF, Safe.multipliesFR, bind_eq_clean, mul_clean,
        pure_eq_ok, and_true] at h
      obtain ⟨_, ⟨-, rfl⟩, rfl⟩ := h
      rw [mul_comm r.num]
      simpa [ArithOp.Exact] using exact_mul (denotes_int l) hr
    · simp only [Safe.arith, Safe.dividesRF, bind_eq_clean, mul_clean, pure_eq_ok,
        and_true] at h
      obtain ⟨_, ⟨-, rfl⟩, rfl⟩ := h
      simpa using exact_div (denotes_int l) hr
    · simp only [Safe.arith, Safe.modulusRF, bind_eq_clean, mul_clean, mod_clean, pure_eq_ok,
        and_true] at h
      obtain ⟨_, ⟨-, rfl⟩, _, ⟨hb, -, rfl⟩, rfl⟩ := h
      rw [mul_comm r.den l]
      exact exact_mod hr.1 hb hi hr.2.symm

theorem Fast.arith_exact {op : ArithOp} {a : Args} {x y : ℚ} {res : Raw} (ha : a.Denote x y)
    (h : Fast.arith T op a ⇓ res) : op.Exact x y res := by
  cases a with
  | ff l r =>
    obtain ⟨hl, hr⟩ := ha
    have hne : l.den * r.den ≠ 0 := mul_ne_zero hl.1 hr.1
    obtain ⟨hx, hy⟩ := common_den hl hr hne rfl (mul_comm _ _)
    rw [mul_comm r.den] at hx
    rw [mul_comm l.den] at hy
    cases op
    · simp only [Fast.arith, Fast.plusFF, bind_eq_clean, mul_clean, add_clean, pure_eq_ok,
        and_true] at h
      obtain ⟨_, ⟨-, rfl⟩, _, ⟨-, rfl⟩, _, ⟨-, rfl⟩, _, ⟨-, rfl⟩, rfl⟩ := h
      exact exact_sum hne hx hy
    · simp only [Fast.arith, Fast.minusFF, bind_eq_clean, mul_clean, sub_clean, pure_eq_ok,
        and_true] at h
      obtain ⟨_, ⟨-, rfl⟩, _, ⟨-, rfl⟩, _, ⟨-, rfl⟩, _, ⟨-, rfl⟩, rfl⟩ := h
      exact exact_diff hne hx hy
    · simp only [Fast.arith, Fast.multipliesFF, bind_eq_clean, mul_clean, pure_eq_ok,
        and_true] at h
      obtain ⟨_, ⟨-, rfl⟩, _, ⟨-, rfl⟩, rfl⟩ := h
      exact exact_mul hl hr
    · simp only [Fast.arith, Fast.dividesFF, bind_eq_clean, mul_clean, pure_eq_ok,
        and_true] at h
      obtain ⟨_, ⟨-, rfl⟩, _, ⟨-, rfl⟩, rfl⟩ := h
      exact exact_div hl hr
    · simp only [Fast.arith, Fast.modulusFF, bind_eq_clean, mul_clean, mod_clean, pure_eq_ok,
        and_true] at h
      obtain ⟨_, ⟨-, rfl⟩, _, ⟨-, rfl⟩, _, ⟨hb, -, rfl⟩, _, ⟨-, rfl⟩, rfl⟩ := h
      exact exact_mod hne hb hx hy
  | fr l r =>
    obtain ⟨hl, rfl⟩ := ha
    have hi := int_over hl.1 r
    cases op
    · simp only [Fast.arith, Fast.plusFR, bind_eq_clean, mul_clean, add_clean, pure_eq_ok,
        and_true] at h
      obtain ⟨_, ⟨-, rfl⟩, _, ⟨-, rfl⟩, rfl⟩ := h
      exact exact_sum hl.1 hl.2.symm hi
    · simp only [Fast.arith, Fast.minusFR, bind_eq_clean, mul_clean, sub_clean, pure_eq_ok,
        and_true] at h
      obtain ⟨_, ⟨-, rfl⟩, _, ⟨-, rfl⟩, rfl⟩ := h
      exact exact_diff hl.1 hl.2.symm hi
    · simp only [Fast.arith, Fast.multipliesFR, bind_eq_clean, mul_clean, pure_eq_ok,
        and_true] at h
      obtain ⟨_, ⟨-, rfl⟩, rfl⟩ := h
      simpa [ArithOp.Exact] using exact_mul hl (denotes_int r)
    · simp only [Fast.arith, Fast.dividesFR, bind_eq_clean, mul_clean, pure_eq_ok,
        and_true] at h
      obtain ⟨_, ⟨-, rfl⟩, rfl⟩ := h
      simpa using exact_div hl (denotes_int r)
    · simp only [Fast.arith, Fast.modulusFR, bind_eq_clean, mul_clean, mod_clean, pure_eq_ok,
        and_true] at h
      obtain ⟨_, ⟨-, rfl⟩, _, ⟨hb, -, rfl⟩, rfl⟩ := h
      exact exact_mod hl.1 hb hl.2.symm hi
  | rf l r =>
    obtain ⟨rfl, hr⟩ := ha
    have hi := int_over hr.1 l
    cases op
    · simp only [Fast.arith, Fast.plusRF, Fast.plusFR, bind_eq_clean, mul_clean, add_clean,
        pure_eq_ok, and_true] at h
      obtain ⟨_, ⟨-, rfl⟩, _, ⟨-, rfl⟩, rfl⟩ := h
      rw [add_comm r.num]
      exact exact_sum hr.1 hi hr.2.symm
    · simp only [Fast.arith, Fast.minusRF, bind_eq_clean, mul_clean, sub_clean, pure_eq_ok,
        and_true] at h
      obtain ⟨_, ⟨-, rfl⟩, _, ⟨-, rfl⟩, rfl⟩ := h
      exact exact_diff hr.1 hi hr.2.symm
    · simp only [Fast.arith, Fast.multipliesRF, Fast.multipliesFR, bind_eq_clean, mul_clean,
        pure_eq_ok, and_true] at h
      obtain ⟨_, ⟨-, rfl⟩, rfl⟩ := h
      rw [mul_comm r.num]
      simpa [ArithOp.Exact] using exact_mul (denotes_int l) hr
    · simp only [Fast.arith, Fast.dividesRF, bind_eq_clean, mul_clean, pure_eq_ok,
        and_true] at h
      obtain ⟨_, ⟨-, rfl⟩, rfl⟩ := h
      simpa using exact_div (denotes_int l) hr
    · simp only [Fast.arith, Fast.modulusRF, bind_eq_clean, mul_clean, mod_clean, pure_eq_ok,
        and_true] at h
      obtain ⟨_, ⟨-, rfl⟩, _, ⟨hb, -, rfl⟩, rfl⟩ := h
      exact exact_mod hr.1 hb hi hr.2.symm

theorem Args.reduce_denote {mode : ReduceMode} {a a' : Args} {x y : ℚ} (ha : a.Denote x y)
    (h : a.reduce T mode ⇓ a') : a'.Denote x y := by
  cases a with
  | ff l r =>
    simp only [Args.reduce, bind_eq_clean, pure_eq_ok, and_true] at h
    obtain ⟨l', hl, r', hr, rfl⟩ := h
    exact ⟨Raw.reduce_denotes ha.1 hl, Raw.reduce_denotes ha.2 hr⟩
  | fr l r =>
    simp only [Args.reduce, bind_eq_clean, pure_eq_ok, and_true] at h
    obtain ⟨l', hl, rfl⟩ := h
    exact ⟨Raw.reduce_denotes ha.1 hl, ha.2⟩
  | rf l r =>
    simp only [Args.reduce, bind_eq_clean, pure_eq_ok, and_true] at h
    obtain ⟨l', hl, rfl⟩ := h
    exact ⟨ha.1, Raw.reduce_denotes ha.2 hl⟩

theorem ArithOp.Exact.reduce {op : ArithOp} {x y : ℚ} {mode : ReduceMode} {f r : Raw}
    (h : op.Exact x y f) (hr : f.reduce T mode ⇓ r) : op.Exact x y r := by
  cases op
  · exact Raw.reduce_denotes h hr
  · exact Raw.reduce_denotes h hr
  · exact Raw.reduce_denotes h hr
  · exact ⟨fun hy => Raw.reduce_denotes (h.1 hy) hr,
      fun hy => (Raw.reduce_den_eq_zero hr).2 (h.2 hy)⟩
  · exact ⟨h.1, Raw.reduce_denotes h.2 hr⟩

/-- Every policy computes exactly. -/
theorem Ops.arith_exact {o : Ops} {op : ArithOp} {a : Args} {x y : ℚ} {res : Raw}
    (ha : a.Denote x y) (h : o.arith T op a ⇓ res) : op.Exact x y res := by
  induction o generalizing a res with
  | safe => exact Safe.arith_exact ha h
  | fast => exact Fast.arith_exact ha h
  | reducedInput o mode ih =>
    simp only [Ops.arith, bind_eq_clean] at h
    obtain ⟨a', ha', h⟩ := h
    exact ih (Args.reduce_denote ha ha') h
  | reducedOutput o mode ih =>
    simp only [Ops.arith, bind_eq_clean] at h
    obtain ⟨r, hr, h⟩ := h
    exact (ih ha hr).reduce h

theorem negate_base_exact {v r : Raw} {x : ℚ} (hv : Denotes v x) (h : Safe.negate T v ⇓ r) :
    Denotes r (-x) := by
  simp only [Safe.negate, bind_eq_clean, neg_clean, pure_eq_ok, and_true] at h
  obtain ⟨_, ⟨-, rfl⟩, rfl⟩ := h
  refine ⟨hv.1, ?_⟩
  rw [← hv.2]; push_cast; rw [neg_div]

theorem Ops.negate_exact {o : Ops} {v r : Raw} {x : ℚ} (hv : Denotes v x)
    (h : o.negate T v ⇓ r) : Denotes r (-x) := by
  induction o generalizing v r with
  | safe => exact negate_base_exact hv h
  | fast => exact negate_base_exact (T := T) hv h
  | reducedInput o mode ih =>
    simp only [Ops.negate, bind_eq_clean] at h
    obtain ⟨a', ha', h⟩ := h
    exact ih (Raw.reduce_denotes hv ha') h
  | reducedOutput o mode ih =>
    simp only [Ops.negate, bind_eq_clean] at h
    obtain ⟨s, hs, h⟩ := h
    exact Raw.reduce_denotes (ih hv hs) h

end arith

end Ieme
