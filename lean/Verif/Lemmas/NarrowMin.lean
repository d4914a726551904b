import Verif.Lemmas.Narrow

/-!
# The least value of a narrow type
-/

namespace Ieme
open Res IntTy

variable {N : NarrowTy} {v : ℤ}

namespace NarrowTy

theorem min_inRange : N.InRange N.min := ⟨le_rfl, by
  have h1 : (0 : ℤ) < ((2 ^ (N.bits - 1) : ℕ) : ℤ) := by exact_mod_cast Nat.two_pow_pos _
  have h2 : (0 : ℤ) < ((2 ^ N.bits : ℕ) : ℤ) := by exact_mod_cast Nat.two_pow_pos _
  unfold min max
  split <;> omega⟩

theorem min_neg (hs : N.signed = true) : N.min < 0 := by
  have h1 : (0 : ℤ) < ((2 ^ (N.bits - 1) : ℕ) : ℤ) := by exact_mod_cast Nat.two_pow_pos _
  simp only [min, hs, if_true]; omega

theorem abs_le_min (hv : N.InRange v) (hs : N.signed = true) : |v| ≤ |N.min| := by
  have := min_neg hs
  obtain ⟨h1, h2⟩ := hv
  rw [abs_of_neg this]
  simp only [min, max, hs, if_true] at *
  exact _root_.abs_le.2 ⟨by omega, by omega⟩

theorem abs_lt_min (hv : N.InRange v) (hs : N.signed = true) (hm : v ≠ N.min) :
    |v| < |N.min| := by
  have := min_neg hs
  obtain ⟨h1, h2⟩ := hv
  rw [abs_of_neg this]
  simp only [min, max, hs, if_true] at *
  exact abs_lt.2 ⟨by omega, by omega⟩

/-- The negation of the least value is converted back to it. -/
theorem conv_neg_min (hs : N.signed = true) : N.conv (-N.min) = .ok N.min true := by
  have h1 : (0 : ℤ) < ((2 ^ (N.bits - 1) : ℕ) : ℤ) := by exact_mod_cast Nat.two_pow_pos _
  have h2 : ¬ N.InRange (-N.min) := by
    simp only [InRange, min, max, hs, if_true]; omega
  have hb : N.bits = N.bits - 1 + 1 := by have := N.pos; omega
  rw [conv, if_neg h2]
  congr 1
  simp only [wrap, hs, if_true, min, neg_neg]
  have hp : 2 ^ N.bits = 2 * 2 ^ (N.bits - 1) := by conv_lhs => rw [hb, pow_succ, mul_comm]
  rw [hp, Int.bmod_def]
  have e : (((2 ^ (N.bits - 1) : ℕ) : ℤ)) % ((2 * 2 ^ (N.bits - 1) : ℕ) : ℤ) =
      ((2 ^ (N.bits - 1) : ℕ) : ℤ) := Int.emod_eq_of_lt h1.le (by push_cast at h1 ⊢; omega)
  rw [e]
  split <;> push_cast at * <;> omega

end NarrowTy

namespace Narrow

theorem mathAbs_clean (hv : N.InRange v) (hv' : N.signed = true → v ≠ N.min) :
    mathAbs N v ⇓ |v| := by
  unfold mathAbs
  split
  · rename_i h; rw [abs_of_nonneg h]; rfl
  · rename_i h
    have hn : v < 0 := by omega
    have := NarrowTy.natAbs_inRange hv hv'
    rw [show (v.natAbs : ℤ) = -v by omega] at this
    rw [neg_clean.2 ⟨NarrowTy.neg_inRange_int hv, rfl⟩, ok_bind_false, NarrowTy.conv_ok this,
      abs_of_neg hn]

theorem mathAbs_min (hs : N.signed = true) : mathAbs N N.min = .ok N.min true := by
  have := NarrowTy.min_neg hs
  rw [mathAbs, if_neg (by omega),
    neg_clean.2 ⟨NarrowTy.neg_inRange_int NarrowTy.min_inRange, rfl⟩, ok_bind_false,
    NarrowTy.conv_neg_min hs]

end Narrow
end Ieme
