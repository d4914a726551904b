import Verif.Lemmas.Pow
import Mathlib.Tactic.FieldSimp
import Mathlib.Tactic.Positivity

/-!
# Powers: properties C35–C37
-/

namespace Ieme

open Res IntTy

variable {T : IntTy} {r : Raw} {b e : ℤ}

/-- **C35** Whatever `pow2` returns cleanly is exactly `2 ^ e`. -/
theorem C35_pow2_exact (he : i32.InRange e) (h : Fraction.pow2 T e ⇓ r) :
    Denotes r ((2 : ℚ) ^ e) := by
  by_cases hm : e = -2147483648
  · subst hm
    rw [Fraction.pow2, if_neg (by decide)] at h
    rw [show i32.neg (-2147483648) = .fault .overflow by decide, fault_bind] at h
    cases h
  rw [Fraction.pow2_eq he hm] at h
  obtain ⟨hc, hb⟩ := pow_exponent_split he hm
  split at h
  · obtain ⟨p, hp, h⟩ := bind_eq_clean.1 h
    obtain ⟨-, rfl⟩ := conv_clean.1 hp
    simp only [pure_eq_ok, and_true] at h
    subst h
    rcases hc with ⟨h0, h1⟩ | ⟨h0, h1⟩
    · rw [if_pos h0]
      refine ⟨by simp, ?_⟩
      conv_rhs => rw [h1, zpow_natCast]
      push_cast; simp
    · rw [if_neg (by omega)]
      refine ⟨by simp, ?_⟩
      conv_rhs => rw [h1, zpow_neg, zpow_natCast]
      push_cast; simp
  · cases h

/-- **C35** `pow2` finishes cleanly exactly when `2 ^ |e|` is representable. -/
theorem C35_pow2_finishes_iff (he : i32.InRange e) (hm : e ≠ -2147483648) :
    (∃ r, Fraction.pow2 T e ⇓ r) ↔ T.InRange ((2 : ℤ) ^ e.natAbs) := by
  rw [Fraction.pow2_eq he hm, two_pow_cast]
  constructor
  · rintro ⟨r, h⟩
    split at h
    · obtain ⟨p, hp, -⟩ := bind_eq_clean.1 h
      exact (conv_clean.1 hp).1
    · cases h
  · intro h
    rw [if_pos ((two_pow_inRange_iff _).1 h).1, conv_clean.2 ⟨h, rfl⟩, ok_bind_false]
    exact ⟨_, rfl⟩

/-- **C35, partial.**  Full claim: `pow2` never returns a defined wrong value, wrapping or
not.  Proved except for a signed type and `|e|` one less than the width, where it is false:
see `C35_pow2_wrong`. -/
theorem C35_pow2_never_wrong_partial {w : Bool} (he : i32.InRange e)
    (hs : ¬ (T.signed = true ∧ e.natAbs = T.bits - 1)) (h : Fraction.pow2 T e = .ok r w) :
    Denotes r ((2 : ℚ) ^ e) := by
  by_cases hm : e = -2147483648
  · subst hm
    rw [Fraction.pow2, if_neg (by decide)] at h
    rw [show i32.neg (-2147483648) = .fault .overflow by decide, fault_bind] at h
    cases h
  have h' := h
  rw [Fraction.pow2_eq he hm] at h
  split at h
  · rename_i hlt
    have hr := (two_pow_inRange_iff (T := T) e.natAbs).2 ⟨hlt, fun h1 h2 => hs ⟨h1, h2⟩⟩
    rw [conv_clean.2 ⟨hr, rfl⟩, ok_bind_false, pure_eq_ok] at h
    obtain ⟨-, rfl⟩ := h
    exact C35_pow2_exact he h'
  · cases h

/-- **C35, refuted in general.**  For every signed type, `pow2(width - 1)` is the minimum
value, a negative number. -/
theorem C35_pow2_wrong :
    (∀ T : IntTy, T.signed = true → T.bits ≤ 2147483647 →
      Fraction.pow2 T ((T.bits - 1 : ℕ) : ℤ) = .ok ⟨T.min, 1⟩ true) ∧
    Fraction.pow2 i32 31 = .ok ⟨-2147483648, 1⟩ true ∧
    Fraction.pow2 i32 (-31) = .ok ⟨1, -2147483648⟩ true := by
  refine ⟨fun T hs hb => ?_, by decide, by decide⟩
  have hb0 := T.bits_pos
  rw [Fraction.pow2_eq (by rw [i32_inRange]; omega) (by omega), Int.natAbs_natCast,
    if_pos (by omega)]
  simp only [if_pos (Int.natCast_nonneg _)]
  have h1 : ¬ T.InRange (((2 ^ (T.bits - 1) : ℕ) : ℤ)) := fun h =>
    ((two_pow_inRange_iff _).1 h).2 hs rfl
  have h2 : T.wrap ((2 ^ (T.bits - 1) : ℕ) : ℤ) = T.min := by
    have e : (2 : ℕ) ^ T.bits = 2 * 2 ^ (T.bits - 1) := by
      rw [← Nat.pow_succ', Nat.succ_eq_add_one, Nat.sub_add_cancel (by omega)]
    have hp : 0 < 2 ^ (T.bits - 1) := Nat.pow_pos (by decide)
    unfold IntTy.wrap IntTy.min
    rw [if_pos hs, if_pos hs, e]
    generalize 2 ^ (T.bits - 1) = z at hp
    rw [Int.bmod_def, Int.emod_eq_of_lt (by omega) (by omega), if_neg (by omega)]
    push_cast; omega
  rw [IntTy.conv, if_neg h1, h2]
  rfl

example : i32.InRange (-5) ∧ Fraction.pow2 i32 (-5) ⇓ ⟨1, 32⟩ ∧ Fraction.pow2 i32 30 ⇓ ⟨2 ^ 30, 1⟩ ∧
    Fraction.pow2 u32 31 ⇓ ⟨2 ^ 31, 1⟩ ∧ Fraction.pow2 i32 32 = .fault .shiftRange := by decide

/-! ## General powers -/

/-- **C36** `pow` is exact: a clean result denotes `b ^ e`, or is undefined exactly when
`b = 0` and `e < 0`. -/
theorem C36_pow_exact (hb : T.InRange b) (he : i32.InRange e) (h : Fraction.pow T b e ⇓ r) :
    (¬ (b = 0 ∧ e < 0) → Denotes r ((b : ℚ) ^ e)) ∧ (r.den = 0 ↔ b = 0 ∧ e < 0) := by
  by_cases hm : e = -2147483648
  · subst hm
    rw [Fraction.pow, if_neg (by decide)] at h
    rw [show i32.neg (-2147483648) = .fault .overflow by decide, fault_bind] at h
    cases h
  rw [Fraction.pow_eq he hm] at h
  obtain ⟨hc, -⟩ := pow_exponent_split he hm
  obtain ⟨p, hp, h⟩ := bind_eq_clean.1 h
  obtain ⟨-, rfl⟩ := (mathPow_clean hb _).1 hp
  simp only [pure_eq_ok, and_true] at h
  subst h
  rcases hc with ⟨h0, h1⟩ | ⟨h0, h1⟩
  · rw [if_pos h0]
    refine ⟨fun _ => ⟨by simp, ?_⟩, by simp; omega⟩
    conv_rhs => rw [h1, zpow_natCast]
    push_cast; simp
  · rw [if_neg (by omega)]
    have hn0 : e.natAbs ≠ 0 := by omega
    refine ⟨fun hb0 => ?_, by simp [hn0, h0]⟩
    have hb0 : b ≠ 0 := fun h => hb0 ⟨h, h0⟩
    refine ⟨pow_ne_zero _ hb0, ?_⟩
    conv_rhs => rw [h1, zpow_neg, zpow_natCast]
    push_cast; simp

/-- **C36** `pow` finishes without wrapping exactly when `b ^ |e|` is representable. -/
theorem C36_pow_clean_iff (hb : T.InRange b) (he : i32.InRange e) (hm : e ≠ -2147483648) :
    (∃ r, Fraction.pow T b e ⇓ r) ↔ T.InRange (b ^ e.natAbs) := by
  rw [Fraction.pow_eq he hm]
  constructor
  · rintro ⟨r, h⟩
    obtain ⟨p, hp, -⟩ := bind_eq_clean.1 h
    exact ((mathPow_clean hb _).1 hp).1
  · intro h
    rw [(mathPow_clean hb _).2 ⟨h, rfl⟩, ok_bind_false]
    exact ⟨_, rfl⟩

/-- **C36** For a signed type finishing at all is the same as finishing exactly: the result
is never a wrapped one. -/
theorem C36_pow_signed_finishes_iff (hs : T.signed = true) (hb : T.InRange b)
    (he : i32.InRange e) (hm : e ≠ -2147483648) :
    (∃ r w, Fraction.pow T b e = .ok r w) ↔ T.InRange (b ^ e.natAbs) := by
  rw [← C36_pow_clean_iff hb he hm]
  constructor
  · rintro ⟨r, w, h⟩
    have hw : w = false := by
      rw [Fraction.pow_eq he hm] at h
      obtain ⟨p, w1, w2, hp, h2, rfl⟩ := bind_eq_ok.1 h
      rw [(mathPow_noWrap hs _ _).flag hp]
      simp only [pure_eq_ok] at h2
      rw [h2.2]; rfl
    exact ⟨r, hw ▸ h⟩
  · rintro ⟨r, h⟩; exact ⟨r, _, h⟩

/-- **C36** The one exponent left out: negating the smallest `int` is undefined behaviour,
whatever the base, even for base one. -/
theorem C36_pow_int_min : Fraction.pow T b (-2147483648) = .fault .overflow := by
  rw [Fraction.pow, if_neg (by decide), show i32.neg (-2147483648) = .fault .overflow by decide,
    fault_bind]

example : i32.InRange (-3) ∧ Fraction.pow i32 (-3) (-3) ⇓ ⟨1, -27⟩ ∧ Fraction.pow i32 (-2) 31 ⇓ ⟨-2147483648, 1⟩ ∧
    Fraction.pow i32 2 31 = .fault .overflow ∧ Fraction.pow i32 0 (-2) ⇓ ⟨1, 0⟩ ∧
    Fraction.pow i32 0 0 ⇓ ⟨1, 1⟩ := by decide +kernel

/-! ## The integer power -/

/-- **C37** On an unsigned type the integer power always finishes, with the power modulo
`2 ^ width`. -/
theorem C37_unsigned_pow_modular (hs : T.signed = false) (n : ℕ) :
    ∃ p w, mathPow T b n = .ok p w ∧ T.InRange p ∧ p ≡ b ^ n [ZMOD ((2 ^ T.bits : ℕ) : ℤ)] :=
  mathPow_unsigned hs n

/-- **C37** The recursion terminates for negative exponents too (the model is a total
function), and answers one. -/
theorem C37_negative_exponent (he : e ≤ 0) : mathPow T b e ⇓ 1 := by
  have : e = -(e.natAbs : ℤ) := by omega
  rw [this]; exact mathPow_nonpos _

/-- **C37** Whatever the type, a clean result is the exact power. -/
theorem C37_pow_exact (hb : T.InRange b) (n : ℕ) {p : ℤ} :
    mathPow T b n ⇓ p ↔ T.InRange (b ^ n) ∧ p = b ^ n := mathPow_clean hb n

example : mathPow u32 3 20 ⇓ 3486784401 ∧ mathPow u32 3 21 = .ok 1870418611 true ∧
    mathPow i32 7 (-3) ⇓ 1 := by decide +kernel

end Ieme
