import Verif.Props.FloatingPoint
import Verif.Props.Parts
import Verif.Props.Pow
import Verif.Props.Arith
import Mathlib.Data.Rat.Lemmas

/-!
# Exactly when a floating-point number is converted, and with which parts: property C95

The byte order is little-endian; for the others see C63.
-/

namespace Ieme

open Res IntTy FloatingPoint

variable {F : Fmt} {T : IntTy} {o : Ops} {r : Raw} {b : ℕ}

theorem pow2_iff {e : ℤ} (he : i32.InRange e) (hm : e ≠ -2147483648) :
    Fraction.pow2 T e ⇓ r ↔ T.InRange ((2 : ℤ) ^ e.natAbs) ∧
      r = if 0 ≤ e then ⟨2 ^ e.natAbs, 1⟩ else ⟨1, 2 ^ e.natAbs⟩ := by
  rw [Fraction.pow2_eq he hm, two_pow_cast]
  constructor
  · intro h
    split at h
    · obtain ⟨p, hp, h⟩ := bind_eq_clean.1 h
      obtain ⟨h1, rfl⟩ := conv_clean.1 hp
      exact ⟨h1, (pure_eq_ok.1 h).1.symm⟩
    · cases h
  · rintro ⟨h1, rfl⟩
    rw [if_pos ((two_pow_inRange_iff _).1 h1).1, conv_clean.2 ⟨h1, rfl⟩, ok_bind_false]
    rfl

theorem neg_one_inRange : T.InRange (-1) ↔ T.signed = true := by
  constructor
  · intro h
    cases hs : T.signed
    · have := h.nonneg hs; omega
    · rfl
  · intro hs
    have := min_signed hs
    have := T.max_ge
    constructor <;> omega

/-- **C95** A NaN is converted, to `0/0`, exactly when `2` to the number of mantissa bits is
representable. -/
theorem C95_nan_iff (hb : F.NaN b) : toFraction .little F T o b ⇓ r ↔
    T.InRange ((2 : ℤ) ^ F.mant) ∧ r = ⟨0, 0⟩ := by
  rw [toFraction_little, mantissaDenominator_eq, two_pow_cast]
  constructor
  · intro h
    obtain ⟨den, h1, h2⟩ := bind_eq_clean.1 h
    split at h1
    · rw [if_pos hb] at h2
      exact ⟨(conv_clean.1 h1).1, (pure_eq_ok.1 h2).1.symm⟩
    · cases h1
  · rintro ⟨h1, rfl⟩
    rw [if_pos ((two_pow_inRange_iff _).1 h1).1, conv_clean.2 ⟨h1, rfl⟩, ok_bind_false, if_pos hb]
    rfl

example : binary32.NaN 0x7FC00000 ∧ toFraction .little binary32 i32 .fast 0x7FC00000 ⇓ ⟨0, 0⟩ ∧
    binary64.NaN 0x7FF8000000000000 ∧
    toFraction .little binary64 i32 .fast 0x7FF8000000000000 = .fault .illFormed := by
  decide +kernel

/-- **C95** Every other bit pattern, be it normal, zero, subnormal or infinite: exactly when it
is converted without overflow, and what is computed.  With `m` bits of mantissa `M` and the
exponent field `e` above the bias, `2 ^ m` and `2 ^ |e|` must be representable, a negative number
needs a signed type, and the three operations under the policy must finish. -/
theorem C95_float_iff (hb : ¬ F.NaN b) {e : ℤ} (he : e = (F.expField b : ℤ) - F.bias) :
    toFraction .little F T o b ⇓ r ↔
      T.InRange ((2 : ℤ) ^ F.mant) ∧ T.InRange ((2 : ℤ) ^ e.natAbs) ∧
      (F.signField b ≠ 0 → T.signed = true) ∧
      ∃ g h, o.arith T .plus (.rf 1 ⟨F.mantField b, 2 ^ F.mant⟩) ⇓ g ∧
        o.arith T .multiplies (.rf (if F.signField b = 0 then 1 else -1) g) ⇓ h ∧
        o.arith T .multiplies
          (.ff h (if 0 ≤ e then ⟨2 ^ e.natAbs, 1⟩ else ⟨1, 2 ^ e.natAbs⟩)) ⇓ r := by
  obtain ⟨k1, k2⟩ := Fmt.expField_bounds F b
  obtain ⟨b1, b2, -⟩ := bias_bounds F
  have her : i32.InRange e := by rw [i32_inRange]; omega
  have hem : e ≠ -2147483648 := by omega
  have hsign : ∀ {s : ℤ}, signFactor T (F.signField b) ⇓ s ↔
      (F.signField b ≠ 0 → T.signed = true) ∧ s = if F.signField b = 0 then 1 else -1 := by
    intro s
    unfold signFactor
    split
    · rename_i h
      simp only [h, ne_eq, not_true_eq_false, false_imp_iff, true_and, pure_eq_ok, and_true]
      exact eq_comm
    · rename_i h
      rw [neg_clean, neg_one_inRange]
      simp [h]
  have hmant : T.InRange ((2 : ℤ) ^ F.mant) → T.InRange (F.mantField b : ℤ) := by
    intro h
    have : (F.mantField b : ℤ) < (2 : ℤ) ^ F.mant := by exact_mod_cast Fmt.mantField_lt F b
    exact ⟨T.min_le_zero.trans (Int.natCast_nonneg _), this.le.trans h.2⟩
  have hexp : i32.conv (F.expField b : ℤ) ⇓ (F.expField b : ℤ) :=
    conv_clean.2 ⟨by rw [i32_inRange]; omega, rfl⟩
  have hsub : i32.sub (F.expField b : ℤ) F.bias ⇓ e := sub_clean.2 ⟨by rw [← he]; exact her, he⟩
  rw [toFraction_little, mantissaDenominator_eq]
  constructor
  · intro h
    obtain ⟨den, h1, h2⟩ := bind_eq_clean.1 h
    split at h1
    · rw [if_neg hb, assemble] at h2
      obtain ⟨hd, rfl⟩ := conv_clean.1 h1
      rw [← two_pow_cast] at h2 hd
      obtain ⟨s, hs, h2⟩ := bind_eq_clean.1 h2
      rw [hexp, ok_bind_false, hsub, ok_bind_false] at h2
      obtain ⟨n, hn, h2⟩ := bind_eq_clean.1 h2
      obtain ⟨g, hg, h2⟩ := bind_eq_clean.1 h2
      obtain ⟨h, hh, h2⟩ := bind_eq_clean.1 h2
      obtain ⟨p, hp, h2⟩ := bind_eq_clean.1 h2
      obtain ⟨hs1, rfl⟩ := hsign.1 hs
      obtain ⟨-, rfl⟩ := conv_clean.1 hn
      obtain ⟨hp1, rfl⟩ := (pow2_iff her hem).1 hp
      rw [Fraction.arith_self] at hg hh h2
      exact ⟨hd, hp1, hs1, g, h, hg, hh, h2⟩
    · cases h1
  · rintro ⟨hd, hp1, hs1, g, h, hg, hh, h2⟩
    have hm := hmant hd
    rw [two_pow_cast] at hd
    rw [if_pos ((two_pow_inRange_iff _).1 hd).1, conv_clean.2 ⟨hd, rfl⟩, ok_bind_false, if_neg hb,
      assemble, hsign.2 ⟨hs1, rfl⟩, ok_bind_false, hexp, ok_bind_false, hsub, ok_bind_false,
      conv_clean.2 ⟨hm, rfl⟩, ok_bind_false, ← two_pow_cast]
    simp only [Fraction.arith_self]
    have hg' : o.arith T .plus (.rf 1 (Fraction.mk (F.mantField b) (2 ^ F.mant))) ⇓ g := hg
    rw [hg', ok_bind_false, hh, ok_bind_false, (pow2_iff her hem).2 ⟨hp1, rfl⟩, ok_bind_false, h2]

/-- The `float` 2.5 has `M = 2 ^ 21` and `e = 1`. -/
example : ¬ binary32.NaN 0x40200000 ∧ (1 : ℤ) = (binary32.expField 0x40200000 : ℤ) - binary32.bias ∧
    binary32.mantField 0x40200000 = 2 ^ 21 ∧
    Ops.fast.arith i64 .plus (.rf 1 ⟨2 ^ 21, 2 ^ 23⟩) ⇓ ⟨10485760, 8388608⟩ ∧
    toFraction .little binary32 i64 .fast 0x40200000 ⇓ ⟨20971520, 8388608⟩ := by decide +kernel

/-- **C95** Under `fast`, and under `safe` which is the same here: with the sign `s`, the parts
are `s * (2 ^ m + M) * 2 ^ e` over `2 ^ m`, or `s * (2 ^ m + M)` over `2 ^ (m - e)`.  Besides the
conditions above, `2 ^ m + M`, also with its sign, and the parts must be representable. -/
theorem C95_float_parts (hb : ¬ F.NaN b) {e s M : ℤ} (he : e = (F.expField b : ℤ) - F.bias)
    (hM : M = F.mantField b) (hsg : s = if F.signField b = 0 then 1 else -1) :
    (toFraction .little F T .fast b ⇓ r ↔
      T.InRange ((2 : ℤ) ^ F.mant) ∧ T.InRange ((2 : ℤ) ^ e.natAbs) ∧
      T.InRange (2 ^ F.mant + M) ∧ T.InRange (s * (2 ^ F.mant + M)) ∧
      r = (if 0 ≤ e then ⟨s * (2 ^ F.mant + M) * 2 ^ e.natAbs, 2 ^ F.mant⟩
        else ⟨s * (2 ^ F.mant + M), 2 ^ F.mant * 2 ^ e.natAbs⟩) ∧
      r.InRange T) ∧
    (toFraction .little F T .safe b ⇓ r ↔ toFraction .little F T .fast b ⇓ r) := by
  have one : T.InRange 1 := inRange_of_nonneg_le (by decide) (by decide)
  have hm0 : 0 ≤ M := by rw [hM]; exact Int.natCast_nonneg _
  have hp0 : (0 : ℤ) < 2 ^ F.mant := by positivity
  have hmant : T.InRange ((2 : ℤ) ^ F.mant) → T.InRange M := by
    intro h
    have : (F.mantField b : ℤ) < (2 : ℤ) ^ F.mant := by exact_mod_cast Fmt.mantField_lt F b
    rw [hM]
    exact ⟨T.min_le_zero.trans (Int.natCast_nonneg _), this.le.trans h.2⟩
  have hsr : (F.signField b ≠ 0 → T.signed = true) ↔ T.InRange s := by
    rw [hsg]
    split
    · rename_i h; simp [h, one]
    · rename_i h; simp [h, neg_one_inRange]
  have hs2 : T.InRange (s * (2 ^ F.mant + M)) → T.InRange s := by
    intro h
    rw [hsg] at h ⊢
    split
    · exact one
    · rename_i h'
      rw [if_neg h'] at h
      rw [neg_one_inRange]
      cases hs : T.signed
      · have := h.nonneg hs; omega
      · rfl
  rw [C95_float_iff hb he, C95_float_iff hb he, ← hM, ← hsg, hsr]
  have e1 : ∀ {g : Raw}, T.InRange ((2 : ℤ) ^ F.mant) →
      (Ops.fast.arith T .plus (.rf 1 ⟨M, 2 ^ F.mant⟩) ⇓ g ↔
        g = ⟨2 ^ F.mant + M, 2 ^ F.mant⟩ ∧ T.InRange (2 ^ F.mant + M)) := by
    intro g h1
    rw [C85_fast_iff (a := .rf 1 ⟨M, 2 ^ F.mant⟩) ⟨one, hmant h1, h1⟩]
    simp only [Args.left, Args.right, ArithOp.crossParts, ArithOp.UsesCommon, Raw.InRange, mul_one,
      one_mul]
    constructor
    · rintro ⟨rfl, h4, h5, -⟩
      exact ⟨rfl, h4.1⟩
    · rintro ⟨rfl, h4⟩
      exact ⟨rfl, ⟨h4, h1⟩, fun _ => ⟨h1, hmant h1⟩, by simp⟩
  have e2 : ∀ {g h : Raw}, g.InRange T → T.InRange s →
      (Ops.fast.arith T .multiplies (.rf s g) ⇓ h ↔
        h = ⟨s * g.num, g.den⟩ ∧ T.InRange (s * g.num)) := by
    intro g h h1 h2
    rw [C85_fast_iff (a := .rf s g) ⟨h2, h1⟩]
    simp only [Args.left, Args.right, ArithOp.crossParts, ArithOp.UsesCommon, Raw.InRange, one_mul]
    constructor
    · rintro ⟨rfl, h4, -⟩
      exact ⟨rfl, h4.1⟩
    · rintro ⟨rfl, h4⟩
      exact ⟨rfl, ⟨h4, h1.2⟩, by simp⟩
  have e3 : ∀ {h : Raw}, h.InRange T → T.InRange ((2 : ℤ) ^ e.natAbs) →
      (Ops.fast.arith T .multiplies
        (.ff h (if 0 ≤ e then ⟨2 ^ e.natAbs, 1⟩ else ⟨1, 2 ^ e.natAbs⟩)) ⇓ r ↔
        r = (if 0 ≤ e then ⟨h.num * 2 ^ e.natAbs, h.den⟩ else ⟨h.num, h.den * 2 ^ e.natAbs⟩) ∧
        r.InRange T) := by
    intro h h1 h2
    rw [C85_fast_iff (a := .ff _ _) ⟨h1, by split; exacts [⟨h2, one⟩, ⟨one, h2⟩]⟩]
    simp only [Args.left, Args.right, ArithOp.crossParts, ArithOp.UsesCommon]
    split <;> simp
  constructor
  · constructor
    · rintro ⟨a1, a2, a3, g, h, h1, h2, h3⟩
      obtain ⟨rfl, h4⟩ := (e1 a1).1 h1
      obtain ⟨rfl, h5⟩ := (e2 ⟨h4, a1⟩ a3).1 h2
      obtain ⟨h6, h7⟩ := (e3 ⟨h5, a1⟩ a2).1 h3
      exact ⟨a1, a2, h4, h5, h6, h7⟩
    · rintro ⟨a1, a2, h4, h5, h6, h7⟩
      exact ⟨a1, a2, hs2 h5, _, _, (e1 a1).2 ⟨rfl, h4⟩, (e2 ⟨h4, a1⟩ (hs2 h5)).2 ⟨rfl, h5⟩,
        (e3 ⟨h5, a1⟩ a2).2 ⟨h6, h7⟩⟩
  · simp only [C85_safe_eq_fast (op := .plus) (a := .rf _ _) (Or.inr (by simp)),
      C85_safe_eq_fast (op := .multiplies) (Or.inl (by simp [ArithOp.UsesCommon]))]

/-- The `float` -2.5; the `float` 2 to the 41st overflows 64 bits although its value does not. -/
example : ¬ binary32.NaN 0xC0200000 ∧
    toFraction .little binary32 i64 .fast 0xC0200000 ⇓ ⟨-20971520, 8388608⟩ ∧
    toFraction .little binary32 i64 .safe 0xC0200000 ⇓ ⟨-20971520, 8388608⟩ ∧
    toFraction .little binary32 i64 .fast 0x54000000 = .fault .overflow ∧
    toFraction .little binary32 i64 .defaults 0x54000000 ⇓ ⟨2 ^ 41, 1⟩ := by decide +kernel

/-- **C95** Under a policy that normalises its output, the default among them, a normal number is
converted to its value in lowest terms. -/
theorem C95_float_lowest_terms (hn : o.NormalizesOutput) (hb : F.Normal b)
    (h : toFraction .little F T o b ⇓ r) : r = ⟨(F.value b).num, (F.value b).den⟩ := by
  have hx := C58_normal_exact hb h
  have hnan : ¬ F.NaN b := fun hn => by have := hb.2; have := hn.1; omega
  obtain ⟨a1, a2, a3, g, h', h1, h2, h3⟩ := (C95_float_iff hnan rfl).1 h
  have one : T.InRange 1 := inRange_of_nonneg_le (by decide) (by decide)
  have hmant : T.InRange (F.mantField b : ℤ) := by
    have : (F.mantField b : ℤ) < (2 : ℤ) ^ F.mant := by exact_mod_cast Fmt.mantField_lt F b
    exact ⟨T.min_le_zero.trans (Int.natCast_nonneg _), this.le.trans a1.2⟩
  have hg : g.InRange T := Ops.arith_inRange (a := .rf _ _) ⟨one, hmant, a1⟩ h1
  have hh : h'.InRange T := by
    refine Ops.arith_inRange (a := .rf _ _) ⟨?_, hg⟩ h2
    split
    · exact one
    · rename_i h; exact neg_one_inRange.2 (a3 h)
  obtain ⟨h4, h5⟩ := (C08_canonical_results hn (a := .ff _ _)
    ⟨hh, by split; exacts [⟨a2, one⟩, ⟨one, a2⟩]⟩ h3).1 hx.1
  have hc : Nat.Coprime r.num.natAbs r.den.natAbs := h5
  rw [← hx.2, Rat.num_div_eq_of_coprime h4 hc, Rat.den_div_eq_of_coprime h4 hc]

example : Ops.defaults.NormalizesOutput ∧ binary32.Normal 0xC0200000 ∧
    toFraction .little binary32 i64 .defaults 0xC0200000 ⇓ ⟨-5, 2⟩ :=
  ⟨C08_defaults_normalize, by decide +kernel, by decide +kernel⟩

end Ieme
