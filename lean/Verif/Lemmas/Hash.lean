import Verif.Model.Hash
import Verif.Lemmas.Reduce
import Verif.Lemmas.MixedNumber
import Mathlib.Tactic.Positivity

/-!
# Canonical forms of mixed numbers
-/

namespace Ieme

open Res IntTy

variable {W F : IntTy} {o : Ops} {m m' : Mixed}

/-- The invariant leaves only one way to split a value. -/
theorem Mixed.Invariant.unique {q : ℚ} (h : m.Invariant) (h' : m'.Invariant) (hq : m.Denotes q)
    (hq' : m'.Denotes q) : m.whole = m'.whole ∧ SameValue m.frac m'.frac := by
  obtain ⟨y, hy, h1, h2, h3⟩ := h
  obtain ⟨y', hy', h1', h2', h3'⟩ := h'
  obtain ⟨z, hz, e⟩ := hq
  obtain ⟨z', hz', e'⟩ := hq'
  obtain rfl := hz.unique hy
  obtain rfl := hz'.unique hy'
  rw [abs_lt] at h1 h1'
  have key : ∀ {a b : ℤ} {s t : ℚ}, -1 < s → t < 1 → (0 < a → 0 ≤ s) → (b < 0 → t ≤ 0) →
      (a : ℚ) + s = b + t → ¬ b < a := by
    intro a b s t k1 k2 k3 k4 k5 k
    have e1 : (a : ℚ) < b + 2 := by linarith
    have e2 : a < b + 2 := by exact_mod_cast e1
    have e3 : a = b + 1 := by omega
    have e4 : t = s + 1 := by rw [e3] at k5; push_cast at k5; linarith
    rcases le_or_gt a 0 with ha | ha
    · have := k4 (by omega); linarith
    · have := k3 ha; linarith
  have hw : m.whole = m'.whole := by
    have a1 := key h1.1 h1'.2 h2 h3' (e.symm.trans e')
    have a2 := key h1'.1 h1.2 h2' h3 (e'.symm.trans e)
    omega
  refine ⟨hw, z, hy, ?_⟩
  have : z = z' := by rw [e', hw] at e; linarith
  rw [this]; exact hy'

/-- The fractional part is a canonical (or `0/0`) value of the type. -/
def Mixed.Canon (F : IntTy) (m : Mixed) : Prop := m.frac.InRange F ∧ CanonicalOrZero m.frac

theorem Fraction.arith_canon {op : ArithOp} {a : Args} {r : Raw} (hn : o.NormalizesOutput)
    (ha : a.InRange F) (h : Fraction.arith F F o op a ⇓ r) : r.InRange F ∧ CanonicalOrZero r := by
  rw [Fraction.arith_self] at h
  exact ⟨Ops.arith_inRange ha h, Ops.arith_canonical hn ha h⟩

theorem Mixed.fixImproper_canon (hn : o.NormalizesOutput) (hm : m.Canon F)
    (h : m.fixImproper W F o ⇓ m') : m'.Canon F := by
  obtain ⟨i, -, h1⟩ := bind_eq_clean.1 h
  split at h1
  · obtain ⟨t, ht, h2⟩ := bind_eq_clean.1 h1
    obtain ⟨t', -, h3⟩ := bind_eq_clean.1 h2
    obtain ⟨w, -, h4⟩ := bind_eq_clean.1 h3
    obtain ⟨f, hf, h5⟩ := bind_eq_clean.1 h4
    simp only [pure_eq_ok, and_true] at h5
    subst h5
    rw [Fraction.assignR, if_pos rfl] at hf
    exact Fraction.arith_canon hn (a := .fr m.frac t) ⟨hm.1, div_inRange ht⟩ hf
  · simp only [pure_eq_ok, and_true] at h1
    subst h1; exact hm

theorem Mixed.fixSigns_canon (hn : o.NormalizesOutput) (hm : m.Canon F)
    (h : m.fixSigns W F o ⇓ m') : m'.Canon F := by
  have h1 : F.InRange 1 := by
    have := F.max_ge; have := F.min_le_zero; constructor <;> omega
  unfold Mixed.fixSigns at h
  split_ifs at h
  · obtain ⟨w, -, h2⟩ := bind_eq_clean.1 h
    obtain ⟨f, hf, h5⟩ := bind_eq_clean.1 h2
    simp only [pure_eq_ok, and_true] at h5
    subst h5
    exact Fraction.arith_canon hn (a := .rf 1 m.frac) ⟨h1, hm.1⟩ hf
  · obtain ⟨w, -, h2⟩ := bind_eq_clean.1 h
    obtain ⟨n, hn', h3⟩ := bind_eq_clean.1 h2
    obtain ⟨f, hf, h5⟩ := bind_eq_clean.1 h3
    simp only [pure_eq_ok, and_true] at h5
    subst h5
    obtain ⟨hr, rfl⟩ := neg_clean.1 hn'
    exact Fraction.arith_canon hn (a := .rf _ m.frac) ⟨hr, hm.1⟩ hf
  · simp only [pure_eq_ok, and_true] at h
    subst h; exact hm

theorem Mixed.mk_canon {w : ℤ} {f : Raw} (hn : o.NormalizesOutput) (hf : f.InRange F)
    (hc : CanonicalOrZero f) (h : Mixed.mk' W F o w f ⇓ m) : m.Canon F := by
  obtain ⟨m1, h1, h2⟩ := bind_eq_clean.1 h
  exact Mixed.fixSigns_canon hn (Mixed.fixImproper_canon hn ⟨hf, hc⟩ h1) h2

theorem Mixed.ofFraction_canon {S : IntTy} {f : Raw} (hn : o.NormalizesOutput) (hf : f.InRange S)
    (h : Mixed.ofFraction W F o S f ⇓ m) : m.Canon F := by
  obtain ⟨t, ht, h1⟩ := bind_eq_clean.1 h
  obtain ⟨w, hw, h2⟩ := bind_eq_clean.1 h1
  obtain ⟨w', hw', h3⟩ := bind_eq_clean.1 h2
  obtain ⟨d, hd', h4⟩ := bind_eq_clean.1 h3
  obtain ⟨g, hg, h5⟩ := bind_eq_clean.1 h4
  simp only [pure_eq_ok, and_true] at h5
  subst h5
  obtain ⟨hr, rfl⟩ := conv_clean.1 hw'
  obtain ⟨hr', rfl⟩ := Raw.conv_clean.1 hg
  exact ⟨hr', (Fraction.arith_canon hn (a := .fr f _) ⟨hf, hr⟩ hd').2⟩

theorem Mixed.add_canon {W₁ F₁ W₂ F₂ : IntTy} {l r : Mixed} (hn : o.NormalizesOutput)
    (h : Mixed.add W₁ F₁ W₂ F₂ o l r ⇓ m) : m.Canon (IntTy.common F₁ F₂) := by
  obtain ⟨lw, hlw, h1⟩ := bind_eq_clean.1 h
  obtain ⟨rw', hrw, h2⟩ := bind_eq_clean.1 h1
  obtain ⟨w, hw, h3⟩ := bind_eq_clean.1 h2
  obtain ⟨lf, hlf, h4⟩ := bind_eq_clean.1 h3
  obtain ⟨rf, hrf, h5⟩ := bind_eq_clean.1 h4
  obtain ⟨f, hf, h6⟩ := bind_eq_clean.1 h5
  obtain ⟨k1, rfl⟩ := Raw.conv_clean.1 hlf
  obtain ⟨k2, rfl⟩ := Raw.conv_clean.1 hrf
  obtain ⟨k3, k4⟩ := Fraction.arith_canon hn (a := .ff _ _) ⟨k1, k2⟩ hf
  exact Mixed.mk_canon hn k3 k4 h6

/-- Under an output-normalising policy every clean result has a canonical fractional part. -/
theorem MExpr.eval_canon {e : MExpr} (hn : o.NormalizesOutput) (hl : e.CanonicalLeaves)
    (h : e.eval o ⇓ m) : m.Canon e.ty.2 := by
  induction e generalizing m with
  | dflt W F =>
    simp only [MExpr.eval, pure_eq_ok, and_true] at h
    subst h
    have := F.max_ge; have := F.min_le_zero
    refine ⟨?_, .inl ⟨by decide, by decide⟩⟩
    simp only [MExpr.ty, Raw.InRange, IntTy.InRange, Mixed.default, Fraction.default]; omega
  | mk W F w f => exact Mixed.mk_canon hn hl.2.1 (.inl hl.2.2) h
  | ofFraction W F S f => exact Mixed.ofFraction_canon hn hl h
  | pos e ih =>
    obtain ⟨a, ha, h⟩ := bind_eq_clean.1 h
    simp only [pure_eq_ok, and_true] at h
    subst h; exact ih hl ha
  | neg e ih =>
    obtain ⟨a, ha, h⟩ := bind_eq_clean.1 h
    obtain ⟨w, hw, h1⟩ := bind_eq_clean.1 h
    obtain ⟨f, hf, h2⟩ := bind_eq_clean.1 h1
    have hr := (ih hl ha).1
    exact Mixed.mk_canon hn (Ops.negate_inRange hr hf) (Ops.negate_canonical hn hr hf) h2
  | add l r ihl ihr =>
    obtain ⟨a, ha, h⟩ := bind_eq_clean.1 h
    obtain ⟨b, hb, h⟩ := bind_eq_clean.1 h
    exact Mixed.add_canon hn h
  | addFraction e S f ih =>
    obtain ⟨a, ha, h⟩ := bind_eq_clean.1 h
    obtain ⟨b, hb, h⟩ := bind_eq_clean.1 h
    exact Mixed.add_canon hn h
  | addWhole e S n ih =>
    obtain ⟨a, ha, h⟩ := bind_eq_clean.1 h
    obtain ⟨lw, hlw, h1⟩ := bind_eq_clean.1 h
    obtain ⟨rw', hrw, h2⟩ := bind_eq_clean.1 h1
    obtain ⟨w, hw, h3⟩ := bind_eq_clean.1 h2
    obtain ⟨k1, k2⟩ := ih hl ha
    exact Mixed.mk_canon hn k1 k2 h3

theorem MExpr.CanonicalLeaves.wellTyped {e : MExpr} (h : e.CanonicalLeaves) : e.WellTyped := by
  induction e with
  | dflt W F => trivial
  | mk W F w f => exact h.1
  | ofFraction W F S f => trivial
  | pos e ih => exact ih h
  | neg e ih => exact ih h
  | add l r ihl ihr => exact ⟨ihl h.1, ihr h.2⟩
  | addFraction e S f ih => exact ih h.1
  | addWhole e S n ih => exact ih h

end Ieme

namespace Ieme

open Res IntTy

variable {T : IntTy} {o : Ops} {f g : Raw} {z : ℕ} {h hw hf : ℤ → BitVec z}

theorem combine_right_cancel {a x y : BitVec z} (e : Hash.combine a x = Hash.combine a y) :
    x <<< 1 = y <<< 1 := (BitVec.xor_right_inj a).1 e

theorem stdHash_eq_iff {x y : ℤ} : Hash.stdHash z x = Hash.stdHash z y ↔ (2 : ℤ) ^ z ∣ x - y := by
  have hp : ((2 ^ z : ℕ) : ℤ) ≠ 0 := by positivity
  rw [← BitVec.toNat_inj]
  simp only [Hash.stdHash, BitVec.toNat_ofInt]
  rw [← Int.natCast_inj, Int.toNat_of_nonneg (Int.emod_nonneg _ hp),
    Int.toNat_of_nonneg (Int.emod_nonneg _ hp), Int.emod_eq_emod_iff_emod_sub_eq_zero,
    ← Int.dvd_iff_emod_eq_zero]
  push_cast
  rfl

theorem stdHash_shift (x : ℤ) : Hash.stdHash z x <<< 1 = Hash.stdHash z (2 * x) := by
  rw [Hash.stdHash, Hash.stdHash, BitVec.ofInt_mul, BitVec.shiftLeft_eq_mul_twoPow, BitVec.mul_comm]
  congr 1
  apply BitVec.eq_of_toNat_eq
  simp [BitVec.toNat_twoPow]

theorem stdHash_shift_eq_iff {x y : ℤ} : Hash.stdHash (z + 1) x <<< 1 = Hash.stdHash (z + 1) y <<< 1 ↔
    (2 : ℤ) ^ z ∣ x - y := by
  rw [stdHash_shift, stdHash_shift, stdHash_eq_iff, ← mul_sub, pow_succ',
    mul_dvd_mul_iff_left two_ne_zero]

/-- A narrower `std::size_t` keeps the low bits. -/
theorem stdHash_low (z : ℕ) (x : ℤ) {n : ℕ} (h : n ≤ z) :
    (Hash.stdHash z x).setWidth n = Hash.stdHash n x := by
  apply BitVec.eq_of_toNat_eq
  have := Nat.pow_dvd_pow 2 h
  rw [BitVec.toNat_setWidth]
  simp only [Hash.stdHash, BitVec.toNat_ofInt]
  zify
  rw [Int.toNat_of_nonneg (Int.emod_nonneg _ (by positivity)),
    Int.toNat_of_nonneg (Int.emod_nonneg _ (by positivity))]
  exact Int.emod_emod_of_dvd _ (by exact_mod_cast this)

theorem fraction_low {z : ℕ} (f : Raw) {n : ℕ} (h : n ≤ z) :
    (Hash.fraction (Hash.stdHash z) f).setWidth n = Hash.fraction (Hash.stdHash n) f := by
  simp only [Hash.fraction, Hash.combine, stdHash_shift, BitVec.setWidth_xor, stdHash_low z _ h]

/-- A small difference is no multiple. -/
theorem eq_of_pow_dvd {x y : ℤ} (h : (2 : ℤ) ^ z ∣ x - y) (hb : |x - y| < 2 ^ z) : x = y :=
  sub_eq_zero.1 (Int.eq_zero_of_abs_lt_dvd h hb)

theorem IntTy.abs_sub_lt {x y : ℤ} (hx : T.InRange x) (hy : T.InRange y) :
    |x - y| < 2 ^ T.bits := by
  obtain ⟨h1, h2⟩ := hx
  obtain ⟨h3, h4⟩ := hy
  have hw := T.wide
  obtain ⟨n, hn⟩ : ∃ n, T.bits = n + 1 := ⟨T.bits - 1, by omega⟩
  have hp : 0 < 2 ^ n := Nat.pow_pos (by decide)
  rw [IntTy.min] at h1 h3
  rw [IntTy.max] at h2 h4
  rw [hn, Nat.add_sub_cancel] at h1 h2 h3 h4
  have e : (2 : ℤ) ^ T.bits = ((2 ^ n : ℕ) : ℤ) * 2 := by rw [hn, pow_succ]; push_cast; ring
  rw [e, abs_lt]
  rw [pow_succ] at h2 h4
  generalize 2 ^ n = m at *
  split at h1
  · rw [if_pos ‹_›] at *; omega
  · rw [if_neg ‹_›] at *; omega
end Ieme
