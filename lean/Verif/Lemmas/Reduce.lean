import Verif.Lemmas.Fraction
import Mathlib.Data.Rat.Lemmas

/-!
# Uniqueness and idempotence of `reduce`; sign facts
-/

namespace Ieme

open Res IntTy

variable {T : IntTy} {f g r s : Raw}

theorem Canonical.unique (hr : Canonical r) (hs : Canonical s) (h : SameValue r s) : r = s := by
  obtain ⟨q, h1, h2⟩ := h
  have := Rat.div_int_inj hr.1 hs.1 hr.2 hs.2 (h1.2.trans h2.2.symm)
  cases r; cases s; simp_all

theorem Raw.mul_unit {a b g : ℤ} (h : Int.gcd (a * g) (b * g) = 1) : g = 1 ∨ g = -1 := by
  rw [Int.gcd_mul_right] at h
  have := Nat.eq_one_of_mul_eq_one_left h
  omega

/-- Reducing a reduced fraction changes nothing. -/
theorem Raw.reduce_reduce {mode : ReduceMode} (h : f.reduce T mode ⇓ r) :
    r.reduce T mode ⇓ r := by
  by_cases h0 : f.den = 0
  · rw [Raw.reduce_clean_undefined h0 h]
    exact Raw.reduce_undefined mode rfl
  have hle := Raw.reduce_natAbs_le h
  have hir := Raw.reduce_inRange h
  have hpre : T.InRange f.num.natAbs ∧ T.InRange f.den.natAbs := by
    have key : ∀ {s w}, f.reduceIgnoreSigns T = .ok s w →
        T.InRange f.num.natAbs ∧ T.InRange f.den.natAbs := by
      intro s w hs
      obtain ⟨h1, h2, -⟩ := (Raw.reduceIgnoreSigns_eq_ok h0).1 hs
      exact ⟨h1, h2⟩
    cases mode
    · simp only [Raw.reduce, Raw.reduceNormalizeSigns, bind_eq_clean] at h
      obtain ⟨s, hs, -⟩ := h; exact key hs
    · exact key h
  have hr0 := Raw.reduce_clean_defined h0 h
  obtain ⟨s, hs, -⟩ := Raw.reduce_progress mode hir (inRange_natAbs_shrink hpre.1 hle.1)
    (inRange_natAbs_shrink hpre.2 hle.2)
  obtain ⟨g, hg, -, hd, hc, h1, h2⟩ := Raw.reduce_clean_spec h0 h
  obtain ⟨k, hk, hkn, hkd, hc', h3, h4⟩ := Raw.reduce_clean_spec hr0 hs
  rw [hs]
  have hk1 : k = 1 := by
    rw [hkn, hkd] at hc
    rcases Raw.mul_unit hc with hu | hu
    · exact hu
    · exfalso
      cases mode
      · have := h2 rfl; have := h4 rfl; rw [hu] at hkd; omega
      · have := h3 rfl; omega
  rw [hk1, mul_one] at hkn hkd
  cases r; cases s; simp_all

theorem Raw.reduce_gcd_one {mode : ReduceMode} (h0 : f.den ≠ 0) (h : f.reduce T mode ⇓ r) :
    Int.gcd r.num r.den = 1 := by
  obtain ⟨g, hg, -, hd, hc, h1, h2⟩ := Raw.reduce_clean_spec h0 h
  exact hc

/-- `reduce_ignore_signs` fixes exactly the coprime pairs. -/
theorem Raw.reduceIgnoreSigns_fixed (h0 : f.den ≠ 0) (hf : f.InRange T) :
    f.reduceIgnoreSigns T ⇓ f ↔
      T.InRange f.num.natAbs ∧ T.InRange f.den.natAbs ∧ Int.gcd f.num f.den = 1 := by
  rw [Raw.reduceIgnoreSigns_eq_ok h0]
  constructor
  · rintro ⟨h1, h2, -, -, -, g, -, -, -, hc⟩; exact ⟨h1, h2, hc⟩
  · rintro ⟨h1, h2, hc⟩
    exact ⟨h1, h2, hf.1, hf.2, rfl, 1, by decide, by simp, by simp, hc⟩

theorem Raw.isReducedIgnoreSigns_ok {b w : Bool} (h : f.isReducedIgnoreSigns T = .ok b w) :
    w = false ∧ (b = true ↔ f.den ≠ 0 ∧ T.InRange f.num.natAbs ∧ T.InRange f.den.natAbs ∧
      Int.gcd f.num f.den = 1) := by
  unfold Raw.isReducedIgnoreSigns at h
  split at h
  · rename_i hd
    simp only [Raw.isDefined_iff] at hd
    simp only [bind_eq_ok, gcd_eq_ok, pure_eq_ok] at h
    obtain ⟨g, _, _, ⟨h1, h2, rfl, rfl⟩, ⟨rfl, rfl⟩, rfl⟩ := h
    exact ⟨rfl, by simp only [beq_iff_eq, Nat.cast_eq_one]; exact ⟨fun h => ⟨hd, h1, h2, h⟩, fun h => h.2.2.2⟩⟩
  · rename_i hd
    simp only [Raw.isDefined_iff, not_not] at hd
    simp only [pure_eq_ok] at h
    simp [← h.1, h.2, hd]

theorem mathAbs_eq_ok {v r : ℤ} {w : Bool} (hv : T.InRange v) : mathAbs T v = .ok r w ↔
    T.InRange |v| ∧ r = |v| ∧ w = false := by
  unfold mathAbs
  split
  · rename_i h
    rw [abs_of_nonneg h, pure_eq_ok]
    simp [hv, eq_comm]
  · rename_i h
    rw [abs_of_neg (by omega)]
    rw [IntTy.neg, arith_eq_ok]
    constructor
    · rintro (⟨h1, rfl, rfl⟩ | ⟨-, h2, -⟩)
      · exact ⟨h1, rfl, rfl⟩
      · have := hv.nonneg h2; omega
    · rintro ⟨h1, rfl, rfl⟩; exact .inl ⟨h1, rfl, rfl⟩

theorem denotes_pos_iff {q : ℚ} (h : Denotes f q) : 0 < q ↔ 0 < f.num * f.den := by
  have hd : (f.den : ℚ) ≠ 0 := by exact_mod_cast h.1
  have : (f.num : ℚ) = q * f.den := (denotes_iff_mul.1 h).2
  have hh : ((f.num * f.den : ℤ) : ℚ) = q * (f.den * f.den) := by push_cast; rw [this]; ring
  have hp : (0 : ℚ) < f.den * f.den := mul_self_pos.2 hd
  rw [← Int.cast_pos (R := ℚ), hh]
  constructor
  · intro h; positivity
  · intro h; by_contra hn; nlinarith

theorem denotes_neg_iff {q : ℚ} (h : Denotes f q) : q < 0 ↔ f.num * f.den < 0 := by
  have h' : Denotes ⟨-f.num, f.den⟩ (-q) := ⟨h.1, by
    have := h.2; push_cast; rw [neg_div, this]⟩
  have := denotes_pos_iff h'
  simp only [neg_mul, Left.neg_pos_iff] at this
  exact this

theorem denotes_zero_iff {q : ℚ} (h : Denotes f q) : q = 0 ↔ f.num = 0 := by
  have hd : (f.den : ℚ) ≠ 0 := by exact_mod_cast h.1
  rw [← h.2, div_eq_zero_iff]
  simp [h.1]

end Ieme
