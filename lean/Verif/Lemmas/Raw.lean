import Verif.Lemmas.Machine
import Verif.Spec.Rational
import Mathlib.Tactic.FieldSimp

/-!
# Facts about `reduce`, `normalize_signs` and denotation
-/

namespace Ieme

open Res IntTy

theorem Denotes.unique {f : Raw} {x y : ℚ} (hx : Denotes f x) (hy : Denotes f y) : x = y :=
  hx.2.symm.trans hy.2

theorem denotes_self {f : Raw} (h : f.den ≠ 0) : Denotes f ((f.num : ℚ) / f.den) := ⟨h, rfl⟩

theorem denotes_iff_mul {f : Raw} {q : ℚ} :
    Denotes f q ↔ f.den ≠ 0 ∧ (f.num : ℚ) = q * f.den := by
  unfold Denotes
  refine and_congr_right fun h => ?_
  have : (f.den : ℚ) ≠ 0 := by exact_mod_cast h
  rw [div_eq_iff this]

theorem denotes_scale {f r : Raw} {g : ℤ} (hg : g ≠ 0) (hn : f.num = r.num * g)
    (hd : f.den = r.den * g) {q : ℚ} : Denotes f q ↔ Denotes r q := by
  have hg' : (g : ℚ) ≠ 0 := by exact_mod_cast hg
  unfold Denotes
  rw [hn, hd]
  push_cast
  rw [mul_div_mul_right _ _ hg']
  simp [hg]

namespace Raw

variable {T : IntTy} {f r : Raw} {w : Bool}

@[simp] theorem isDefined_iff : f.isDefined = true ↔ f.den ≠ 0 := by simp [isDefined]
@[simp] theorem isUndefined_iff : f.isUndefined = true ↔ f.den = 0 := by
  simp [isUndefined, isDefined]
@[simp] theorem isDefined_eq_false : f.isDefined = false ↔ f.den = 0 := by
  simp [isDefined]

theorem gcd_split (f : Raw) (h : f.den ≠ 0) : ∃ (g a b : ℤ), 0 < g ∧ (Int.gcd f.num f.den : ℤ) = g ∧
    f.num = a * g ∧ f.den = b * g ∧ Int.gcd a b = 1 := by
  have hg : 0 < Int.gcd f.num f.den := Int.gcd_pos_of_ne_zero_right _ h
  obtain ⟨a, ha⟩ := Int.gcd_dvd_left f.num f.den
  obtain ⟨b, hb⟩ := Int.gcd_dvd_right f.num f.den
  refine ⟨Int.gcd f.num f.den, a, b, by exact_mod_cast hg, rfl, by rw [mul_comm]; exact ha,
    by rw [mul_comm]; exact hb, ?_⟩
  have h1 := Int.gcd_mul_left (Int.gcd f.num f.den) a b
  rw [← ha, ← hb] at h1
  simp only [Int.natAbs_natCast] at h1
  have h2 : Int.gcd f.num f.den * Int.gcd a b = Int.gcd f.num f.den * 1 := by omega
  exact Nat.eq_of_mul_eq_mul_left hg h2

/-- Complete description of `reduce_ignore_signs` on a defined fraction. -/
theorem reduceIgnoreSigns_eq_ok (h : f.den ≠ 0) : f.reduceIgnoreSigns T = .ok r w ↔
    T.InRange f.num.natAbs ∧ T.InRange f.den.natAbs ∧ T.InRange r.num ∧ T.InRange r.den ∧
    w = false ∧ ∃ g : ℤ, 0 < g ∧ f.num = r.num * g ∧ f.den = r.den * g ∧
      Int.gcd r.num r.den = 1 := by
  obtain ⟨g, a, b, hg, hgcd, hn, hd, hab⟩ := gcd_split f h
  have hta : f.num.tdiv g = a := by rw [hn]; exact Int.mul_tdiv_cancel _ (by omega)
  have htb : f.den.tdiv g = b := by rw [hd]; exact Int.mul_tdiv_cancel _ (by omega)
  unfold reduceIgnoreSigns
  have : f.isUndefined = false := by simp [isUndefined, h]
  simp only [this, Bool.false_eq_true, if_false, bind_eq_ok, gcd_eq_ok, div_eq_ok, pure_eq_ok,
    hgcd]
  constructor
  · rintro ⟨g', w1, w2, ⟨h1, h2, hgg, rfl⟩, ⟨n', w3, w4, ⟨-, h3, rfl, rfl⟩, ⟨d', w5, w6,
      ⟨-, h4, rfl, rfl⟩, ⟨rfl, rfl⟩, rfl⟩, rfl⟩, rfl⟩
    subst hgg
    rw [hta] at h3; rw [htb] at h4
    simp only [hta, htb]
    exact ⟨h1, h2, h3, h4, rfl, _, hg, hn, hd, hab⟩
  · rintro ⟨h1, h2, h3, h4, rfl, k, hk, hkn, hkd, hcop⟩
    have hkg : k = g := by
      have h5 := Int.gcd_mul_right r.num k r.den
      rw [← hkn, ← hkd, hcop] at h5
      rw [← hgcd, h5]; omega
    subst hkg
    have e1 : r.num = a := by
      have : r.num * k = a * k := by rw [← hkn, hn]
      exact Int.eq_of_mul_eq_mul_right (by omega) this
    have e2 : r.den = b := by
      have : r.den * k = b * k := by rw [← hkd, hd]
      exact Int.eq_of_mul_eq_mul_right (by omega) this
    rw [e1] at h3; rw [e2] at h4
    refine ⟨k, false, false, ⟨h1, h2, rfl, rfl⟩, ⟨a, false, false,
      ⟨by omega, by rw [hta]; exact h3, hta.symm, rfl⟩, ⟨b, false, false,
      ⟨by omega, by rw [htb]; exact h4, htb.symm, rfl⟩, ⟨?_, rfl⟩, rfl⟩, rfl⟩, rfl⟩
    cases r; simp_all

theorem reduceIgnoreSigns_undefined (h : f.den = 0) : f.reduceIgnoreSigns T ⇓ ⟨0, 0⟩ := by
  simp [reduceIgnoreSigns, isUndefined, isDefined, h, pure_def]

theorem normalizeSigns_pos (h : 0 < f.den) : f.normalizeSigns T ⇓ f := by
  simp [normalizeSigns, h, pure_def]

theorem normalizeSigns_clean_nonpos (h : f.den ≤ 0) : f.normalizeSigns T ⇓ r ↔
    T.InRange (-f.num) ∧ T.InRange (-f.den) ∧ r = ⟨-f.num, -f.den⟩ := by
  unfold normalizeSigns
  rw [if_neg (by omega)]
  simp only [bind_eq_clean, neg_clean, pure_eq_ok]
  constructor
  · rintro ⟨n, ⟨h1, rfl⟩, d, ⟨h2, rfl⟩, rfl, -⟩; exact ⟨h1, h2, rfl⟩
  · rintro ⟨h1, h2, rfl⟩; exact ⟨_, ⟨h1, rfl⟩, _, ⟨h2, rfl⟩, rfl, trivial⟩

theorem reduce_undefined (mode : ReduceMode) (h : f.den = 0) : f.reduce T mode ⇓ ⟨0, 0⟩ := by
  cases mode
  · simp only [reduce, reduceNormalizeSigns, reduceIgnoreSigns_undefined h, ok_bind_false]
    rw [normalizeSigns_clean_nonpos (by simp)]
    simp
  · exact reduceIgnoreSigns_undefined h

/-- What a clean `reduce` of a defined fraction returns. -/
theorem reduce_clean_spec {mode : ReduceMode} (h : f.den ≠ 0) (hr : f.reduce T mode ⇓ r) :
    ∃ g : ℤ, g ≠ 0 ∧ f.num = r.num * g ∧ f.den = r.den * g ∧ Int.gcd r.num r.den = 1 ∧
      (mode = .ignoreSigns → 0 < g) ∧ (mode = .normalizeSigns → 0 < r.den) := by
  cases mode
  · simp only [reduce, reduceNormalizeSigns, bind_eq_clean] at hr
    obtain ⟨s, hs, hr⟩ := hr
    obtain ⟨-, -, -, -, -, g, hg, hn, hd, hc⟩ := (reduceIgnoreSigns_eq_ok h).1 hs
    have hsd : s.den ≠ 0 := by rintro e; rw [e] at hd; simp at hd; exact h hd
    by_cases hp : 0 < s.den
    · rw [normalizeSigns_pos hp] at hr
      simp only [Res.ok.injEq, and_true] at hr
      subst hr
      exact ⟨g, by omega, hn, hd, hc, by simp, fun _ => hp⟩
    · obtain ⟨-, -, rfl⟩ := (normalizeSigns_clean_nonpos (by omega)).1 hr
      refine ⟨-g, by omega, by simp [hn], by simp [hd], by simp [hc], by simp, fun _ => ?_⟩
      simp only; omega
  · obtain ⟨-, -, -, -, -, g, hg, hn, hd, hc⟩ := (reduceIgnoreSigns_eq_ok h).1 hr
    exact ⟨g, by omega, hn, hd, hc, fun _ => hg, by simp⟩

theorem reduce_clean_defined {mode : ReduceMode} (h : f.den ≠ 0) (hr : f.reduce T mode ⇓ r) :
    r.den ≠ 0 := by
  obtain ⟨g, hg, -, hd, -⟩ := reduce_clean_spec h hr
  intro e; rw [e] at hd; simp at hd; exact h hd

theorem reduce_denotes {mode : ReduceMode} {q : ℚ} (h : Denotes f q) (hr : f.reduce T mode ⇓ r) :
    Denotes r q := by
  obtain ⟨g, hg, hn, hd, -⟩ := reduce_clean_spec h.1 hr
  exact (denotes_scale hg hn hd).1 h

theorem reduce_clean_undefined {mode : ReduceMode} (h : f.den = 0) (hr : f.reduce T mode ⇓ r) :
    r = ⟨0, 0⟩ := by
  rw [reduce_undefined mode h] at hr
  simpa using hr.symm

theorem reduce_denotes_iff {mode : ReduceMode} {q : ℚ} (hr : f.reduce T mode ⇓ r) :
    Denotes r q ↔ Denotes f q := by
  by_cases h : f.den = 0
  · rw [reduce_clean_undefined h hr]
    simp [Denotes, h]
  · obtain ⟨g, hg, hn, hd, -⟩ := reduce_clean_spec h hr
    exact (denotes_scale hg hn hd).symm

theorem reduce_den_eq_zero {mode : ReduceMode} (hr : f.reduce T mode ⇓ r) :
    r.den = 0 ↔ f.den = 0 := by
  constructor
  · intro h; by_contra h'; exact reduce_clean_defined h' hr h
  · intro h; rw [reduce_clean_undefined h hr]

theorem reduce_posDen {mode : ReduceMode} (h : 0 < f.den) (hr : f.reduce T mode ⇓ r) :
    0 < r.den := by
  obtain ⟨g, hg, hn, hd, -, h1, h2⟩ := reduce_clean_spec (by omega) hr
  cases mode
  · exact h2 rfl
  · have := h1 rfl
    rw [hd] at h
    by_contra hc; nlinarith

theorem reduce_canonical (h : f.den ≠ 0) (hr : f.reduce T .normalizeSigns ⇓ r) :
    Canonical r := by
  obtain ⟨g, hg, hn, hd, hc, h1, h2⟩ := reduce_clean_spec h hr
  exact ⟨h2 rfl, hc⟩

theorem natAbs_le_of_mul {a b g : ℤ} (hg : g ≠ 0) (h : a = b * g) : b.natAbs ≤ a.natAbs := by
  rw [h, Int.natAbs_mul]
  exact Nat.le_mul_of_pos_right _ (Int.natAbs_pos.2 hg)

theorem reduce_natAbs_le {mode : ReduceMode} (hr : f.reduce T mode ⇓ r) :
    r.num.natAbs ≤ f.num.natAbs ∧ r.den.natAbs ≤ f.den.natAbs := by
  by_cases h : f.den = 0
  · rw [reduce_clean_undefined h hr]; simp
  · obtain ⟨g, hg, hn, hd, -⟩ := reduce_clean_spec h hr
    exact ⟨natAbs_le_of_mul hg hn, natAbs_le_of_mul hg hd⟩

/-- `reduce` succeeds on every in-range fraction whose parts have a representable
absolute value. -/
theorem reduce_progress (mode : ReduceMode) (hf : f.InRange T) (hn : T.InRange f.num.natAbs)
    (hd : T.InRange f.den.natAbs) : ∃ r, f.reduce T mode ⇓ r ∧ r.InRange T := by
  by_cases h : f.den = 0
  · exact ⟨_, reduce_undefined mode h, by simp [InRange]⟩
  obtain ⟨g, a, b, hg, -, ha, hb, hc⟩ := gcd_split f h
  have ra : T.InRange a := by
    refine hf.1.shrink ?_
    rw [ha]
    by_cases h0 : 0 ≤ a
    · left; exact ⟨h0, by nlinarith⟩
    · right; exact ⟨by nlinarith, by omega⟩
  have rb : T.InRange b := by
    refine hf.2.shrink ?_
    rw [hb]
    by_cases h0 : 0 ≤ b
    · left; exact ⟨h0, by nlinarith⟩
    · right; exact ⟨by nlinarith, by omega⟩
  have h1 : f.reduceIgnoreSigns T ⇓ ⟨a, b⟩ :=
    (reduceIgnoreSigns_eq_ok h).2 ⟨hn, hd, ra, rb, rfl, g, hg, ha, hb, hc⟩
  cases mode
  · simp only [reduce, reduceNormalizeSigns, h1, ok_bind_false]
    by_cases hp : 0 < b
    · exact ⟨_, normalizeSigns_pos hp, ra, rb⟩
    · cases hs : T.signed
      · have := rb.nonneg hs
        exfalso
        have hb0 : b = 0 := by omega
        rw [hb0] at hb; simp at hb; exact h hb
      · have ra' : T.InRange (-a) := inRange_of_natAbs_le hs hn
          (by rw [Int.natAbs_neg]; exact natAbs_le_of_mul (by omega) ha)
        have rb' : T.InRange (-b) := inRange_of_natAbs_le hs hd
          (by rw [Int.natAbs_neg]; exact natAbs_le_of_mul (by omega) hb)
        exact ⟨_, (normalizeSigns_clean_nonpos (by simpa using hp)).2 ⟨ra', rb', rfl⟩, ra', rb'⟩
  · exact ⟨_, h1, ra, rb⟩

theorem reduceIgnoreSigns_noWrap : (f.reduceIgnoreSigns T).NoWrap := by
  unfold reduceIgnoreSigns
  split
  · exact NoWrap.pure _
  · exact (gcd_noWrap _ _).bind fun _ => (div_noWrap _ _).bind fun _ =>
      (div_noWrap _ _).bind fun _ => NoWrap.pure _

theorem normalizeSigns_noWrap (hs : T.signed = true) : (f.normalizeSigns T).NoWrap := by
  unfold normalizeSigns
  split
  · exact NoWrap.pure _
  · exact (arith_noWrap hs _).bind fun _ => (arith_noWrap hs _).bind fun _ => NoWrap.pure _

theorem reduce_noWrap (hs : T.signed = true) (mode : ReduceMode) : (f.reduce T mode).NoWrap := by
  cases mode
  · exact reduceIgnoreSigns_noWrap.bind fun _ => normalizeSigns_noWrap hs
  · exact reduceIgnoreSigns_noWrap

/-- Any finished `reduce` returns in-range parts. -/
theorem reduce_inRange {mode : ReduceMode} (hr : f.reduce T mode = .ok r w) : r.InRange T := by
  have key : ∀ {r w}, f.reduceIgnoreSigns T = .ok r w → r.InRange T := by
    intro r w hr
    by_cases h : f.den = 0
    · rw [reduceIgnoreSigns_undefined h] at hr
      simp only [Res.ok.injEq] at hr
      rw [← hr.1]; simp [InRange]
    · obtain ⟨-, -, h3, h4, -⟩ := (reduceIgnoreSigns_eq_ok h).1 hr
      exact ⟨h3, h4⟩
  cases mode
  · simp only [reduce, reduceNormalizeSigns, bind_eq_ok] at hr
    obtain ⟨s, w1, w2, hs, hr, -⟩ := hr
    unfold normalizeSigns at hr
    split at hr
    · simp only [pure_eq_ok] at hr
      rw [← hr.1]; exact key hs
    · simp only [bind_eq_ok, pure_eq_ok] at hr
      obtain ⟨a, _, _, ha, ⟨b, _, _, hb, ⟨rfl, -⟩, -⟩, -⟩ := hr
      exact ⟨arith_inRange ha, arith_inRange hb⟩
  · exact key hr

end Raw
end Ieme
