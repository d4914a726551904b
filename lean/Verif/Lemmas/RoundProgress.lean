import Verif.Lemmas.MixedProgress
import Verif.Props.Rounding

/-!
# When `round` and the redenominations finish
-/

namespace Ieme

open Res IntTy

variable {T : IntTy} {o : Ops} {f r : Raw} {x : ℚ} {n d : ℤ} {K : ℕ}

theorem Raw.AbsLe.fit (hs : T.signed = true) (h : f.AbsLe K) : f.Fit T K :=
  ⟨⟨h.1, by simp [hs]⟩, ⟨h.2, by simp [hs]⟩⟩

theorem natAbs_inRange_iff {x : ℤ} (hx : T.InRange x) :
    T.InRange x.natAbs ↔ (T.signed = true → x ≠ T.min) := by
  have h1 := hx.1
  have h2 := hx.2
  have h3 := T.min_le_zero
  cases hs : T.signed
  · have := hx.nonneg hs
    rw [Int.natAbs_of_nonneg this]; simp [hx]
  · have := min_signed hs
    have h127 := T.max_ge
    simp only [forall_const]
    constructor
    · rintro ⟨-, h4⟩; omega
    · intro h4; constructor <;> omega

theorem lcm_le_natAbs_mul (a b : ℤ) : Int.lcm a b ≤ a.natAbs * b.natAbs := by
  rcases Nat.eq_zero_or_pos (a.natAbs * b.natAbs) with h | h
  · rcases Nat.mul_eq_zero.1 h with h | h <;> simp [Int.natAbs_eq_zero.1 h]
  · exact Nat.le_of_dvd h (Nat.lcm_dvd (Nat.dvd_mul_right _ _) (Nat.dvd_mul_left _ _))

/-- Comparing with one half finishes when twice the parts fit. -/
theorem Ops.less_half_progress (hs : T.signed = true) (hK : ((2 * K : ℕ) : ℤ) ≤ T.max)
    (hf : f.AbsLe K) (hd : f.den ≠ 0) {g : Raw} (hg : g.AbsLe 2) (hg0 : g.den ≠ 0) :
    ∃ b, o.cmp T .less (.ff f g) ⇓ b := by
  have hK' : (K : ℤ) ≤ T.max := by push_cast at hK; omega
  have h2 : ((2 : ℕ) : ℤ) ≤ T.max := by have := T.max_ge; omega
  have mulr : ∀ {a b : ℤ}, a.natAbs ≤ K → b.natAbs ≤ 2 → T.InRange (a * b) := fun ha hb =>
    inRange_of_abs hs hK (by rw [Int.natAbs_mul, Nat.mul_comm]; exact Nat.mul_le_mul hb ha)
  have mull : ∀ {a b : ℤ}, a.natAbs ≤ 2 → b.natAbs ≤ K → T.InRange (a * b) := fun ha hb => by
    rw [mul_comm]; exact mulr hb ha
  induction o generalizing f g with
  | safe =>
    obtain ⟨L, k, m, hL, hpos, hk, hm, hdk, hdm, hk0, hm0⟩ := lcm_split hd hg0
    have hLle : L.natAbs ≤ f.den.natAbs * g.den.natAbs := by
      rw [← hL]; simpa using lcm_le_natAbs_mul f.den g.den
    have hkb : k.natAbs ≤ 2 := by
      have h1 : f.den.natAbs * k.natAbs ≤ f.den.natAbs * g.den.natAbs := by
        rw [← Int.natAbs_mul, ← hk]; exact hLle
      exact (Nat.le_of_mul_le_mul_left h1 (by omega)).trans hg.2
    have hmb : m.natAbs ≤ K := by
      have h1 : g.den.natAbs * m.natAbs ≤ g.den.natAbs * f.den.natAbs := by
        rw [← Int.natAbs_mul, ← hm, Nat.mul_comm g.den.natAbs]; exact hLle
      exact (Nat.le_of_mul_le_mul_left h1 (by omega)).trans hf.2
    have hLb : L.natAbs ≤ 2 * K := hLle.trans (by
      rw [Nat.mul_comm]; exact Nat.mul_le_mul hg.2 hf.2)
    have e1 : T.lcm f.den g.den ⇓ L := lcm_clean.2
      ⟨inRange_of_abs hs hK' (by have := hf.2; omega), inRange_of_abs hs h2 (by have := hg.2; omega),
        by rw [hL]; exact inRange_of_abs hs hK hLb, hL.symm⟩
    have e2 : T.div L f.den ⇓ k := by
      rw [div_clean, hdk]; exact ⟨hd, inRange_of_abs hs h2 hkb, rfl⟩
    have e3 : T.div L g.den ⇓ m := by
      rw [div_clean, hdm]; exact ⟨hg0, inRange_of_abs hs hK' hmb, rfl⟩
    have ul : f.isUndefined = false := by simp [Raw.isUndefined, Raw.isDefined, hd]
    have ur : g.isUndefined = false := by simp [Raw.isUndefined, Raw.isDefined, hg0]
    exact ⟨_, by simp only [Ops.cmp, Safe.cmp, Safe.lessFF, ul, ur, Bool.or_false,
      Bool.false_eq_true, if_false, pure_def, ok_bind_false, e1, e2, e3,
      mul_of_inRange (mull hkb hf.1), mul_of_inRange (mulr hmb hg.1)]; rfl⟩
  | fast =>
    exact ⟨_, by simp only [Ops.cmp, Fast.cmp, Fast.lessFF, mul_of_inRange (mulr hf.1 hg.2),
      mul_of_inRange (mull hg.1 hf.2), pure_def, ok_bind_false]; rfl⟩
  | reducedInput o mode ih =>
    obtain ⟨f', hf', ff'⟩ := (hf.fit hs).reduce hK' mode
    obtain ⟨g', hg', fg'⟩ := (hg.fit hs).reduce h2 mode
    obtain ⟨b, hb⟩ := ih ⟨ff'.1.1, ff'.2.1⟩ (Raw.reduce_defined hf' hd) ⟨fg'.1.1, fg'.2.1⟩
      (Raw.reduce_defined hg' hg0)
    exact ⟨b, by simp only [Ops.cmp, Args.reduce, hf', hg', pure_def, ok_bind_false, hb]⟩
  | reducedOutput o mode ih => exact ih hf hd hg hg0

/-- What `floor` returns is at distance at most one from the value. -/
theorem floor_near (hx : Denotes f x) (h : Fraction.floor T f ⇓ n) : |x - n| ≤ 1 := by
  have hn := Fraction.floor_val hx h
  split at hn
  · rename_i hc; rw [hn, abs_le]; push_cast; constructor <;> linarith
  · have h1 := Int.floor_le x
    have h2 := Int.lt_floor_add_one x
    rw [← hn] at h1 h2
    rw [abs_le]; constructor <;> linarith

/-- `round` finishes for a signed type when twice the parts fit. -/
theorem Fraction.round_progress (hs : T.signed = true) (hK : ((2 * K : ℕ) : ℤ) ≤ T.max)
    (hf : f.AbsLe K) (hx : Denotes f x) : ∃ n, Fraction.round T o f ⇓ n := by
  have hK' : (K : ℤ) ≤ T.max := by push_cast at hK; omega
  have hmin := min_signed hs
  have hin : f.InRange T := ⟨inRange_of_abs hs hK' hf.1, inRange_of_abs hs hK' hf.2⟩
  obtain ⟨-, ⟨n, hn⟩, -⟩ := C29_whole_parts_finish hx.1 hin (by
    rintro ⟨h1, -⟩; have := hf.1; omega)
  have hnear := floor_near hx hn
  have hdpos : (0 : ℚ) ≤ f.den.natAbs := by positivity
  have hdK : ((f.den.natAbs : ℕ) : ℚ) ≤ K := by exact_mod_cast hf.2
  have hnK : ((f.num.natAbs : ℕ) : ℚ) ≤ K := by exact_mod_cast hf.1
  have hnum := absLe_num hx
  have hnx : (n.natAbs : ℚ) ≤ |x| + 1 := by
    rw [Nat.cast_natAbs, Int.cast_abs]
    have h1 := abs_sub_abs_le_abs_sub (n : ℚ) x
    rw [abs_sub_comm] at h1
    linarith
  obtain ⟨g, hg, hgd, -⟩ := Ops.shift_progress (o := o) (v := x - n) hs hK
    (f := f) ⟨hf.1.trans (by omega), hf.2.trans (by omega)⟩ hx
    (by
      refine (mul_le_mul_of_nonneg_right hnx hdpos).trans ?_
      rw [add_mul, ← hnum]; push_cast; linarith)
    (by
      refine (mul_le_mul_of_nonneg_right hnear hdpos).trans ?_
      push_cast; linarith)
    (.inl ⟨rfl, rfl, rfl⟩)
  have hgv : Denotes g (x - n) := Ops.arith_exact (a := .fr f n) (op := .minus) ⟨hx, rfl⟩ hg
  have hgK : g.AbsLe K := by
    refine ⟨?_, hgd.trans hf.2⟩
    have h1 := absLe_num hgv
    have h2 : (0 : ℚ) ≤ g.den.natAbs := by positivity
    have h3 : ((g.den.natAbs : ℕ) : ℚ) ≤ f.den.natAbs := by exact_mod_cast hgd
    have h4 : ((g.num.natAbs : ℕ) : ℚ) ≤ K := by
      rw [h1]; exact (mul_le_mul_of_nonneg_right hnear h2).trans (by linarith)
    exact_mod_cast h4
  obtain ⟨b, hb⟩ := Ops.less_half_progress (o := o) hs hK hgK hgv.1 (g := ⟨1, 2⟩)
    ⟨by decide, by decide⟩ (by decide)
  have h1 : T.InRange (n + 1) := by
    have hd1 : 1 ≤ f.den.natAbs := by have := hx.1; omega
    have h2 : ((f.den.natAbs : ℕ) : ℚ) ≥ 1 := by exact_mod_cast hd1
    have h3 : |x| ≤ K := by
      have : |x| * 1 ≤ |x| * f.den.natAbs := mul_le_mul_of_nonneg_left h2 (abs_nonneg _)
      linarith
    have h4 : (n.natAbs : ℚ) ≤ ((K + 1 : ℕ) : ℚ) := by push_cast; linarith
    have h5 : n.natAbs ≤ K + 1 := by exact_mod_cast h4
    have hK1 : 1 ≤ K := hd1.trans hf.2
    have := T.max_ge
    constructor <;> omega
  rw [Fraction.round, hn, ok_bind_false, Fraction.arith_self, hg, ok_bind_false, Fraction.cmp_self]
  rw [show Fraction.mk 1 2 = (⟨1, 2⟩ : Raw) from rfl, hb, ok_bind_false]
  split
  · exact ⟨_, rfl⟩
  · exact ⟨_, add_of_inRange h1⟩

/-- Multiplying by an integer finishes when the products fit. -/
theorem Ops.mul_whole_progress (hs : T.signed = true) (hK : (K : ℤ) ≤ T.max) (hf : f.AbsLe K)
    (h1 : f.num.natAbs * d.natAbs ≤ K) : ∃ p, o.arith T .multiplies (.fr f d) ⇓ p ∧ p.AbsLe K := by
  induction o generalizing f with
  | safe =>
    have hb : (f.num * d).natAbs ≤ K := by rw [Int.natAbs_mul]; exact h1
    exact ⟨⟨f.num * d, f.den⟩, by simp only [Ops.arith, Safe.arith, Safe.multipliesFR,
      mul_of_inRange (inRange_of_abs hs hK hb), ok_bind_false, pure_def], hb, hf.2⟩
  | fast =>
    have hb : (f.num * d).natAbs ≤ K := by rw [Int.natAbs_mul]; exact h1
    exact ⟨⟨f.num * d, f.den⟩, by simp only [Ops.arith, Fast.arith, Fast.multipliesFR,
      mul_of_inRange (inRange_of_abs hs hK hb), ok_bind_false, pure_def], hb, hf.2⟩
  | reducedInput o mode ih =>
    obtain ⟨f', hf', ff'⟩ := (hf.fit hs).reduce hK mode
    have hle := (Raw.reduce_natAbs_le hf').1
    obtain ⟨p, hp, hk⟩ := ih ⟨ff'.1.1, ff'.2.1⟩ ((Nat.mul_le_mul_right _ hle).trans h1)
    exact ⟨p, by simp only [Ops.arith, Args.reduce, hf', pure_def, ok_bind_false, hp], hk⟩
  | reducedOutput o mode ih =>
    obtain ⟨p, hp, hk⟩ := ih hf h1
    obtain ⟨p', hp', fp'⟩ := (hk.fit hs).reduce hK mode
    exact ⟨p', by simp only [Ops.arith, hp, ok_bind_false, hp'], fp'.1.1, fp'.2.1⟩

end Ieme
