import Verif.Spec.Defaults
import Verif.Props.Parts
import Verif.Props.Policies
import Verif.Lemmas.Exact
import Mathlib.Data.Rat.Lemmas

/-!
# The default policy in terms of values
-/

namespace Ieme

open Res IntTy

variable {T : IntTy} {op : ArithOp} {a : Args} {f l r s : Raw} {x y v : ℚ}

theorem Denotes.parts (h : Denotes f v) : ∃ c : ℤ, c ≠ 0 ∧ f.num = v.num * c ∧
    f.den = v.den * c := by
  obtain ⟨c, h1, h2⟩ := Rat.exists_eq_mul_div_num_and_eq_mul_div_den f.num h.1
  rw [h.2] at h1 h2
  refine ⟨c, ?_, by rw [h1]; ring, by rw [h2]; ring⟩
  rintro rfl
  exact h.1 (by rw [h2]; simp)

theorem rat_gcd (v : ℚ) : Int.gcd v.num v.den = 1 := v.reduced

theorem lowest_normalize (h : Denotes f v) : f.lowest .normalizeSigns = ratParts v := by
  obtain ⟨c, h0, h1, h2⟩ := h.parts
  exact (lowest_of_spec (r := ratParts v) h.1 h0 h1 h2 (rat_gcd v) (by simp)
    (fun _ => by simpa [ratParts] using v.den_pos)).symm

/-- The sign of the denominator. -/
theorem lowest_ignore (h : Denotes f v) : ∃ σ : ℤ, (σ = 1 ∨ σ = -1) ∧ 0 < σ * f.den ∧
    f.lowest .ignoreSigns = ⟨σ * v.num, σ * v.den⟩ := by
  obtain ⟨c, h0, h1, h2⟩ := h.parts
  have hv : (0 : ℤ) < v.den := by exact_mod_cast v.den_pos
  rcases lt_or_gt_of_ne h0 with hc | hc
  · refine ⟨-1, Or.inr rfl, by rw [h2]; nlinarith, ?_⟩
    refine (lowest_of_spec (r := ⟨-1 * v.num, -1 * v.den⟩) (g := -c) h.1 (by omega) ?_ ?_ ?_
      (fun _ => by omega) (by simp)).symm
    · simp [h1]
    · simp [h2]
    · simp only [neg_mul, one_mul, Int.neg_gcd, Int.gcd_neg]; exact rat_gcd v
  · refine ⟨1, Or.inl rfl, by rw [h2]; nlinarith, ?_⟩
    refine (lowest_of_spec (r := ⟨1 * v.num, 1 * v.den⟩) (g := c) h.1 (by omega) ?_ ?_ ?_
      (fun _ => by omega) (by simp)).symm
    · simp [h1]
    · simp [h2]
    · simp only [one_mul]; exact rat_gcd v

theorem num_nonneg_of_unsigned (hs : T.signed = false) (hf : f.InRange T) (h : Denotes f v) :
    0 ≤ v.num ∧ 0 < f.den := by
  have h1 := hf.1.nonneg hs
  have h2 := hf.2.nonneg hs
  have h3 : 0 < f.den := lt_of_le_of_ne h2 (Ne.symm h.1)
  refine ⟨?_, h3⟩
  rw [Rat.num_nonneg, ← h.2]
  exact div_nonneg (by exact_mod_cast h1) (by exact_mod_cast h2)

/-- A value and its absolute value are representable. -/
theorem abs_fits {z z' : ℤ} (h : |z'| = |z|) (hs : T.signed = false → 0 ≤ z') :
    T.InRange z' ∧ T.InRange (z'.natAbs : ℤ) ↔ T.InRange |z| := by
  rw [Int.natCast_natAbs, h]
  refine ⟨fun h => h.2, fun h1 => ⟨?_, h1⟩⟩
  cases hT : T.signed
  · rw [← h, abs_of_nonneg (hs hT)] at h1
    exact h1
  · have h2 := min_signed hT
    have h3 := h1.2
    rw [← h] at h3
    have := abs_le.1 h3
    constructor <;> omega

theorem numOver_mul {D : ℕ} (h : x.den ∣ D) : numOver x D * x.den = x.num * D := by
  obtain ⟨k, rfl⟩ := h
  rw [numOver, Nat.mul_div_cancel_left _ x.den_pos]
  push_cast
  ring

theorem numOver_eq {D : ℕ} (h : x.den ∣ D) {p σ : ℤ} (hσ : σ ≠ 0)
    (hp : p * (σ * x.den) = σ * x.num * D) : p = numOver x D := by
  have h1 := numOver_mul h
  have h2 : (x.den : ℤ) ≠ 0 := by exact_mod_cast x.den_nz
  have : p * (σ * x.den) = numOver x D * (σ * x.den) := by
    rw [hp, mul_assoc, ← h1]
    ring
  exact mul_right_cancel₀ (mul_ne_zero hσ h2) this

theorem numOver_eq_zero {D : ℕ} (h : x.den ∣ D) (hD : D ≠ 0) : numOver x D = 0 ↔ x = 0 := by
  have h1 := numOver_mul h
  have h2 : (x.den : ℤ) ≠ 0 := by exact_mod_cast x.den_nz
  have h3 : (D : ℤ) ≠ 0 := by exact_mod_cast hD
  constructor
  · intro h0
    rw [h0, zero_mul] at h1
    have := (mul_eq_zero.1 h1.symm).resolve_right h3
    exact Rat.num_eq_zero.1 this
  · rintro rfl
    simp [numOver]

theorem leastCommon_pos (x y : ℚ) : 0 < leastCommon x y := Nat.lcm_pos x.den_pos y.den_pos

/-- The answer of a run that finished. -/
theorem answer_of_exact (hv : ∀ v, Denotes s v → s.lowest .normalizeSigns = ratParts v)
    (h : op.Exact x y s) : s.lowest .normalizeSigns = op.answer x y := by
  cases op with
  | plus => exact hv _ h
  | minus => exact hv _ h
  | multiplies => exact hv _ h
  | divides =>
    simp only [ArithOp.answer]
    split
    · rename_i h0
      rw [Raw.lowest, if_pos (h.2 h0)]
    · rename_i h0
      exact hv _ (h.1 h0)
  | modulus => exact hv _ h.2

theorem pair_fits {z₁ z₂ : ℤ} (h : z₂ ≠ 0) :
    (⟨z₁, z₂⟩ : Raw).InRange T ∧ (⟨z₁, z₂⟩ : Raw).Cancellable T ↔
      (T.InRange z₁ ∧ T.InRange (z₁.natAbs : ℤ)) ∧ (T.InRange z₂ ∧ T.InRange (z₂.natAbs : ℤ)) := by
  simp only [Raw.InRange, Raw.Cancellable, Raw.AbsInRange, h, false_or]
  tauto

theorem common_of_int (h : x.den = 1 ∨ y.den = 1) :
    (leastCommon x y : ℤ) = x.den * y.den ∧ numOver x (leastCommon x y) = x.num * y.den ∧
      numOver y (leastCommon x y) = y.num * x.den := by
  have hx := x.den_pos
  have hy := y.den_pos
  rcases h with h | h
  · simp [leastCommon, numOver, h, Nat.div_self hy]
  · simp [leastCommon, numOver, h, Nat.div_self hx]

theorem natAbs_fits {z : ℤ} (h : 0 ≤ z) : T.InRange (z.natAbs : ℤ) ↔ T.InRange z := by
  rw [Int.natCast_natAbs, abs_of_nonneg h]

theorem tmod_fits {p q : ℤ} (hp : T.InRange p) (hq : T.InRange q) (h0 : q ≠ 0) :
    T.InRange (p.tmod q) ∧ T.InRange ((p.tmod q).natAbs : ℤ) := by
  have h1 : (p.tmod q).natAbs < q.natAbs := by
    rw [Int.natAbs_tmod]; exact Nat.mod_lt _ (by omega)
  have h2 : (p.tmod q).natAbs ≤ p.natAbs := by rw [Int.natAbs_tmod]; exact Nat.mod_le _ _
  rw [abs_fits (z := p.tmod q) rfl (fun hs => Int.tmod_nonneg _ (hp.nonneg hs))]
  have h4 := hq.1
  have h5 := hq.2
  have h6 := T.min_le_zero
  have h7 : |p.tmod q| = ((p.tmod q).natAbs : ℤ) := (Int.natCast_natAbs _).symm
  rw [h7]
  cases hs : T.signed
  · have := hq.nonneg hs
    constructor <;> omega
  · have := min_signed hs
    constructor <;> omega

/-- Operands of which one is an integer, and products and quotients. -/
theorem fits_fast {σ τ : ℤ} (hσ : σ = 1 ∨ σ = -1) (hτ : τ = 1 ∨ τ = -1) (hi : a.InRange T)
    (hl : a.left = ⟨σ * x.num, σ * x.den⟩) (hr : a.right = ⟨τ * y.num, τ * y.den⟩)
    (hu : T.signed = false → 0 ≤ x.num ∧ 0 ≤ y.num ∧ σ = 1 ∧ τ = 1)
    (hc : op.UsesCommon → σ = 1 ∧ τ = 1 ∧ (x.den = 1 ∨ y.den = 1))
    (hy : y = 0 → T.InRange (σ * x.num * τ)) :
    (∃ t, Ops.fast.arith T op a ⇓ t ∧ t.Cancellable T) ↔ op.Fits T x y := by
  have hxd : (0 : ℤ) < x.den := by exact_mod_cast x.den_pos
  have hyd : (0 : ℤ) < y.den := by exact_mod_cast y.den_pos
  have hD : (0 : ℤ) < x.den * y.den := mul_pos hxd hyd
  have hσ0 : σ ≠ 0 := by omega
  have hτ0 : τ ≠ 0 := by omega
  have abs1 : ∀ {z w : ℤ}, |σ * z * (τ * w)| = |z * w| := by
    intro z w
    rcases hσ with rfl | rfl <;> rcases hτ with rfl | rfl <;> simp
  simp only [C85_fast_iff hi, hl, hr]
  cases op with
  | plus =>
    obtain ⟨rfl, rfl, h⟩ := hc trivial
    obtain ⟨e1, e2, e3⟩ := common_of_int h
    simp only [ArithOp.Fits, CommonFits, e1, e2, e3, ArithOp.crossParts, ArithOp.overCommon, one_mul]
    constructor
    · rintro ⟨t, ⟨rfl, ht, hpq, -⟩, hcn⟩
      obtain ⟨h1, h2⟩ := (pair_fits hD.ne').1 ⟨ht, hcn⟩
      exact ⟨⟨h2.1, hpq trivial⟩, by rw [← Int.natCast_natAbs]; exact h1.2⟩
    · rintro ⟨⟨h2, hpq⟩, h3⟩
      have h1 := (abs_fits (z := x.num * y.den + y.num * x.den) rfl (fun hs => by
        obtain ⟨n1, n2, -⟩ := hu hs
        positivity)).2 h3
      obtain ⟨ht, hcn⟩ := (pair_fits hD.ne').2 ⟨h1, h2, (natAbs_fits hD.le).2 h2⟩
      exact ⟨_, ⟨rfl, ht, fun _ => hpq, by simp⟩, hcn⟩
  | minus =>
    obtain ⟨rfl, rfl, h⟩ := hc trivial
    obtain ⟨e1, e2, e3⟩ := common_of_int h
    simp only [ArithOp.Fits, CommonFits, e1, e2, e3, ArithOp.crossParts, ArithOp.overCommon, one_mul]
    constructor
    · rintro ⟨t, ⟨rfl, ht, hpq, -⟩, hcn⟩
      obtain ⟨h1, h2⟩ := (pair_fits hD.ne').1 ⟨ht, hcn⟩
      exact ⟨⟨h2.1, hpq trivial⟩, h1.1, by rw [← Int.natCast_natAbs]; exact h1.2⟩
    · rintro ⟨⟨h2, hpq⟩, h3, h4⟩
      rw [← Int.natCast_natAbs] at h4
      obtain ⟨ht, hcn⟩ := (pair_fits hD.ne').2 ⟨⟨h3, h4⟩, h2, (natAbs_fits hD.le).2 h2⟩
      exact ⟨_, ⟨rfl, ht, fun _ => hpq, by simp⟩, hcn⟩
  | multiplies =>
    simp only [ArithOp.Fits, ArithOp.crossParts]
    have hne : σ * (x.den : ℤ) * (τ * y.den) ≠ 0 :=
      mul_ne_zero (mul_ne_zero hσ0 hxd.ne') (mul_ne_zero hτ0 hyd.ne')
    have f1 := abs_fits (T := T) (z := x.num * y.num) (abs1 (z := x.num) (w := y.num)) (fun hs => by
      obtain ⟨n1, n2, rfl, rfl⟩ := hu hs
      simp only [one_mul]; positivity)
    have f2 := abs_fits (T := T) (z := x.den * y.den) (abs1 (z := x.den) (w := y.den)) (fun hs => by
      obtain ⟨n1, n2, rfl, rfl⟩ := hu hs
      simp only [one_mul]; positivity)
    rw [abs_of_pos hD] at f2
    constructor
    · rintro ⟨t, ⟨rfl, ht, -⟩, hcn⟩
      obtain ⟨h1, h2⟩ := (pair_fits hne).1 ⟨ht, hcn⟩
      exact ⟨f1.1 h1, f2.1 h2⟩
    · rintro ⟨h1, h2⟩
      obtain ⟨ht, hcn⟩ := (pair_fits hne).2 ⟨f1.2 h1, f2.2 h2⟩
      exact ⟨_, ⟨rfl, ht, by simp [ArithOp.UsesCommon]⟩, hcn⟩
  | divides =>
    simp only [ArithOp.Fits, ArithOp.crossParts]
    by_cases h0 : y = 0
    · subst h0
      simp only [true_or, iff_true]
      refine ⟨_, ⟨rfl, ⟨?_, ?_⟩, by simp [ArithOp.UsesCommon]⟩, Or.inl ?_⟩
      · simpa using hy rfl
      · simp
      · simp
    · have hn : y.num ≠ 0 := fun h => h0 (Rat.num_eq_zero.1 h)
      have hne : σ * (x.den : ℤ) * (τ * y.num) ≠ 0 :=
        mul_ne_zero (mul_ne_zero hσ0 hxd.ne') (mul_ne_zero hτ0 hn)
      have f1 := abs_fits (T := T) (z := x.num * y.den) (abs1 (z := x.num) (w := y.den)) (fun hs => by
        obtain ⟨n1, n2, rfl, rfl⟩ := hu hs
        simp only [one_mul]; positivity)
      have f2 := abs_fits (T := T) (z := x.den * y.num) (abs1 (z := x.den) (w := y.num)) (fun hs => by
        obtain ⟨n1, n2, rfl, rfl⟩ := hu hs
        simp only [one_mul]; positivity)
      simp only [h0, false_or]
      constructor
      · rintro ⟨t, ⟨rfl, ht, -⟩, hcn⟩
        obtain ⟨h1, h2⟩ := (pair_fits hne).1 ⟨ht, hcn⟩
        exact ⟨f1.1 h1, f2.1 h2⟩
      · rintro ⟨h1, h2⟩
        obtain ⟨ht, hcn⟩ := (pair_fits hne).2 ⟨f1.2 h1, f2.2 h2⟩
        exact ⟨_, ⟨rfl, ht, by simp [ArithOp.UsesCommon]⟩, hcn⟩
  | modulus =>
    obtain ⟨rfl, rfl, h⟩ := hc trivial
    obtain ⟨e1, e2, e3⟩ := common_of_int h
    simp only [ArithOp.Fits, CommonFits, e1, e2, e3, ArithOp.crossParts, ArithOp.overCommon, one_mul]
    have h0 : y.num * (x.den : ℤ) ≠ 0 ↔ y ≠ 0 := by
      rw [mul_ne_zero_iff, Rat.num_ne_zero]
      exact and_iff_left hxd.ne'
    constructor
    · rintro ⟨t, ⟨rfl, ht, hpq, hm⟩, hcn⟩
      obtain ⟨h1, h2⟩ := (pair_fits hD.ne').1 ⟨ht, hcn⟩
      obtain ⟨h3, h4⟩ := hm trivial
      exact ⟨⟨h2.1, hpq trivial⟩, h0.1 h3, h4⟩
    · rintro ⟨⟨h2, hpq⟩, h3, h4⟩
      obtain ⟨ht, hcn⟩ := (pair_fits hD.ne').2
        ⟨tmod_fits hpq.1 hpq.2 (h0.2 h3), h2, (natAbs_fits hD.le).2 h2⟩
      exact ⟨_, ⟨rfl, ht, fun _ => hpq, fun _ => ⟨h0.2 h3, h4⟩⟩, hcn⟩

/-- Sums, differences and remainders of two fractions. -/
theorem fits_safe {σ τ : ℤ} (hσ : σ = 1 ∨ σ = -1) (hτ : τ = 1 ∨ τ = -1) (hop : op.UsesCommon)
    (hl : l = ⟨σ * x.num, σ * x.den⟩) (hr : r = ⟨τ * y.num, τ * y.den⟩) (hli : l.InRange T)
    (hri : r.InRange T) (hu : T.signed = false → 0 ≤ x.num ∧ 0 ≤ y.num) :
    (∃ t, Ops.safe.arith T op (.ff l r) ⇓ t ∧ t.Cancellable T) ↔ op.Fits T x y := by
  have hxd : (x.den : ℤ) ≠ 0 := by exact_mod_cast x.den_nz
  have hyd : (y.den : ℤ) ≠ 0 := by exact_mod_cast y.den_nz
  have hσ0 : σ ≠ 0 := by omega
  have hτ0 : τ ≠ 0 := by omega
  have hl0 : l.den ≠ 0 := by rw [hl]; exact mul_ne_zero hσ0 hxd
  have hr0 : r.den ≠ 0 := by rw [hr]; exact mul_ne_zero hτ0 hyd
  have hlcm : (Int.lcm l.den r.den : ℤ) = leastCommon x y := by
    rw [hl, hr]
    rcases hσ with rfl | rfl <;> rcases hτ with rfl | rfl <;>
      simp [Int.lcm, leastCommon]
  have hx : x.den ∣ leastCommon x y := Nat.dvd_lcm_left _ _
  have hy : y.den ∣ leastCommon x y := Nat.dvd_lcm_right _ _
  have hD := leastCommon_pos x y
  have hD' : (0 : ℤ) < leastCommon x y := by exact_mod_cast hD
  set P := numOver x (leastCommon x y) with hP
  set Q := numOver y (leastCommon x y) with hQ
  have key : ∀ {t : Raw}, Ops.safe.arith T op (.ff l r) ⇓ t ↔
      t = ⟨op.overCommon P Q, leastCommon x y⟩ ∧ t.InRange T ∧ T.InRange P ∧ T.InRange Q ∧
      (op = .modulus → y ≠ 0 ∧ T.InRange (P.tdiv Q)) := by
    intro t
    rw [C85_safe_iff hop hli hri, hlcm]
    have hq : Q ≠ 0 ↔ y ≠ 0 := (numOver_eq_zero hy hD.ne').not
    constructor
    · rintro ⟨-, -, h1, h2, p, q, h3, h4, h5, h6, h7, h8⟩
      rw [h1, hl] at h3
      rw [h1, hr] at h4
      have h3 := numOver_eq hx hσ0 h3
      have h4 := numOver_eq hy hτ0 h4
      rw [← hP] at h3
      rw [← hQ] at h4
      subst h3 h4
      exact ⟨by rw [← h1, ← h7], h2, h5, h6, fun h => ⟨hq.1 (h8 h).1, (h8 h).2⟩⟩
    · rintro ⟨h1, h2, h5, h6, h8⟩
      refine ⟨hl0, hr0, by rw [h1], h2, P, Q, ?_, ?_, h5, h6, by rw [h1],
        fun h => ⟨hq.2 (h8 h).1, (h8 h).2⟩⟩
      · rw [h1, hl]
        have := numOver_mul hx
        rw [← hP] at this
        rw [mul_left_comm, this, mul_assoc]
      · rw [h1, hr]
        have := numOver_mul hy
        rw [← hQ] at this
        rw [mul_left_comm, this, mul_assoc]
  simp only [key]
  have hPn : T.signed = false → 0 ≤ P := fun hs => by
    have := (hu hs).1
    rw [hP, numOver]; positivity
  have hQn : T.signed = false → 0 ≤ Q := fun hs => by
    have := (hu hs).2
    rw [hQ, numOver]; positivity
  cases op with
  | plus =>
    simp only [ArithOp.Fits, CommonFits, ArithOp.overCommon, ← hP, ← hQ]
    constructor
    · rintro ⟨t, ⟨rfl, ht, h5, h6, -⟩, hcn⟩
      obtain ⟨h1, h2⟩ := (pair_fits hD'.ne').1 ⟨ht, hcn⟩
      exact ⟨⟨h2.1, h5, h6⟩, by rw [← Int.natCast_natAbs]; exact h1.2⟩
    · rintro ⟨⟨h2, h5, h6⟩, h3⟩
      have h1 := (abs_fits (z := P + Q) rfl (fun hs => add_nonneg (hPn hs) (hQn hs))).2 h3
      obtain ⟨ht, hcn⟩ := (pair_fits hD'.ne').2 ⟨h1, h2, (natAbs_fits hD'.le).2 h2⟩
      exact ⟨_, ⟨rfl, ht, h5, h6, by simp⟩, hcn⟩
  | minus =>
    simp only [ArithOp.Fits, CommonFits, ArithOp.overCommon, ← hP, ← hQ]
    constructor
    · rintro ⟨t, ⟨rfl, ht, h5, h6, -⟩, hcn⟩
      obtain ⟨h1, h2⟩ := (pair_fits hD'.ne').1 ⟨ht, hcn⟩
      exact ⟨⟨h2.1, h5, h6⟩, h1.1, by rw [← Int.natCast_natAbs]; exact h1.2⟩
    · rintro ⟨⟨h2, h5, h6⟩, h3, h4⟩
      rw [← Int.natCast_natAbs] at h4
      obtain ⟨ht, hcn⟩ := (pair_fits hD'.ne').2 ⟨⟨h3, h4⟩, h2, (natAbs_fits hD'.le).2 h2⟩
      exact ⟨_, ⟨rfl, ht, h5, h6, by simp⟩, hcn⟩
  | multiplies => exact absurd hop id
  | divides => exact absurd hop id
  | modulus =>
    have hq : Q ≠ 0 ↔ y ≠ 0 := (numOver_eq_zero hy hD.ne').not
    simp only [ArithOp.Fits, CommonFits, ArithOp.overCommon, ← hP, ← hQ]
    constructor
    · rintro ⟨t, ⟨rfl, ht, h5, h6, h7⟩, hcn⟩
      obtain ⟨h1, h2⟩ := (pair_fits hD'.ne').1 ⟨ht, hcn⟩
      exact ⟨⟨h2.1, h5, h6⟩, h7 trivial⟩
    · rintro ⟨⟨h2, h5, h6⟩, h7⟩
      obtain ⟨ht, hcn⟩ := (pair_fits hD'.ne').2
        ⟨tmod_fits h5 h6 (hq.2 h7.1), h2, (natAbs_fits hD'.le).2 h2⟩
      exact ⟨_, ⟨rfl, ht, h5, h6, fun _ => h7⟩, hcn⟩

theorem denotes_signed {σ : ℤ} (hσ : σ = 1 ∨ σ = -1) (x : ℚ) :
    Denotes ⟨σ * x.num, σ * x.den⟩ x := by
  have hxd : (x.den : ℤ) ≠ 0 := by exact_mod_cast x.den_nz
  have hxq : (x.den : ℚ) ≠ 0 := by exact_mod_cast x.den_nz
  refine ⟨mul_ne_zero (by omega) hxd, ?_⟩
  rcases hσ with rfl | rfl <;> push_cast
  · rw [one_mul, one_mul, Rat.num_div_den]
  · rw [neg_one_mul, neg_one_mul, neg_div_neg_eq, Rat.num_div_den]

theorem Raw.lowest_inRange {mode : ReduceMode} (hf : f.InRange T) (hc : f.Cancellable T) :
    (f.lowest mode).InRange T :=
  Raw.reduce_inRange ((Raw.reduce_iff (w := false) hf).2 ⟨hc, rfl, rfl⟩)

theorem num_fits (hf : f.AbsInRange T) (h : Denotes f v) : T.InRange |v.num| := by
  obtain ⟨c, h0, h1, -⟩ := h.parts
  have := hf.1.2
  rw [h1, Int.natAbs_mul] at this
  have h3 : 0 < c.natAbs := Int.natAbs_pos.2 h0
  have h4 : v.num.natAbs ≤ v.num.natAbs * c.natAbs := Nat.le_mul_of_pos_right _ h3
  rw [← Int.natCast_natAbs]
  exact ⟨T.min_le_zero.trans (Int.natCast_nonneg _), le_trans (by exact_mod_cast h4) this⟩

/-- Everything about the operands after reduction. -/
theorem fits_iff (ha : a.InRange T) (hd : a.Denote x y) (hp : a.IntegerPosDen)
    (hc : a.AbsInRange T) :
    (a.lowest .ignoreSigns).Denote x y ∧
    ((∃ t, Ops.safe.arith T op (a.lowest .ignoreSigns) ⇓ t ∧ t.Cancellable T) ↔ op.Fits T x y) := by
  have sign : ∀ {σ d : ℤ}, (σ = 1 ∨ σ = -1) → 0 < σ * d → 0 < d → σ = 1 := by
    rintro σ d (rfl | rfl) h1 h2
    · rfl
    · omega
  cases a with
  | ff l r =>
    obtain ⟨σ, hσ, hσd, hl⟩ := lowest_ignore hd.1
    obtain ⟨τ, hτ, hτd, hr⟩ := lowest_ignore hd.2
    have hli := Raw.lowest_inRange (mode := .ignoreSigns) ha.1 (Or.inr hc.1)
    have hri := Raw.lowest_inRange (mode := .ignoreSigns) ha.2 (Or.inr hc.2)
    have hu : T.signed = false → 0 ≤ x.num ∧ 0 ≤ y.num ∧ σ = 1 ∧ τ = 1 := by
      intro hs
      obtain ⟨n1, d1⟩ := num_nonneg_of_unsigned hs ha.1 hd.1
      obtain ⟨n2, d2⟩ := num_nonneg_of_unsigned hs ha.2 hd.2
      exact ⟨n1, n2, sign hσ hσd d1, sign hτ hτd d2⟩
    refine ⟨⟨by rw [hl]; exact denotes_signed hσ x, by rw [hr]; exact denotes_signed hτ y⟩, ?_⟩
    by_cases hop : op.UsesCommon
    · exact fits_safe hσ hτ hop hl hr hli hri (fun hs => ⟨(hu hs).1, (hu hs).2.1⟩)
    · rw [C85_safe_eq_fast (Or.inl hop)]
      refine fits_fast hσ hτ ⟨hli, hri⟩ hl hr hu (fun h => absurd h hop) (fun _ => ?_)
      refine ((abs_fits (z := x.num) ?_ ?_).2 (num_fits hc.1 hd.1)).1
      · rcases hσ with rfl | rfl <;> rcases hτ with rfl | rfl <;> simp
      · intro hs
        obtain ⟨n1, -, rfl, rfl⟩ := hu hs
        simpa using n1
  | fr l n =>
    obtain ⟨hx, rfl⟩ := hd
    obtain ⟨σ, hσ, hσd, hl⟩ := lowest_ignore hx
    obtain rfl := sign hσ hσd hp
    have hli := Raw.lowest_inRange (mode := .ignoreSigns) ha.1 (Or.inr hc)
    refine ⟨⟨by rw [hl]; exact denotes_signed hσ x, rfl⟩, ?_⟩
    rw [C85_safe_eq_fast (Or.inr (by simp [Args.lowest]))]
    refine fits_fast hσ (τ := 1) (Or.inl rfl) ⟨hli, ha.2⟩ hl (by simp [Args.lowest, Args.right])
      (fun hs => ⟨(num_nonneg_of_unsigned hs ha.1 hx).1, by simpa using ha.2.nonneg hs, rfl, rfl⟩)
      (fun _ => ⟨rfl, rfl, Or.inr (by simp)⟩) (fun _ => ?_)
    have := hli.1
    rw [hl] at this
    simpa using this
  | rf n r =>
    obtain ⟨rfl, hy⟩ := hd
    obtain ⟨σ, hσ, hσd, hr⟩ := lowest_ignore hy
    obtain rfl := sign hσ hσd hp
    have hri := Raw.lowest_inRange (mode := .ignoreSigns) ha.2 (Or.inr hc)
    refine ⟨⟨rfl, by rw [hr]; exact denotes_signed hσ y⟩, ?_⟩
    rw [C85_safe_eq_fast (Or.inr (by simp [Args.lowest]))]
    refine fits_fast (σ := 1) (Or.inl rfl) hσ ⟨ha.1, hri⟩ (by simp [Args.lowest, Args.left]) hr
      (fun hs => ⟨by simpa using ha.1.nonneg hs, (num_nonneg_of_unsigned hs ha.2 hy).1, rfl, rfl⟩)
      (fun _ => ⟨rfl, rfl, Or.inl (by simp)⟩) (fun _ => ?_)
    simpa using ha.1

theorem Args.cancellable_of_denote (hd : a.Denote x y) : a.Cancellable T ↔ a.AbsInRange T := by
  have key : ∀ {f : Raw} {v : ℚ}, Denotes f v → (f.Cancellable T ↔ f.AbsInRange T) :=
    fun h => ⟨fun h' => h'.resolve_left h.1, Or.inr⟩
  cases a with
  | ff l r => exact and_congr (key hd.1) (key hd.2)
  | fr l n => exact key hd.1
  | rf n r => exact key hd.2

theorem Args.lowest_inRange (ha : a.InRange T) (hc : a.Cancellable T) :
    (a.lowest .ignoreSigns).InRange T :=
  Args.reduce_inRange ha ((Args.reduce_iff (w := false) ha).2 ⟨hc, rfl, rfl⟩)

theorem inRange_of_le_max {z : ℤ} (h0 : 0 ≤ z) (h : z ≤ T.max) : T.InRange z :=
  ⟨T.min_le_zero.trans h0, h⟩

theorem inRange_of_abs_le {z : ℤ} (h : |z| ≤ T.max) (hs : T.signed = false → 0 ≤ z) :
    T.InRange z := by
  refine ⟨?_, (le_abs_self z).trans h⟩
  rcases hsg : T.signed with _ | _
  · exact T.min_le_zero.trans (hs hsg)
  · rw [min_signed hsg]
    have := neg_abs_le z
    omega

theorem Denotes.bounded {B : ℤ} (h : Denotes f v) (hn : |f.num| ≤ B) (hd : |f.den| ≤ B) :
    |v.num| ≤ B ∧ (v.den : ℤ) ≤ B := by
  obtain ⟨c, h0, h1, h2⟩ := h.parts
  have hc : 1 ≤ |c| := Int.one_le_abs h0
  rw [h1, abs_mul] at hn
  rw [h2, abs_mul, Int.abs_natCast] at hd
  constructor
  · nlinarith [abs_nonneg v.num]
  · nlinarith [Int.natCast_nonneg v.den]

theorem numOver_bounded {B : ℤ} (hn : |x.num| ≤ B) (hd : (y.den : ℤ) ≤ B) :
    |numOver x (leastCommon x y)| ≤ B * B := by
  rw [numOver, abs_mul, Int.abs_natCast]
  have h1 : leastCommon x y / x.den ≤ y.den := by
    rw [leastCommon, Nat.lcm, Nat.mul_div_assoc _ (Nat.gcd_dvd_right _ _), Nat.mul_div_cancel_left _ x.den_pos]
    exact Nat.div_le_self _ _
  have h2 : ((leastCommon x y / x.den : ℕ) : ℤ) ≤ y.den := by exact_mod_cast h1
  exact mul_le_mul hn (h2.trans hd) (Int.natCast_nonneg _) ((abs_nonneg _).trans hn)

theorem leastCommon_comm (x y : ℚ) : leastCommon x y = leastCommon y x := Nat.lcm_comm _ _

theorem leastCommon_bounded {B : ℤ} (hx : (x.den : ℤ) ≤ B) (hy : (y.den : ℤ) ≤ B) :
    (leastCommon x y : ℤ) ≤ B * B := by
  have h1 : leastCommon x y ≤ x.den * y.den := Nat.div_le_self _ _
  have h2 : (leastCommon x y : ℤ) ≤ x.den * y.den := by exact_mod_cast h1
  exact h2.trans (mul_le_mul hx hy (Int.natCast_nonneg _) ((Int.natCast_nonneg _).trans hx))

theorem tdiv_abs_le (p q : ℤ) : |p.tdiv q| ≤ |p| := by
  rw [← Int.natCast_natAbs, ← Int.natCast_natAbs, Int.natAbs_tdiv]
  exact_mod_cast Nat.div_le_self _ _

/-- Values with small parts. -/
theorem fits_bounded {B : ℤ} (hB : 2 * (B * B) ≤ T.max) (hx : |x.num| ≤ B ∧ (x.den : ℤ) ≤ B)
    (hy : |y.num| ≤ B ∧ (y.den : ℤ) ≤ B) (hu : T.signed = false → 0 ≤ x.num ∧ 0 ≤ y.num)
    (hm : T.signed = false → op ≠ .minus) (h0 : op = .modulus → y ≠ 0) : op.Fits T x y := by
  have hBp : 0 ≤ B := (abs_nonneg _).trans hx.1
  have hBB : 0 ≤ B * B := mul_nonneg hBp hBp
  have hL := leastCommon_bounded hx.2 hy.2
  have hP := numOver_bounded (x := x) (y := y) hx.1 hy.2
  have hQ : |numOver y (leastCommon x y)| ≤ B * B := by
    rw [leastCommon_comm]; exact numOver_bounded hy.1 hx.2
  have hPn : T.signed = false → 0 ≤ numOver x (leastCommon x y) := fun hs => by
    have := (hu hs).1
    rw [numOver]; positivity
  have hQn : T.signed = false → 0 ≤ numOver y (leastCommon x y) := fun hs => by
    have := (hu hs).2
    rw [numOver]; positivity
  have hc : CommonFits T x y :=
    ⟨inRange_of_le_max (Int.natCast_nonneg _) (by omega),
      inRange_of_abs_le (by omega) hPn, inRange_of_abs_le (by omega) hQn⟩
  have prod : ∀ {p q : ℤ}, |p| ≤ B → |q| ≤ B → T.InRange |p * q| := fun {p q} hp hq => by
    refine inRange_of_le_max (abs_nonneg _) ?_
    rw [abs_mul]
    have := mul_le_mul hp hq (abs_nonneg _) hBp
    omega
  have dx : |(x.den : ℤ)| ≤ B := by rw [Int.abs_natCast]; exact hx.2
  have dy : |(y.den : ℤ)| ≤ B := by rw [Int.abs_natCast]; exact hy.2
  cases op with
  | plus =>
    refine ⟨hc, inRange_of_le_max (abs_nonneg _) ?_⟩
    have := abs_add_le (numOver x (leastCommon x y)) (numOver y (leastCommon x y))
    omega
  | minus =>
    have h := abs_sub (numOver x (leastCommon x y)) (numOver y (leastCommon x y))
    refine ⟨hc, inRange_of_abs_le (by omega) (fun hs => absurd rfl (hm hs)),
      inRange_of_le_max (abs_nonneg _) (by omega)⟩
  | multiplies =>
    refine ⟨prod hx.1 hy.1, ?_⟩
    have := prod dx dy
    rwa [abs_of_nonneg (by positivity)] at this
  | divides => exact Or.inr ⟨prod hx.1 dy, prod dx hy.1⟩
  | modulus =>
    refine ⟨hc, h0 rfl, inRange_of_abs_le ((tdiv_abs_le _ _).trans (by omega)) (fun hs => ?_)⟩
    exact Int.tdiv_nonneg (hPn hs) (hQn hs)

theorem bounded_parts {B : ℤ} (hB : 2 * (B * B) ≤ T.max) (ha : a.InRange T)
    (hb : a.PartsAtMost B) (hd : a.Denote x y) :
    a.AbsInRange T ∧ (|x.num| ≤ B ∧ (x.den : ℤ) ≤ B) ∧ (|y.num| ≤ B ∧ (y.den : ℤ) ≤ B) ∧
      (T.signed = false → 0 ≤ x.num ∧ 0 ≤ y.num) := by
  have fits : ∀ {f : Raw} {v : ℚ}, Denotes f v → f.InRange T → |f.num| ≤ B → |f.den| ≤ B →
      f.AbsInRange T ∧ 1 ≤ B := fun {f v} h hi h1 h2 => by
    have h3 : 1 ≤ B := (Int.one_le_abs h.1).trans h2
    have h4 : B ≤ T.max := by nlinarith
    rw [← Int.natCast_natAbs] at h1 h2
    exact ⟨⟨inRange_of_le_max (Int.natCast_nonneg _) (h1.trans h4),
      inRange_of_le_max (Int.natCast_nonneg _) (h2.trans h4)⟩, h3⟩
  cases a with
  | ff l r =>
    obtain ⟨b1, b2, b3, b4⟩ := hb
    exact ⟨⟨(fits hd.1 ha.1 b1 b2).1, (fits hd.2 ha.2 b3 b4).1⟩, hd.1.bounded b1 b2,
      hd.2.bounded b3 b4, fun hs => ⟨(num_nonneg_of_unsigned hs ha.1 hd.1).1,
        (num_nonneg_of_unsigned hs ha.2 hd.2).1⟩⟩
  | fr l n =>
    obtain ⟨b1, b2, b3⟩ := hb
    obtain ⟨hx, rfl⟩ := hd
    obtain ⟨h1, h2⟩ := fits hx ha.1 b1 b2
    exact ⟨h1, hx.bounded b1 b2, ⟨by simpa using b3, by simpa using h2⟩,
      fun hs => ⟨(num_nonneg_of_unsigned hs ha.1 hx).1, by simpa using ha.2.nonneg hs⟩⟩
  | rf n r =>
    obtain ⟨b3, b1, b2⟩ := hb
    obtain ⟨rfl, hy⟩ := hd
    obtain ⟨h1, h2⟩ := fits hy ha.2 b1 b2
    exact ⟨h1, ⟨by simpa using b3, by simpa using h2⟩, hy.bounded b1 b2,
      fun hs => ⟨by simpa using ha.1.nonneg hs, (num_nonneg_of_unsigned hs ha.2 hy).1⟩⟩

theorem CmpOp.holdsInt_over {op : CmpOp} {D : ℕ} (hx : x.den ∣ D) (hy : y.den ∣ D) (hD : 0 < D) :
    op.HoldsInt (numOver x D) (numOver y D) ↔ op.Holds x y := by
  have h1 := numOver_mul hx
  have h2 := numOver_mul hy
  have hDq : (0 : ℚ) < D := by exact_mod_cast hD
  have key : ∀ {z : ℚ}, numOver z D * z.den = z.num * D → (numOver z D : ℚ) = z * D :=
    fun {z} h => by
      have hz : (z.den : ℚ) ≠ 0 := by exact_mod_cast z.den_nz
      have h' : (numOver z D : ℚ) * z.den = z.num * D := by exact_mod_cast h
      rw [← mul_left_inj' hz, h', mul_right_comm, Rat.mul_den_eq_num]
  have k1 := key h1
  have k2 := key h2
  have e : numOver x D = numOver y D ↔ x = y := by
    rw [← Int.cast_inj (α := ℚ), k1, k2, mul_left_inj' hDq.ne']
  have l1 : numOver x D < numOver y D ↔ x < y := by
    rw [← Int.cast_lt (R := ℚ), k1, k2, mul_lt_mul_iff_left₀ hDq]
  have l2 : numOver y D < numOver x D ↔ y < x := by
    rw [← Int.cast_lt (R := ℚ), k1, k2, mul_lt_mul_iff_left₀ hDq]
  cases op <;> simp only [CmpOp.HoldsInt, CmpOp.Holds, ne_eq, gt_iff_lt, ge_iff_le, e, l1, l2,
    ← not_lt]

/-- Comparison of reduced fractions. -/
theorem cmp_safe {op : CmpOp} {b : Bool} (hx : Denotes l x) (hy : Denotes r y)
    (hli : (l.lowest .ignoreSigns).InRange T) (hri : (r.lowest .ignoreSigns).InRange T) :
    Ops.safe.cmp T op (.ff (l.lowest .ignoreSigns) (r.lowest .ignoreSigns)) ⇓ b ↔
      CommonFits T x y ∧ (b = true ↔ op.Holds x y) := by
  obtain ⟨σ, hσ, -, hl⟩ := lowest_ignore hx
  obtain ⟨τ, hτ, -, hr⟩ := lowest_ignore hy
  have hxd : (x.den : ℤ) ≠ 0 := by exact_mod_cast x.den_nz
  have hyd : (y.den : ℤ) ≠ 0 := by exact_mod_cast y.den_nz
  have hσ0 : σ ≠ 0 := by omega
  have hτ0 : τ ≠ 0 := by omega
  rw [C85_safe_cmp_iff hli hri, hl, hr]
  have hl0 : σ * (x.den : ℤ) ≠ 0 := mul_ne_zero hσ0 hxd
  have hr0 : τ * (y.den : ℤ) ≠ 0 := mul_ne_zero hτ0 hyd
  have hlcm : (Int.lcm (σ * x.den) (τ * y.den) : ℤ) = leastCommon x y := by
    rcases hσ with rfl | rfl <;> rcases hτ with rfl | rfl <;>
      simp [Int.lcm, leastCommon]
  have hxD : x.den ∣ leastCommon x y := Nat.dvd_lcm_left _ _
  have hyD : y.den ∣ leastCommon x y := Nat.dvd_lcm_right _ _
  have hh := CmpOp.holdsInt_over (op := op) hxD hyD (leastCommon_pos x y)
  simp only [hl0, hr0, hlcm, or_self, false_and, false_or, ne_eq, not_false_eq_true, true_and]
  constructor
  · rintro ⟨h1, p, q, h3, h4, h5, h6, h7⟩
    obtain rfl := numOver_eq hxD hσ0 h3
    obtain rfl := numOver_eq hyD hτ0 h4
    exact ⟨⟨h1, h5, h6⟩, h7.trans hh⟩
  · rintro ⟨⟨h1, h5, h6⟩, h7⟩
    refine ⟨h1, _, _, ?_, ?_, h5, h6, h7.trans hh.symm⟩
    · rw [mul_left_comm, numOver_mul hxD, mul_assoc]
    · rw [mul_left_comm, numOver_mul hyD, mul_assoc]

end Ieme
