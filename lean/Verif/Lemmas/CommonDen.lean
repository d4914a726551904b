import Verif.Lemmas.Bounds
import Verif.Spec.CommonDen

/-!
# Operations on fractions with a common denominator
-/

namespace Ieme

open Res IntTy

variable {T : IntTy} {D : ℤ}

theorem Raw.over_eq {f : Raw} {x : ℚ} (hf : Denotes f x) (hd : f.den ∣ D) :
    (f.over D : ℚ) = D * x := by
  obtain ⟨c, rfl⟩ := hd
  have h0 : (f.den : ℚ) ≠ 0 := by exact_mod_cast hf.1
  rw [Raw.over, Int.mul_ediv_cancel_left _ hf.1, ← hf.2]
  push_cast
  field_simp

/-- The fraction is defined, its denominator divides `D`, and its numerator over `D` is
representable with either sign. -/
structure Raw.On (T : IntTy) (D : ℤ) (f : Raw) : Prop where
  defined : f.den ≠ 0
  dvd : f.den ∣ D
  fits : |f.over D| ≤ T.max

theorem Raw.On.parts {f : Raw} (h : f.On T D) (hD : 0 < D) (hDm : D ≤ T.max) :
    |f.num| ≤ T.max ∧ |f.den| ≤ T.max := by
  obtain ⟨h0, ⟨c, hc⟩, hf⟩ := h
  have hc0 : c ≠ 0 := by rintro rfl; omega
  have hc1 : 1 ≤ |c| := Int.one_le_abs hc0
  have hd1 : 1 ≤ |f.den| := Int.one_le_abs h0
  rw [Raw.over, hc, Int.mul_ediv_cancel_left _ h0, abs_mul] at hf
  have hDa : |f.den| * |c| = D := by rw [← abs_mul, ← hc, abs_of_pos hD]
  have := abs_nonneg f.num
  exact ⟨by nlinarith, by nlinarith⟩

theorem inRange_of_abs_max (hs : T.signed = true) {z : ℤ} (h : |z| ≤ T.max) : T.InRange z := by
  have := min_signed hs
  have := abs_le.1 h
  constructor <;> omega

theorem inRange_natAbs_of_abs_max {z : ℤ} (h : |z| ≤ T.max) : T.InRange (z.natAbs : ℤ) := by
  have := T.min_le_zero
  rw [Int.abs_eq_natAbs] at h
  constructor <;> omega

theorem Raw.On.inRange {f : Raw} (hs : T.signed = true) (h : f.On T D) (hD : 0 < D)
    (hDm : D ≤ T.max) : f.InRange T :=
  ⟨inRange_of_abs_max hs (h.parts hD hDm).1, inRange_of_abs_max hs (h.parts hD hDm).2⟩

theorem Raw.over_congr {f g : Raw} {x : ℚ} (hf : Denotes f x) (hg : Denotes g x)
    (hfd : f.den ∣ D) (hgd : g.den ∣ D) : g.over D = f.over D := by
  have e : (g.over D : ℚ) = f.over D := by rw [Raw.over_eq hf hfd, Raw.over_eq hg hgd]
  exact_mod_cast e

theorem Raw.On.reduce {f : Raw} (hs : T.signed = true) (h : f.On T D) (hD : 0 < D)
    (hDm : D ≤ T.max) (mode : ReduceMode) :
    ∃ r, f.reduce T mode ⇓ r ∧ r.On T D ∧ r.over D = f.over D := by
  obtain ⟨r, hr, -⟩ := Raw.reduce_progress mode (h.inRange hs hD hDm)
    (inRange_natAbs_of_abs_max (h.parts hD hDm).1) (inRange_natAbs_of_abs_max (h.parts hD hDm).2)
  obtain ⟨g, hg, hn, hd, -⟩ := Raw.reduce_clean_spec h.defined hr
  have hr0 : r.den ≠ 0 := by
    intro e
    rw [e, zero_mul] at hd
    exact h.defined hd
  have hdv : r.den ∣ D := Dvd.dvd.trans ⟨g, hd⟩ h.dvd
  have e : r.over D = f.over D := by
    refine Raw.over_congr ⟨h.defined, rfl⟩ ⟨hr0, ?_⟩ h.dvd hdv
    have h1 : (r.den : ℚ) ≠ 0 := by exact_mod_cast hr0
    have h2 : (g : ℚ) ≠ 0 := by exact_mod_cast hg
    rw [hn, hd]
    push_cast
    field_simp
  exact ⟨r, hr, ⟨hr0, hdv, by rw [e]; exact h.fits⟩, e⟩

/-- Both operands live on the common denominator. -/
def Args.On (T : IntTy) (D : ℤ) (a : Args) : Prop := a.left.On T D ∧ a.right.On T D

theorem Args.On.reduce {a : Args} (hs : T.signed = true) (h : a.On T D) (hD : 0 < D)
    (hDm : D ≤ T.max) (mode : ReduceMode) : ∃ r, a.reduce T mode ⇓ r ∧ r.On T D ∧
      r.left.over D = a.left.over D ∧ r.right.over D = a.right.over D := by
  obtain ⟨h1, h2⟩ := h
  cases a with
  | ff l r =>
    obtain ⟨l', hl, fl, el⟩ := h1.reduce hs hD hDm mode
    obtain ⟨r', hr, fr, er⟩ := h2.reduce hs hD hDm mode
    exact ⟨.ff l' r', by simp only [Args.reduce, Args.left, Args.right] at *
                         simp only [hl, hr, ok_bind_false, pure_def], ⟨fl, fr⟩, el, er⟩
  | fr l r =>
    obtain ⟨l', hl, fl, el⟩ := h1.reduce hs hD hDm mode
    exact ⟨.fr l' r, by simp only [Args.reduce, Args.left] at *
                        simp only [hl, ok_bind_false, pure_def], ⟨fl, h2⟩, el, rfl⟩
  | rf l r =>
    obtain ⟨r', hr, fr, er⟩ := h2.reduce hs hD hDm mode
    exact ⟨.rf l r', by simp only [Args.reduce, Args.right] at *
                        simp only [hr, ok_bind_false, pure_def], ⟨h1, fr⟩, rfl, er⟩

theorem overCommon_mul {op : ArithOp} (hop : op = .plus ∨ op = .minus) (p q c : ℤ) :
    op.overCommon (p * c) (q * c) = op.overCommon p q * c := by
  rcases hop with rfl | rfl <;> simp only [ArithOp.overCommon] <;> ring

/-- The facts needed about a denominator `L` dividing `D`. -/
theorem on_common {op : ArithOp} {L p q lo ro : ℤ} (hs : T.signed = true)
    (hop : op = .plus ∨ op = .minus) (hD : 0 < D) (hDm : D ≤ T.max) (hL : L ∣ D)
    (hlo : lo = p * (D / L)) (hro : ro = q * (D / L)) (f1 : |lo| ≤ T.max) (f2 : |ro| ≤ T.max)
    (f3 : |op.overCommon lo ro| ≤ T.max) :
    T.InRange L ∧ T.InRange p ∧ T.InRange q ∧ T.InRange (op.overCommon p q) ∧
      (⟨op.overCommon p q, L⟩ : Raw).On T D ∧
      (⟨op.overCommon p q, L⟩ : Raw).over D = op.overCommon lo ro := by
  obtain ⟨c, hc⟩ := hL
  have hL0 : L ≠ 0 := by rintro rfl; simp at hc; omega
  have hc0 : c ≠ 0 := by rintro rfl; simp at hc; omega
  have hc1 : 1 ≤ |c| := Int.one_le_abs hc0
  have hq : D / L = c := by rw [hc, Int.mul_ediv_cancel_left _ hL0]
  rw [hq] at hlo hro
  have hover : (⟨op.overCommon p q, L⟩ : Raw).over D = op.overCommon lo ro := by
    rw [Raw.over, hq, hlo, hro, overCommon_mul hop]
  have shrink : ∀ {p : ℤ}, |p * c| ≤ T.max → T.InRange p := by
    intro p h
    rw [abs_mul] at h
    exact inRange_of_abs_max hs (by nlinarith [abs_nonneg p])
  refine ⟨?_, shrink (hlo ▸ f1), shrink (hro ▸ f2), ?_, ⟨hL0, ⟨c, hc⟩, hover ▸ f3⟩, hover⟩
  · have : |L * c| ≤ T.max := by rw [← hc, abs_of_pos hD]; exact hDm
    exact shrink this
  · rw [hlo, hro, overCommon_mul hop] at f3
    exact shrink f3

theorem Raw.over_of_mul {f : Raw} {L k : ℤ} (h0 : f.den ≠ 0) (hL : L ∣ D) (hk : L = f.den * k)
    (hL0 : L ≠ 0) : f.over D = f.num * k * (D / L) := by
  obtain ⟨c, rfl⟩ := hL
  rw [Int.mul_ediv_cancel_left _ hL0, Raw.over, hk, mul_assoc f.den, Int.mul_ediv_cancel_left _ h0]
  ring

theorem Safe.arith_on {op : ArithOp} {a : Args} (hs : T.signed = true)
    (hop : op = .plus ∨ op = .minus) (hD : 0 < D) (hDm : D ≤ T.max) (hon : a.On T D)
    (hfit : |op.overCommon (a.left.over D) (a.right.over D)| ≤ T.max) :
    ∃ r, Ops.safe.arith T op a ⇓ r ∧ r.On T D ∧
      r.over D = op.overCommon (a.left.over D) (a.right.over D) := by
  have hcom : op.UsesCommon := by rcases hop with rfl | rfl <;> trivial
  have hmod : op ≠ .modulus := by rcases hop with rfl | rfl <;> simp
  obtain ⟨h1, h2⟩ := hon
  by_cases hff : ∀ l r, a ≠ .ff l r
  · have hi : a.InRange T := by
      cases a with
      | ff l r => exact ⟨h1.inRange hs hD hDm, h2.inRange hs hD hDm⟩
      | fr l r => exact ⟨h1.inRange hs hD hDm, (h2.inRange hs hD hDm).1⟩
      | rf l r => exact ⟨(h1.inRange hs hD hDm).1, h2.inRange hs hD hDm⟩
    have hdd : a.left.den * a.right.den ∣ D := by
      cases a with
      | ff l r => exact absurd rfl (hff l r)
      | fr l r => simpa [Args.right] using h1.dvd
      | rf l r => simpa [Args.left] using h2.dvd
    have hL0 := mul_ne_zero h1.defined h2.defined
    obtain ⟨i1, i2, i3, i4, i5, i6⟩ := on_common hs hop hD hDm hdd
      (Raw.over_of_mul h1.defined hdd rfl hL0)
      (Raw.over_of_mul h2.defined hdd (mul_comm _ _) hL0) h1.fits h2.fits hfit
    rw [C85_safe_eq_fast (Or.inr hff)]
    refine ⟨_, (C85_fast_iff hi).2 ⟨?_, ⟨i4, i1⟩, fun _ => ⟨i2, i3⟩, fun h => absurd h hmod⟩, i5, i6⟩
    rcases hop with rfl | rfl <;> rfl
  · simp only [not_forall, not_not] at hff
    obtain ⟨l, r, rfl⟩ := hff
    obtain ⟨L, k, m, hL, hpos, hk, hm, -, -, -, -⟩ := lcm_split h1.defined h2.defined
    simp only [Args.left, Args.right] at *
    have hLD : L ∣ D := by rw [← hL]; exact Int.coe_lcm_dvd h1.dvd h2.dvd
    obtain ⟨i1, i2, i3, i4, i5, i6⟩ := on_common hs hop hD hDm hLD
      (Raw.over_of_mul h1.defined hLD hk hpos.ne') (Raw.over_of_mul h2.defined hLD hm hpos.ne')
      h1.fits h2.fits hfit
    refine ⟨_, (C85_safe_iff hcom (h1.inRange hs hD hDm) (h2.inRange hs hD hDm)).2
      ⟨h1.defined, h2.defined, hL.symm, ⟨i4, i1⟩, _, _, ?_, ?_, i2, i3, rfl, fun h => absurd h hmod⟩,
      i5, i6⟩
    · rw [hk]; ring
    · rw [hm]; ring

theorem Ops.arith_on {o : Ops} {op : ArithOp} {a : Args} (ho : o.BasedOnSafe)
    (hs : T.signed = true) (hop : op = .plus ∨ op = .minus) (hD : 0 < D) (hDm : D ≤ T.max)
    (hon : a.On T D) (hfit : |op.overCommon (a.left.over D) (a.right.over D)| ≤ T.max) :
    ∃ r, o.arith T op a ⇓ r ∧ r.On T D ∧
      r.over D = op.overCommon (a.left.over D) (a.right.over D) := by
  induction o generalizing a with
  | safe => exact Safe.arith_on hs hop hD hDm hon hfit
  | fast => exact ho.elim
  | reducedInput o mode ih =>
    obtain ⟨a', ha', on', e1, e2⟩ := hon.reduce hs hD hDm mode
    rw [← e1, ← e2] at hfit ⊢
    obtain ⟨r, hr, fr⟩ := ih ho on' hfit
    exact ⟨r, by simp only [Ops.arith, ha', ok_bind_false, hr], fr⟩
  | reducedOutput o mode ih =>
    obtain ⟨r, hr, fr, e⟩ := ih ho hon hfit
    obtain ⟨s, hs', fs, es⟩ := fr.reduce hs hD hDm mode
    exact ⟨s, by simp only [Ops.arith, hr, ok_bind_false, hs'], fs, es.trans e⟩

end Ieme
