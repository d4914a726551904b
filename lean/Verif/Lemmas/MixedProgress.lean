import Verif.Lemmas.MixedNumber
import Verif.Lemmas.Progress

/-!
# When mixed-number operations finish
-/

namespace Ieme

open Res IntTy

variable {W F T : IntTy} {o : Ops} {m m' : Mixed} {f : Raw} {x v : ℚ} {n : ℤ} {K : ℕ}

theorem absLe_num (hx : Denotes f x) : (f.num.natAbs : ℚ) = |x| * (f.den.natAbs : ℚ) := by
  have hd : (f.den : ℚ) ≠ 0 := by exact_mod_cast hx.1
  have h : (f.num : ℚ) = x * f.den := by rw [← hx.2]; field_simp
  rw [Nat.cast_natAbs, Nat.cast_natAbs, Int.cast_abs, Int.cast_abs, h, abs_mul]

/-- The two ways in which mixed numbers shift a fraction by an integer. -/
def IsShift (op : ArithOp) (a : Args) (f : Raw) (n : ℤ) (x v : ℚ) : Prop :=
  (op = .minus ∧ a = .fr f n ∧ v = x - n) ∨ (op = .plus ∧ a = .rf n f ∧ v = n + x)

theorem IsShift.exact {op : ArithOp} {a : Args} {r : Raw} (h : IsShift op a f n x v)
    (hx : Denotes f x) (hr : o.arith T op a ⇓ r) : Denotes r v := by
  rcases h with ⟨rfl, rfl, rfl⟩ | ⟨rfl, rfl, rfl⟩
  · exact Ops.arith_exact (a := .fr f n) ⟨hx, rfl⟩ hr
  · exact Ops.arith_exact (a := .rf n f) ⟨rfl, hx⟩ hr

theorem inRange_of_abs (hs : T.signed = true) (hK : (K : ℤ) ≤ T.max) {y : ℤ}
    (h : y.natAbs ≤ K) : T.InRange y := by
  have := min_signed hs
  constructor <;> omega

/-- Shifting by an integer finishes under every policy when the shifted numerators fit. -/
theorem Ops.shift_progress (hs : T.signed = true) (hK : (K : ℤ) ≤ T.max) (hf : f.AbsLe K)
    (hx : Denotes f x) (h1 : (n.natAbs : ℚ) * f.den.natAbs ≤ K)
    (h2 : |v| * f.den.natAbs ≤ K) {op : ArithOp} {a : Args} (hsh : IsShift op a f n x v) :
    ∃ r, o.arith T op a ⇓ r ∧ r.den.natAbs ≤ f.den.natAbs ∧ r.AbsLe K := by
  induction o generalizing f a with
  | safe =>
    have hd : (f.den : ℚ) ≠ 0 := by exact_mod_cast hx.1
    have h : (f.num : ℚ) = x * f.den := by rw [← hx.2]; field_simp
    have e1 : T.InRange (n * f.den) := inRange_of_abs hs hK (by
      rw [Int.natAbs_mul]; exact_mod_cast h1)
    rcases hsh with ⟨rfl, rfl, rfl⟩ | ⟨rfl, rfl, rfl⟩
    · have hb : (f.num - n * f.den).natAbs ≤ K := by
        have : (((f.num - n * f.den).natAbs : ℕ) : ℚ) = |x - n| * (f.den.natAbs : ℚ) := by
          rw [Nat.cast_natAbs, Nat.cast_natAbs, Int.cast_abs, Int.cast_abs, ← abs_mul]
          push_cast; rw [h]; ring_nf
        have h3 : (((f.num - n * f.den).natAbs : ℕ) : ℚ) ≤ K := by rw [this]; exact h2
        exact_mod_cast h3
      refine ⟨⟨f.num - n * f.den, f.den⟩, ?_, le_refl _, hb, hf.2⟩
      simp only [Ops.arith, Safe.arith, Safe.minusFR, mul_of_inRange e1, ok_bind_false,
        sub_of_inRange (inRange_of_abs hs hK hb)]
      rfl
    · have hb : (f.num + n * f.den).natAbs ≤ K := by
        have : (((f.num + n * f.den).natAbs : ℕ) : ℚ) = |n + x| * (f.den.natAbs : ℚ) := by
          rw [Nat.cast_natAbs, Nat.cast_natAbs, Int.cast_abs, Int.cast_abs, ← abs_mul]
          push_cast; rw [h]; ring_nf
        have h3 : (((f.num + n * f.den).natAbs : ℕ) : ℚ) ≤ K := by rw [this]; exact h2
        exact_mod_cast h3
      refine ⟨⟨f.num + n * f.den, f.den⟩, ?_, le_refl _, hb, hf.2⟩
      simp only [Ops.arith, Safe.arith, Safe.plusRF, Safe.plusFR, mul_of_inRange e1, ok_bind_false,
        add_of_inRange (inRange_of_abs hs hK hb)]
      rfl
  | fast =>
    have hd : (f.den : ℚ) ≠ 0 := by exact_mod_cast hx.1
    have h : (f.num : ℚ) = x * f.den := by rw [← hx.2]; field_simp
    have e1 : T.InRange (n * f.den) := inRange_of_abs hs hK (by
      rw [Int.natAbs_mul]; exact_mod_cast h1)
    rcases hsh with ⟨rfl, rfl, rfl⟩ | ⟨rfl, rfl, rfl⟩
    · have hb : (f.num - n * f.den).natAbs ≤ K := by
        have : (((f.num - n * f.den).natAbs : ℕ) : ℚ) = |x - n| * (f.den.natAbs : ℚ) := by
          rw [Nat.cast_natAbs, Nat.cast_natAbs, Int.cast_abs, Int.cast_abs, ← abs_mul]
          push_cast; rw [h]; ring_nf
        have h3 : (((f.num - n * f.den).natAbs : ℕ) : ℚ) ≤ K := by rw [this]; exact h2
        exact_mod_cast h3
      refine ⟨⟨f.num - n * f.den, f.den⟩, ?_, le_refl _, hb, hf.2⟩
      simp only [Ops.arith, Fast.arith, Fast.minusFR, mul_of_inRange e1, ok_bind_false,
        sub_of_inRange (inRange_of_abs hs hK hb)]
      rfl
    · have hb : (f.num + n * f.den).natAbs ≤ K := by
        have : (((f.num + n * f.den).natAbs : ℕ) : ℚ) = |n + x| * (f.den.natAbs : ℚ) := by
          rw [Nat.cast_natAbs, Nat.cast_natAbs, Int.cast_abs, Int.cast_abs, ← abs_mul]
          push_cast; rw [h]; ring_nf
        have h3 : (((f.num + n * f.den).natAbs : ℕ) : ℚ) ≤ K := by rw [this]; exact h2
        exact_mod_cast h3
      refine ⟨⟨f.num + n * f.den, f.den⟩, ?_, le_refl _, hb, hf.2⟩
      simp only [Ops.arith, Fast.arith, Fast.plusRF, Fast.plusFR, mul_of_inRange e1, ok_bind_false,
        add_of_inRange (inRange_of_abs hs hK hb)]
      rfl
  | reducedInput o mode ih =>
    have fit : f.Fit T K := ⟨⟨hf.1, by simp [hs]⟩, ⟨hf.2, by simp [hs]⟩⟩
    obtain ⟨f', hf', fit'⟩ := fit.reduce hK mode
    have hle := (Raw.reduce_natAbs_le hf').2
    have hleq : (f'.den.natAbs : ℚ) ≤ f.den.natAbs := by exact_mod_cast hle
    have hx' : Denotes f' x := Raw.reduce_denotes hx hf'
    obtain ⟨a', ha', hsh'⟩ : ∃ a', a.reduce T mode ⇓ a' ∧ IsShift op a' f' n x v := by
      rcases hsh with ⟨rfl, rfl, rfl⟩ | ⟨rfl, rfl, rfl⟩
      · exact ⟨.fr f' n, by simp only [Args.reduce, hf', ok_bind_false]; rfl, .inl ⟨rfl, rfl, rfl⟩⟩
      · exact ⟨.rf n f', by simp only [Args.reduce, hf', ok_bind_false]; rfl, .inr ⟨rfl, rfl, rfl⟩⟩
    obtain ⟨r, hr, hd, hk⟩ := ih ⟨fit'.1.1, fit'.2.1⟩ hx'
      (le_trans (mul_le_mul_of_nonneg_left hleq (by positivity)) h1)
      (le_trans (mul_le_mul_of_nonneg_left hleq (by positivity)) h2) hsh'
    refine ⟨r, ?_, hd.trans hle, hk⟩
    simp only [Ops.arith, ha', ok_bind_false, hr]
  | reducedOutput o mode ih =>
    obtain ⟨r, hr, hd, hk⟩ := ih hf hx h1 h2 hsh
    have fit : r.Fit T K := ⟨⟨hk.1, by simp [hs]⟩, ⟨hk.2, by simp [hs]⟩⟩
    obtain ⟨r', hr', fit'⟩ := fit.reduce hK mode
    refine ⟨r', ?_, (Raw.reduce_natAbs_le hr').2.trans hd, fit'.1.1, fit'.2.1⟩
    simp only [Ops.arith, hr, ok_bind_false, hr']

theorem mathAbs_of_abs (hs : T.signed = true) (hK : (K : ℤ) ≤ T.max) {y : ℤ} (h : y.natAbs ≤ K) :
    mathAbs T y ⇓ |y| := by
  unfold mathAbs
  split
  · rename_i h0; rw [abs_of_nonneg h0]; rfl
  · rw [abs_of_neg (by omega)]
    exact neg_of_inRange (inRange_of_abs hs hK (by omega))

theorem Raw.isImproper_progress (hs : T.signed = true) (hK : (K : ℤ) ≤ T.max) (hf : f.AbsLe K) :
    f.isImproper T ⇓ !decide (|f.num| < |f.den|) := by
  simp only [Raw.isImproper, Raw.isProper, mathAbs_of_abs hs hK hf.1, mathAbs_of_abs hs hK hf.2,
    ok_bind_false, pure_bind]
  rfl

theorem ratTrunc_mul_le (hx : Denotes f x) :
    ((ratTrunc x).natAbs : ℚ) * f.den.natAbs ≤ f.num.natAbs := by
  rw [absLe_num hx]
  refine mul_le_mul_of_nonneg_right ?_ (by positivity)
  have h := ratTrunc_div (f.num) (f.den)
  rw [hx.2] at h
  rw [h]
  have h1 : (f.num.tdiv f.den).natAbs * f.den.natAbs ≤ f.num.natAbs := by
    rw [Int.natAbs_tdiv]; exact Nat.div_mul_le_self _ _
  have h2 : (((f.num.tdiv f.den).natAbs : ℕ) : ℚ) * f.den.natAbs ≤ f.num.natAbs := by
    exact_mod_cast h1
  rw [absLe_num hx] at h2
  have hd : (0 : ℚ) < f.den.natAbs := by
    have := Int.natAbs_pos.2 hx.1; exact_mod_cast this
  exact le_of_mul_le_mul_right h2 hd

theorem Fraction.trunc_progress (hs : T.signed = true) (hK : (K : ℤ) ≤ T.max) (hf : f.AbsLe K)
    (hx : Denotes f x) : Fraction.trunc T f ⇓ ratTrunc x := by
  rw [← hx.2, ratTrunc_div]
  exact div_of hx.1 (inRange_of_abs hs hK
    ((Int.natAbs_tdiv_le_natAbs _ _).trans hf.1))

theorem proper_mul_le {y : ℚ} (h : |y| ≤ 1) (hf : f.AbsLe K) : |y| * (f.den.natAbs : ℚ) ≤ K := by
  have h1 : ((f.den.natAbs : ℕ) : ℚ) ≤ K := by exact_mod_cast hf.2
  have h2 : (0 : ℚ) ≤ f.den.natAbs := by positivity
  nlinarith

theorem Mixed.mk_progress (hs : F.signed = true) (hK : (K : ℤ) ≤ F.max) (hf : f.AbsLe K)
    (hx : Ieme.Denotes f x) {w : ℤ} (hw : W.InRange w) (ht : W.InRange (ratTrunc x))
    (hwt : W.InRange (w + ratTrunc x)) :
    ∃ m, Mixed.mk' W F o w f ⇓ m ∧ m.frac.AbsLe K ∧ m.frac.den.natAbs ≤ f.den.natAbs := by
  have h1 : ∃ m1, Mixed.fixImproper W F o ⟨w, f⟩ ⇓ m1 ∧ m1.frac.AbsLe K ∧
      m1.frac.den.natAbs ≤ f.den.natAbs ∧ W.InRange m1.whole := by
    simp only [Mixed.fixImproper, Raw.isImproper_progress hs hK hf, ok_bind_false]
    split
    · obtain ⟨r, hr, hd, hk⟩ := Ops.shift_progress (o := o) hs hK hf hx
        ((ratTrunc_mul_le hx).trans (by exact_mod_cast hf.1))
        (proper_mul_le (sub_ratTrunc x).1.le hf)
        (.inl ⟨rfl, rfl, rfl⟩)
      refine ⟨⟨w + ratTrunc x, r⟩, ?_, hk, hd, hwt⟩
      simp only [Fraction.trunc_progress hs hK hf hx, conv_clean.2 ⟨ht, rfl⟩,
        add_of_inRange hwt, Fraction.assignR, if_pos, Fraction.arith_self, hr, ok_bind_false]
      rfl
    · exact ⟨_, rfl, hf, le_refl _, hw⟩
  obtain ⟨m1, hm1, hk1, hd1, hw1⟩ := h1
  obtain ⟨-, -, h2⟩ := Mixed.fixImproper_ok (.inr rfl) hm1
  obtain ⟨y, hy, hy1, -⟩ := h2 x hx
  have hmin := W.min_le_zero
  have hmax := W.max_ge
  have h3 : ∃ m2, m1.fixSigns W F o ⇓ m2 ∧ m2.frac.AbsLe K ∧
      m2.frac.den.natAbs ≤ m1.frac.den.natAbs := by
    rw [abs_lt] at hy1
    unfold Mixed.fixSigns
    split
    · rename_i hc
      rw [isNegative_iff hy] at hc
      have hr : W.InRange (m1.whole - 1) := ⟨by omega, by have := hw1.2; omega⟩
      obtain ⟨r, hr', hd, hk⟩ := Ops.shift_progress (o := o) (n := 1) (v := ((1 : ℤ) : ℚ) + y) hs hK hk1 hy
        (by have : ((m1.frac.den.natAbs : ℕ) : ℚ) ≤ K := by exact_mod_cast hk1.2
            simpa using this)
        (proper_mul_le (by push_cast; rw [abs_le]; constructor <;> linarith) hk1)
        (.inr ⟨rfl, rfl, rfl⟩)
      refine ⟨⟨m1.whole - 1, r⟩, ?_, hk, hd⟩
      simp only [sub_of_inRange hr, Fraction.arith_self, hr', ok_bind_false]
      rfl
    · split
      · rename_i _ hc
        rw [isPositive_iff hy] at hc
        have hr : W.InRange (m1.whole + 1) := ⟨by have := hw1.1; omega, by omega⟩
        obtain ⟨r, hr', hd, hk⟩ := Ops.shift_progress (o := o) (n := -1) (v := ((-1 : ℤ) : ℚ) + y) hs hK hk1 hy
          (by have : ((m1.frac.den.natAbs : ℕ) : ℚ) ≤ K := by exact_mod_cast hk1.2
              simpa using this)
          (proper_mul_le (by push_cast; rw [abs_le]; constructor <;> linarith) hk1)
          (.inr ⟨rfl, rfl, rfl⟩)
        have hn : F.neg 1 ⇓ (-1) := neg_of_inRange (by
          have := min_signed hs; have := F.max_ge; constructor <;> omega)
        refine ⟨⟨m1.whole + 1, r⟩, ?_, hk, hd⟩
        simp only [add_of_inRange hr, hn, Fraction.arith_self, hr', ok_bind_false]
        rfl
      · exact ⟨_, rfl, hk1, le_refl _⟩
  obtain ⟨m2, hm2, hk2, hd2⟩ := h3
  exact ⟨m2, by simp only [Mixed.mk', Mixed.fix, hm1, ok_bind_false, hm2], hk2, hd2.trans hd1⟩

theorem Mixed.ofFraction_progress {S : IntTy} (hs : S.signed = true) (hK : (K : ℤ) ≤ S.max)
    (hf : f.AbsLe K) (hx : Ieme.Denotes f x) (hF : F.signed = true) (hKF : (K : ℤ) ≤ F.max)
    (ht : W.InRange (ratTrunc x)) :
    ∃ m, Mixed.ofFraction W F o S f ⇓ m ∧ m.whole = ratTrunc x ∧ m.frac.AbsLe K ∧
      m.frac.den.natAbs ≤ f.den.natAbs := by
  obtain ⟨r, hr, hd, hk⟩ := Ops.shift_progress (o := o) hs hK hf hx
    ((ratTrunc_mul_le hx).trans (by exact_mod_cast hf.1))
    (proper_mul_le (sub_ratTrunc x).1.le hf)
    (.inl ⟨rfl, rfl, rfl⟩)
  have htr := Fraction.trunc_progress hs hK hf hx
  have hcv : Fraction.ofOther F r ⇓ r := Raw.conv_clean.2
    ⟨⟨inRange_of_abs hF hKF hk.1, inRange_of_abs hF hKF hk.2⟩, rfl⟩
  refine ⟨⟨ratTrunc x, r⟩, ?_, rfl, hk, hd⟩
  have hin : S.InRange (ratTrunc x) := div_inRange htr
  simp only [Mixed.ofFraction, htr, conv_clean.2 ⟨ht, rfl⟩, conv_clean.2 ⟨hin, rfl⟩,
    Fraction.arith_self, hr, hcv, ok_bind_false]
  rfl

/-- Converting back finishes when the fraction it came from fitted. -/
theorem Mixed.asFraction_progress (hs : T.signed = true) (hK : (K : ℤ) ≤ T.max)
    (hm : m.frac.AbsLe K) {q y : ℚ} (hy : Ieme.Denotes m.frac y) (hq : q = m.whole + y)
    (h1 : (m.whole.natAbs : ℚ) * m.frac.den.natAbs ≤ K) (h2 : |q| * m.frac.den.natAbs ≤ K)
    (hw : T.InRange m.whole) :
    ∃ r, m.asFraction T T o ⇓ r := by
  obtain ⟨r, hr, -, -⟩ := Ops.shift_progress (o := o) hs hK hm hy h1 h2 (.inr ⟨rfl, rfl, hq⟩)
  refine ⟨r, ?_⟩
  have hcv : Fraction.ofOther T m.frac ⇓ m.frac := Raw.conv_clean.2
    ⟨⟨inRange_of_abs hs hK hm.1, inRange_of_abs hs hK hm.2⟩, rfl⟩
  simp only [Mixed.asFraction, IntTy.common_self, conv_clean.2 ⟨hw, rfl⟩, hcv, ok_bind_false,
    Fraction.arith_self, hr]

end Ieme
