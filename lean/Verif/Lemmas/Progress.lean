import Verif.Lemmas.Compare

/-!
# When operations finish: magnitude bounds, range closure, absence of wrap-around
-/

namespace Ieme

open Res IntTy

/-- `x` has magnitude at most `K` and, for an unsigned type, is not negative. -/
def Fit (T : IntTy) (K : ℕ) (x : ℤ) : Prop := x.natAbs ≤ K ∧ (T.signed = false → 0 ≤ x)

namespace Fit

variable {T : IntTy} {K K' : ℕ} {x y : ℤ}

theorem inRange (h : Fit T K x) (hK : (K : ℤ) ≤ T.max) : T.InRange x := by
  have := T.min_le_zero
  obtain ⟨h1, h2⟩ := h
  cases hs : T.signed
  · have := h2 hs; constructor <;> omega
  · have := min_signed hs; constructor <;> omega

theorem natAbs_inRange (h : Fit T K x) (hK : (K : ℤ) ≤ T.max) : T.InRange x.natAbs := by
  have := T.min_le_zero
  obtain ⟨h1, h2⟩ := h
  constructor <;> omega

theorem mono (h : Fit T K x) (hK : K ≤ K') : Fit T K' x := ⟨h.1.trans hK, h.2⟩

theorem mul (hx : Fit T K x) (hy : Fit T K' y) : Fit T (K * K') (x * y) :=
  ⟨by rw [Int.natAbs_mul]; exact Nat.mul_le_mul hx.1 hy.1,
    fun hs => mul_nonneg (hx.2 hs) (hy.2 hs)⟩

theorem add (hx : Fit T K x) (hy : Fit T K' y) : Fit T (K + K') (x + y) :=
  ⟨by have := hx.1; have := hy.1; omega, fun hs => add_nonneg (hx.2 hs) (hy.2 hs)⟩

theorem sub (hs : T.signed = true) (hx : Fit T K x) (hy : Fit T K' y) : Fit T (K + K') (x - y) :=
  ⟨by have := hx.1; have := hy.1; omega, fun h => by simp [hs] at h⟩

theorem neg (hs : T.signed = true) (hx : Fit T K x) : Fit T K (-x) :=
  ⟨by have := hx.1; omega, fun h => by simp [hs] at h⟩

theorem tdiv (hx : Fit T K x) (hy : Fit T K' y) : Fit T K (x.tdiv y) :=
  ⟨(Int.natAbs_tdiv_le_natAbs x y).trans hx.1, fun hs => Int.tdiv_nonneg (hx.2 hs) (hy.2 hs)⟩

theorem tmod (hx : Fit T K x) (y : ℤ) : Fit T K (x.tmod y) :=
  ⟨by rw [Int.natAbs_tmod]; exact (Nat.mod_le _ _).trans hx.1,
    fun hs => Int.tmod_nonneg _ (hx.2 hs)⟩

theorem of_inRange (h : T.InRange x) (hK : x.natAbs ≤ K) : Fit T K x := ⟨hK, fun hs => h.nonneg hs⟩

end Fit

/-- Both parts of the fraction fit. -/
def Raw.Fit (T : IntTy) (K : ℕ) (f : Raw) : Prop := Ieme.Fit T K f.num ∧ Ieme.Fit T K f.den

/-- All parts of all operands fit. -/
def Args.Fit (T : IntTy) (K : ℕ) : Args → Prop
  | .ff l r => l.Fit T K ∧ r.Fit T K
  | .fr l r => l.Fit T K ∧ Ieme.Fit T K r
  | .rf l r => Ieme.Fit T K l ∧ r.Fit T K

section

variable {T : IntTy}

theorem add_of_inRange {a b : ℤ} (h : T.InRange (a + b)) : T.add a b ⇓ (a + b) :=
  add_clean.2 ⟨h, rfl⟩
theorem sub_of_inRange {a b : ℤ} (h : T.InRange (a - b)) : T.sub a b ⇓ (a - b) :=
  sub_clean.2 ⟨h, rfl⟩
theorem mul_of_inRange {a b : ℤ} (h : T.InRange (a * b)) : T.mul a b ⇓ (a * b) :=
  mul_clean.2 ⟨h, rfl⟩
theorem neg_of_inRange {a : ℤ} (h : T.InRange (-a)) : T.neg a ⇓ (-a) :=
  neg_clean.2 ⟨h, rfl⟩
theorem div_of {a b : ℤ} (hb : b ≠ 0) (h : T.InRange (a.tdiv b)) : T.div a b ⇓ (a.tdiv b) :=
  div_clean.2 ⟨hb, h, rfl⟩
theorem mod_of {a b : ℤ} (hb : b ≠ 0) (h : T.InRange (a.tdiv b)) : T.mod a b ⇓ (a.tmod b) :=
  mod_clean.2 ⟨hb, h, rfl⟩

/-- Computing the common denominator succeeds and its cofactors are small. -/
theorem lcm_progress {a b : ℤ} {B : ℕ} (ha : a ≠ 0) (hb : b ≠ 0) (fa : Fit T B a) (fb : Fit T B b)
    (hB : ((B * B : ℕ) : ℤ) ≤ T.max) : ∃ L k m : ℤ, T.lcm a b ⇓ L ∧ T.div L a ⇓ k ∧ T.div L b ⇓ m ∧
      0 < L ∧ L = a * k ∧ L = b * m ∧ Fit T (B * B) L ∧ Fit T B k ∧ Fit T B m := by
  obtain ⟨L, k, m, hL, hpos, hk, hm, hdk, hdm, hk0, hm0⟩ := lcm_split ha hb
  have hB1 : 1 ≤ B := by have := fa.1; omega
  have hBB : B ≤ B * B := Nat.le_mul_of_pos_left B hB1
  have hBm : (B : ℤ) ≤ T.max := le_trans (by exact_mod_cast hBB) hB
  have hLle : L.natAbs ≤ a.natAbs * b.natAbs := by
    rw [← hL]
    simp only [Int.natAbs_natCast]
    exact Nat.le_of_dvd (Nat.mul_pos (by omega) (by omega)) (by
      rw [← Int.natAbs_mul]
      have := Int.coe_lcm_dvd (dvd_mul_right a b) (dvd_mul_left b a)
      have := Int.natAbs_dvd_natAbs.2 this
      simpa using this)
  have fk : Fit T B k := by
    refine ⟨?_, fun hs => ?_⟩
    · have h1 : a.natAbs * k.natAbs ≤ a.natAbs * b.natAbs := by
        rw [← Int.natAbs_mul, ← hk]; exact hLle
      exact (Nat.le_of_mul_le_mul_left h1 (by omega)).trans fb.1
    · have h0 := fa.2 hs
      by_contra hneg
      have : a * k ≤ 0 := mul_nonpos_of_nonneg_of_nonpos h0 (by omega)
      omega
  have fm : Fit T B m := by
    refine ⟨?_, fun hs => ?_⟩
    · have h1 : b.natAbs * m.natAbs ≤ b.natAbs * a.natAbs := by
        rw [← Int.natAbs_mul, ← hm, Nat.mul_comm b.natAbs]; exact hLle
      exact (Nat.le_of_mul_le_mul_left h1 (by omega)).trans fa.1
    · have h0 := fb.2 hs
      by_contra hneg
      have : b * m ≤ 0 := mul_nonpos_of_nonneg_of_nonpos h0 (by omega)
      omega
  have fL : Fit T (B * B) L :=
    ⟨hLle.trans (Nat.mul_le_mul fa.1 fb.1), fun _ => hpos.le⟩
  refine ⟨L, k, m, ?_, ?_, ?_, hpos, hk, hm, fL, fk, fm⟩
  · rw [lcm_clean]
    refine ⟨fa.natAbs_inRange hBm, fb.natAbs_inRange hBm, ?_, hL.symm⟩
    rw [hL]; exact fL.inRange hB
  · rw [div_clean, hdk]; exact ⟨ha, fk.inRange hBm, rfl⟩
  · rw [div_clean, hdm]; exact ⟨hb, fm.inRange hBm, rfl⟩

/-- Which operations are covered by the magnitude bound: differences need a signed type,
remainders a non-zero divisor. -/
def ArithOp.Allowed (T : IntTy) (y : ℚ) : ArithOp → Prop
  | .minus => T.signed = true
  | .modulus => y ≠ 0
  | _ => True

theorem Safe.arith_progress {op : ArithOp} {a : Args} {x y : ℚ} {B : ℕ} (ha : a.Denote x y)
    (hf : a.Fit T B) (hB : ((2 * (B * B) : ℕ) : ℤ) ≤ T.max) (hop : op.Allowed T y) :
    ∃ r, Safe.arith T op a ⇓ r ∧ r.Fit T (2 * (B * B)) := by
  have hBB : ((B * B : ℕ) : ℤ) ≤ T.max := le_trans (by push_cast; omega) hB
  have hle : B * B ≤ 2 * (B * B) := by omega
  have hBB2 : B ≤ B * B := by
    rcases Nat.eq_zero_or_pos B with h | h
    · simp [h]
    · exact Nat.le_mul_of_pos_left B h
  have hBm : (B : ℤ) ≤ T.max := le_trans (by exact_mod_cast hBB2) hBB
  cases a with
  | ff l r =>
    obtain ⟨hl, hr⟩ := ha
    obtain ⟨fl, fr⟩ := hf
    obtain ⟨L, k, m, e1, e2, e3, hpos, hk, hm, fL, fk, fm⟩ :=
      lcm_progress (T := T) hl.1 hr.1 fl.2 fr.2 hBB
    have fa := fk.mul fl.1
    have fb := fm.mul fr.1
    have ea := mul_of_inRange (fa.inRange hBB)
    have eb := mul_of_inRange (fb.inRange hBB)
    cases op with
    | plus =>
      have fs := fa.add fb
      rw [← two_mul] at fs
      have es := add_of_inRange (fs.inRange hB)
      exact ⟨⟨_, _⟩, by simp only [Safe.arith, Safe.plusFF, e1, e2, e3, ea, eb, es, ok_bind_false, pure_def],
        fs, fL.mono hle⟩
    | minus =>
      have fs := fa.sub hop fb
      rw [← two_mul] at fs
      have es := sub_of_inRange (fs.inRange hB)
      exact ⟨⟨_, _⟩, by simp only [Safe.arith, Safe.minusFF, e1, e2, e3, ea, eb, es, ok_bind_false, pure_def],
        fs, fL.mono hle⟩
    | multiplies =>
      have f1 := fl.1.mul fr.1
      have f2 := fl.2.mul fr.2
      exact ⟨⟨_, _⟩, by simp only [Safe.arith, Safe.multipliesFF, mul_of_inRange (f1.inRange hBB),
        mul_of_inRange (f2.inRange hBB), ok_bind_false, pure_def], f1.mono hle, f2.mono hle⟩
    | divides =>
      have f1 := fl.1.mul fr.2
      have f2 := fl.2.mul fr.1
      exact ⟨⟨_, _⟩, by simp only [Safe.arith, Safe.dividesFF, mul_of_inRange (f1.inRange hBB),
        mul_of_inRange (f2.inRange hBB), ok_bind_false, pure_def], f1.mono hle, f2.mono hle⟩
    | modulus =>
      have hb : m * r.num ≠ 0 := by
        have hy : y ≠ 0 := hop
        intro e
        apply hy
        rw [(common_den hl hr (by omega) hk hm).2, e]; simp
      have em := mod_of hb ((fa.tdiv fb).inRange hBB)
      exact ⟨⟨(k * l.num).tmod (m * r.num), L⟩, by simp only [Safe.arith, Safe.modulusFF, e1, e2, e3, ea, eb, em, ok_bind_false, pure_def],
        (fa.tmod (m * r.num)).mono hle, fL.mono hle⟩
  | fr l r =>
    obtain ⟨hl, rfl⟩ := ha
    obtain ⟨fl, fr⟩ := hf
    have fp := fr.mul fl.2
    have ep := mul_of_inRange (fp.inRange hBB)
    have hle' : B + B * B ≤ 2 * (B * B) := by omega
    cases op with
    | plus =>
      have fs := (fl.1.add fp).mono hle'
      exact ⟨⟨_, _⟩, by simp only [Safe.arith, Safe.plusFR, ep, add_of_inRange (fs.inRange hB),
        ok_bind_false, pure_def], fs, fl.2.mono (by omega)⟩
    | minus =>
      have fs := (fl.1.sub hop fp).mono hle'
      exact ⟨⟨_, _⟩, by simp only [Safe.arith, Safe.minusFR, ep, sub_of_inRange (fs.inRange hB),
        ok_bind_false, pure_def], fs, fl.2.mono (by omega)⟩
    | multiplies =>
      have f1 := fl.1.mul fr
      exact ⟨⟨_, _⟩, by simp only [Safe.arith, Safe.multipliesFR, mul_of_inRange (f1.inRange hBB),
        ok_bind_false, pure_def], f1.mono hle, fl.2.mono (by omega)⟩
    | divides =>
      have f1 := fl.2.mul fr
      exact ⟨⟨l.num, l.den * r⟩, by simp only [Safe.arith, Safe.dividesFR, mul_of_inRange (f1.inRange hBB),
        ok_bind_false, pure_def], fl.1.mono (by omega), f1.mono hle⟩
    | modulus =>
      have f1 := fl.2.mul fr
      have hb : l.den * r ≠ 0 := by
        refine mul_ne_zero hl.1 ?_
        rintro rfl; exact hop (by simp)
      exact ⟨⟨l.num.tmod (l.den * r), l.den⟩, by simp only [Safe.arith, Safe.modulusFR, mul_of_inRange (f1.inRange hBB),
        mod_of hb ((fl.1.tdiv f1).inRange hBm),
        ok_bind_false, pure_def], (fl.1.tmod (l.den * r)).mono (by omega), fl.2.mono (by omega)⟩
  | rf l r =>
    obtain ⟨rfl, hr⟩ := ha
    obtain ⟨fl, fr⟩ := hf
    have fp := fl.mul fr.2
    have ep := mul_of_inRange (fp.inRange hBB)
    cases op with
    | plus =>
      have fs := (fr.1.add fp).mono (show B + B * B ≤ 2 * (B * B) by omega)
      exact ⟨⟨_, _⟩, by simp only [Safe.arith, Safe.plusRF, Safe.plusFR, ep,
        add_of_inRange (fs.inRange hB), ok_bind_false, pure_def], fs, fr.2.mono (by omega)⟩
    | minus =>
      have fs := (fp.sub hop fr.1).mono (show B * B + B ≤ 2 * (B * B) by omega)
      exact ⟨⟨_, _⟩, by simp only [Safe.arith, Safe.minusRF, ep, sub_of_inRange (fs.inRange hB),
        ok_bind_false, pure_def], fs, fr.2.mono (by omega)⟩
    | multiplies =>
      have f1 := fr.1.mul fl
      exact ⟨⟨_, _⟩, by simp only [Safe.arith, Safe.multipliesRF, Safe.multipliesFR,
        mul_of_inRange (f1.inRange hBB), ok_bind_false, pure_def], f1.mono hle, fr.2.mono (by omega)⟩
    | divides =>
      exact ⟨⟨_, _⟩, by simp only [Safe.arith, Safe.dividesRF, ep, ok_bind_false, pure_def],
        fp.mono hle, fr.1.mono (by omega)⟩
    | modulus =>
      have f1 := fr.2.mul fl
      have hb : r.num ≠ 0 := by
        have hy : y ≠ 0 := hop
        intro e; apply hy; rw [← hr.2, e]; simp
      exact ⟨⟨(r.den * l).tmod r.num, r.den⟩, by simp only [Safe.arith, Safe.modulusRF, mul_of_inRange (f1.inRange hBB),
        mod_of hb ((f1.tdiv fr.1).inRange hBB),
        ok_bind_false, pure_def], (f1.tmod (r.num)).mono hle, fr.2.mono (by omega)⟩

theorem Fast.arith_progress {op : ArithOp} {a : Args} {x y : ℚ} {B : ℕ} (ha : a.Denote x y)
    (hf : a.Fit T B) (hB : ((2 * (B * B) : ℕ) : ℤ) ≤ T.max) (hop : op.Allowed T y) :
    ∃ r, Fast.arith T op a ⇓ r ∧ r.Fit T (2 * (B * B)) := by
  have hBB : ((B * B : ℕ) : ℤ) ≤ T.max := le_trans (by push_cast; omega) hB
  have hle : B * B ≤ 2 * (B * B) := by omega
  have hBB2 : B ≤ B * B := by
    rcases Nat.eq_zero_or_pos B with h | h
    · simp [h]
    · exact Nat.le_mul_of_pos_left B h
  have hBm : (B : ℤ) ≤ T.max := le_trans (by exact_mod_cast hBB2) hBB
  cases a with
  | ff l r =>
    obtain ⟨hl, hr⟩ := ha
    obtain ⟨fl, fr⟩ := hf
    have fa := fl.1.mul fr.2
    have fb := fr.1.mul fl.2
    have fd := fl.2.mul fr.2
    have ea := mul_of_inRange (fa.inRange hBB)
    have eb := mul_of_inRange (fb.inRange hBB)
    have ed := mul_of_inRange (fd.inRange hBB)
    cases op with
    | plus =>
      have fs := fa.add fb
      rw [← two_mul] at fs
      have es := add_of_inRange (fs.inRange hB)
      exact ⟨⟨_, _⟩, by simp only [Fast.arith, Fast.plusFF, ed, ea, eb, es, ok_bind_false, pure_def],
        fs, fd.mono hle⟩
    | minus =>
      have fs := fa.sub hop fb
      rw [← two_mul] at fs
      have es := sub_of_inRange (fs.inRange hB)
      exact ⟨⟨_, _⟩, by simp only [Fast.arith, Fast.minusFF, ed, ea, eb, es, ok_bind_false, pure_def],
        fs, fd.mono hle⟩
    | multiplies =>
      have f1 := fl.1.mul fr.1
      exact ⟨⟨_, _⟩, by simp only [Fast.arith, Fast.multipliesFF, mul_of_inRange (f1.inRange hBB),
        ed, ok_bind_false, pure_def], f1.mono hle, fd.mono hle⟩
    | divides =>
      have f2 := fl.2.mul fr.1
      exact ⟨⟨_, _⟩, by simp only [Fast.arith, Fast.dividesFF, ea,
        mul_of_inRange (f2.inRange hBB), ok_bind_false, pure_def], fa.mono hle, f2.mono hle⟩
    | modulus =>
      have hb : r.num * l.den ≠ 0 := by
        have hy : y ≠ 0 := hop
        refine mul_ne_zero ?_ hl.1
        intro e; apply hy; rw [← hr.2, e]; simp
      have em := mod_of hb ((fa.tdiv fb).inRange hBB)
      exact ⟨⟨(l.num * r.den).tmod (r.num * l.den), l.den * r.den⟩, by simp only [Fast.arith, Fast.modulusFF, ed, ea, eb, em, ok_bind_false, pure_def],
        (fa.tmod (r.num * l.den)).mono hle, fd.mono hle⟩
  | fr l r =>
    obtain ⟨hl, rfl⟩ := ha
    obtain ⟨fl, fr⟩ := hf
    have fp := fr.mul fl.2
    have ep := mul_of_inRange (fp.inRange hBB)
    have hle' : B + B * B ≤ 2 * (B * B) := by omega
    cases op with
    | plus =>
      have fs := (fl.1.add fp).mono hle'
      exact ⟨⟨_, _⟩, by simp only [Fast.arith, Fast.plusFR, ep, add_of_inRange (fs.inRange hB),
        ok_bind_false, pure_def], fs, fl.2.mono (by omega)⟩
    | minus =>
      have fs := (fl.1.sub hop fp).mono hle'
      exact ⟨⟨_, _⟩, by simp only [Fast.arith, Fast.minusFR, ep, sub_of_inRange (fs.inRange hB),
        ok_bind_false, pure_def], fs, fl.2.mono (by omega)⟩
    | multiplies =>
      have f1 := fl.1.mul fr
      exact ⟨⟨_, _⟩, by simp only [Fast.arith, Fast.multipliesFR, mul_of_inRange (f1.inRange hBB),
        ok_bind_false, pure_def], f1.mono hle, fl.2.mono (by omega)⟩
    | divides =>
      have f1 := fl.2.mul fr
      exact ⟨⟨l.num, l.den * r⟩, by simp only [Fast.arith, Fast.dividesFR, mul_of_inRange (f1.inRange hBB),
        ok_bind_false, pure_def], fl.1.mono (by omega), f1.mono hle⟩
    | modulus =>
      have hb : r * l.den ≠ 0 := by
        refine mul_ne_zero ?_ hl.1
        rintro rfl; exact hop (by simp)
      exact ⟨⟨l.num.tmod (r * l.den), l.den⟩, by simp only [Fast.arith, Fast.modulusFR, ep,
        mod_of hb ((fl.1.tdiv fp).inRange hBm),
        ok_bind_false, pure_def], (fl.1.tmod (r * l.den)).mono (by omega), fl.2.mono (by omega)⟩
  | rf l r =>
    obtain ⟨rfl, hr⟩ := ha
    obtain ⟨fl, fr⟩ := hf
    have fp := fl.mul fr.2
    have ep := mul_of_inRange (fp.inRange hBB)
    cases op with
    | plus =>
      have fs := (fr.1.add fp).mono (show B + B * B ≤ 2 * (B * B) by omega)
      exact ⟨⟨_, _⟩, by simp only [Fast.arith, Fast.plusRF, Fast.plusFR, ep,
        add_of_inRange (fs.inRange hB), ok_bind_false, pure_def], fs, fr.2.mono (by omega)⟩
    | minus =>
      have fs := (fp.sub hop fr.1).mono (show B * B + B ≤ 2 * (B * B) by omega)
      exact ⟨⟨_, _⟩, by simp only [Fast.arith, Fast.minusRF, ep, sub_of_inRange (fs.inRange hB),
        ok_bind_false, pure_def], fs, fr.2.mono (by omega)⟩
    | multiplies =>
      have f1 := fr.1.mul fl
      exact ⟨⟨_, _⟩, by simp only [Fast.arith, Fast.multipliesRF, Fast.multipliesFR,
        mul_of_inRange (f1.inRange hBB), ok_bind_false, pure_def], f1.mono hle, fr.2.mono (by omega)⟩
    | divides =>
      exact ⟨⟨_, _⟩, by simp only [Fast.arith, Fast.dividesRF, ep, ok_bind_false, pure_def],
        fp.mono hle, fr.1.mono (by omega)⟩
    | modulus =>
      have hb : r.num ≠ 0 := by
        have hy : y ≠ 0 := hop
        intro e; apply hy; rw [← hr.2, e]; simp
      exact ⟨⟨(l * r.den).tmod r.num, r.den⟩, by simp only [Fast.arith, Fast.modulusRF, ep,
        mod_of hb ((fp.tdiv fr.1).inRange hBB),
        ok_bind_false, pure_def], (fp.tmod (r.num)).mono hle, fr.2.mono (by omega)⟩

theorem Raw.Fit.reduce {f : Raw} {K : ℕ} (h : f.Fit T K) (hK : (K : ℤ) ≤ T.max)
    (mode : ReduceMode) : ∃ r, f.reduce T mode ⇓ r ∧ r.Fit T K := by
  obtain ⟨r, hr, hin⟩ := Raw.reduce_progress mode ⟨h.1.inRange hK, h.2.inRange hK⟩
    (h.1.natAbs_inRange hK) (h.2.natAbs_inRange hK)
  obtain ⟨h1, h2⟩ := Raw.reduce_natAbs_le hr
  exact ⟨r, hr, Fit.of_inRange hin.1 (h1.trans h.1.1), Fit.of_inRange hin.2 (h2.trans h.2.1)⟩

theorem Args.Fit.reduce {a : Args} {K : ℕ} (h : a.Fit T K) (hK : (K : ℤ) ≤ T.max)
    (mode : ReduceMode) : ∃ r, a.reduce T mode ⇓ r ∧ r.Fit T K := by
  cases a with
  | ff l r =>
    obtain ⟨l', hl, fl⟩ := h.1.reduce hK mode
    obtain ⟨r', hr, fr⟩ := h.2.reduce hK mode
    exact ⟨.ff _ _, by simp only [Args.reduce, hl, hr, ok_bind_false, pure_def], fl, fr⟩
  | fr l r =>
    obtain ⟨l', hl, fl⟩ := h.1.reduce hK mode
    exact ⟨.fr _ _, by simp only [Args.reduce, hl, ok_bind_false, pure_def], fl, h.2⟩
  | rf l r =>
    obtain ⟨r', hr, fr⟩ := h.2.reduce hK mode
    exact ⟨.rf _ _, by simp only [Args.reduce, hr, ok_bind_false, pure_def], h.1, fr⟩

theorem Ops.arith_progress {o : Ops} {op : ArithOp} {a : Args} {x y : ℚ} {B : ℕ}
    (ha : a.Denote x y) (hf : a.Fit T B) (hB : ((2 * (B * B) : ℕ) : ℤ) ≤ T.max)
    (hop : op.Allowed T y) : ∃ r, o.arith T op a ⇓ r ∧ r.Fit T (2 * (B * B)) := by
  induction o generalizing a with
  | safe => exact Safe.arith_progress ha hf hB hop
  | fast => exact Fast.arith_progress ha hf hB hop
  | reducedInput o mode ih =>
    have hBB2 : B ≤ B * B := by
      rcases Nat.eq_zero_or_pos B with h | h
      · simp [h]
      · exact Nat.le_mul_of_pos_left B h
    obtain ⟨a', ha', fa'⟩ := hf.reduce (le_trans (by exact_mod_cast (by omega)) hB) mode
    obtain ⟨r, hr, fr⟩ := ih (Args.reduce_denote ha ha') fa'
    exact ⟨r, by simp only [Ops.arith, ha', ok_bind_false, hr], fr⟩
  | reducedOutput o mode ih =>
    obtain ⟨r, hr, fr⟩ := ih ha hf
    obtain ⟨s, hs, fs⟩ := fr.reduce hB mode
    exact ⟨s, by simp only [Ops.arith, hr, ok_bind_false, hs], fs⟩

theorem Ops.negate_progress {o : Ops} {v : Raw} {B : ℕ} (hs : T.signed = true) (hf : v.Fit T B)
    (hB : (B : ℤ) ≤ T.max) : ∃ r, o.negate T v ⇓ r ∧ r.Fit T B := by
  induction o generalizing v with
  | safe =>
    have := hf.1.neg hs
    exact ⟨⟨_, _⟩, by simp only [Ops.negate, Safe.negate, neg_of_inRange (this.inRange hB),
      ok_bind_false, pure_def], this, hf.2⟩
  | fast =>
    have := hf.1.neg hs
    exact ⟨⟨_, _⟩, by simp only [Ops.negate, Fast.negate, neg_of_inRange (this.inRange hB),
      ok_bind_false, pure_def], this, hf.2⟩
  | reducedInput o mode ih =>
    obtain ⟨a', ha', fa'⟩ := hf.reduce hB .normalizeSigns
    obtain ⟨r, hr, fr⟩ := ih fa'
    exact ⟨r, by simp only [Ops.negate, ha', ok_bind_false, hr], fr⟩
  | reducedOutput o mode ih =>
    obtain ⟨r, hr, fr⟩ := ih hf
    obtain ⟨s, hs, fs⟩ := fr.reduce hB mode
    exact ⟨s, by simp only [Ops.negate, hr, ok_bind_false, hs], fs⟩

theorem Safe.cmp_progress {op : CmpOp} {a : Args} {B : ℕ}
    (hf : a.Fit T B) (hB : ((B * B : ℕ) : ℤ) ≤ T.max) : ∃ b, Safe.cmp T op a ⇓ b := by
  cases a with
  | ff l r =>
    obtain ⟨fl, fr⟩ := hf
    by_cases hl : l.den = 0
    · cases op <;> exact ⟨_, by simp only [Safe.cmp, Safe.equalToFF, Safe.notEqualToFF, Safe.lessFF,
        Safe.lessEqualFF, Safe.greaterFF, Safe.greaterEqualFF, Raw.isUndefined_iff.2 hl,
        Bool.true_or, Bool.or_true, if_true, pure_def, ok_bind_false]; rfl⟩
    by_cases hr : r.den = 0
    · cases op <;> exact ⟨_, by simp only [Safe.cmp, Safe.equalToFF, Safe.notEqualToFF, Safe.lessFF,
        Safe.lessEqualFF, Safe.greaterFF, Safe.greaterEqualFF, Raw.isUndefined_iff.2 hr,
        Bool.true_or, Bool.or_true, if_true, pure_def, ok_bind_false]; rfl⟩
    have ul : l.isUndefined = false := by simp [Raw.isUndefined, Raw.isDefined, hl]
    have ur : r.isUndefined = false := by simp [Raw.isUndefined, Raw.isDefined, hr]
    obtain ⟨L, k, m, e1, e2, e3, hpos, hk, hm, fL, fk, fm⟩ :=
      lcm_progress (T := T) hl hr fl.2 fr.2 hB
    obtain ⟨L', k', m', e1', e2', e3', -, -, -, -, fk', fm'⟩ :=
      lcm_progress (T := T) hr hl fr.2 fl.2 hB
    have ea := mul_of_inRange ((fk.mul fl.1).inRange hB)
    have eb := mul_of_inRange ((fm.mul fr.1).inRange hB)
    have ea' := mul_of_inRange ((fk'.mul fr.1).inRange hB)
    have eb' := mul_of_inRange ((fm'.mul fl.1).inRange hB)
    cases op <;> exact ⟨_, by simp only [Safe.cmp, Safe.equalToFF, Safe.notEqualToFF, Safe.lessFF,
        Safe.lessEqualFF, Safe.greaterFF, Safe.greaterEqualFF, ul, ur, Bool.or_false,
        Bool.false_eq_true, if_false, pure_def, ok_bind_false, e1, e2, e3, e1', e2', e3', ea, eb, ea', eb']; rfl⟩
  | fr l r =>
    obtain ⟨fl, fr⟩ := hf
    have ep := mul_of_inRange ((fr.mul fl.2).inRange hB)
    cases op <;> exact ⟨_, by simp only [Safe.cmp, Safe.equalToFR, Safe.notEqualToFR, Safe.lessFR,
        Safe.lessEqualFR, Safe.greaterFR, Safe.greaterEqualFR, Safe.lessRF, Safe.lessEqualRF,
        pure_def, ok_bind_false, ep]; rfl⟩
  | rf l r =>
    obtain ⟨fl, fr⟩ := hf
    have ep := mul_of_inRange ((fl.mul fr.2).inRange hB)
    cases op <;> exact ⟨_, by simp only [Safe.cmp, Safe.equalToRF, Safe.notEqualToRF, Safe.lessRF,
        Safe.lessEqualRF, Safe.greaterRF, Safe.greaterEqualRF, Safe.lessFR, Safe.lessEqualFR,
        Safe.equalToFR, Safe.notEqualToFR, pure_def, ok_bind_false, ep]; rfl⟩

theorem Fast.cmp_progress {op : CmpOp} {a : Args} {B : ℕ}
    (hf : a.Fit T B) (hB : ((B * B : ℕ) : ℤ) ≤ T.max) : ∃ b, Fast.cmp T op a ⇓ b := by
  cases a with
  | ff l r =>
    obtain ⟨fl, fr⟩ := hf
    have ea := mul_of_inRange ((fl.1.mul fr.2).inRange hB)
    have eb := mul_of_inRange ((fr.1.mul fl.2).inRange hB)
    cases op <;> exact ⟨_, by simp only [Fast.cmp, Fast.equalToFF, Fast.notEqualToFF, Fast.lessFF,
        Fast.lessEqualFF, Fast.greaterFF, Fast.greaterEqualFF, pure_def, ok_bind_false, ea, eb]; rfl⟩
  | fr l r =>
    obtain ⟨fl, fr⟩ := hf
    have ep := mul_of_inRange ((fr.mul fl.2).inRange hB)
    cases op <;> exact ⟨_, by simp only [Fast.cmp, Fast.equalToFR, Fast.notEqualToFR, Fast.lessFR,
        Fast.lessEqualFR, Fast.greaterFR, Fast.greaterEqualFR, Fast.lessRF, Fast.lessEqualRF,
        pure_def, ok_bind_false, ep]; rfl⟩
  | rf l r =>
    obtain ⟨fl, fr⟩ := hf
    have ep := mul_of_inRange ((fl.mul fr.2).inRange hB)
    cases op <;> exact ⟨_, by simp only [Fast.cmp, Fast.equalToRF, Fast.notEqualToRF, Fast.lessRF,
        Fast.lessEqualRF, Fast.greaterRF, Fast.greaterEqualRF, Fast.lessFR, Fast.lessEqualFR,
        Fast.equalToFR, pure_def, ok_bind_false, ep]; rfl⟩

theorem Ops.cmp_progress {o : Ops} {op : CmpOp} {a : Args} {B : ℕ} (hf : a.Fit T B)
    (hB : ((B * B : ℕ) : ℤ) ≤ T.max) : ∃ b, o.cmp T op a ⇓ b := by
  induction o generalizing a with
  | safe => exact Safe.cmp_progress hf hB
  | fast => exact Fast.cmp_progress hf hB
  | reducedInput o mode ih =>
    have hBB2 : B ≤ B * B := by
      rcases Nat.eq_zero_or_pos B with h | h
      · simp [h]
      · exact Nat.le_mul_of_pos_left B h
    obtain ⟨a', ha', fa'⟩ := hf.reduce (le_trans (by exact_mod_cast hBB2) hB) mode
    obtain ⟨r, hr⟩ := ih fa'
    exact ⟨r, by simp only [Ops.cmp, ha', ok_bind_false, hr]⟩
  | reducedOutput o mode ih => exact ih hf

end

end Ieme
