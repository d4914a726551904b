import Verif.Lemmas.Digits
import Verif.Lemmas.NoThrow
import Verif.Lemmas.MixedNumber
import Verif.Lemmas.MixedProgress
import Verif.Props.Pow

/-!
# Values of parsed literals
-/

namespace Ieme

open Res IntTy Lit

variable {T : IntTy} {o : Ops}

theorem Fraction.pow_noWrap (hs : T.signed = true) {b e : ℤ} (he : i32.InRange e) :
    (Fraction.pow T b e).NoWrap := by
  by_cases hm : e = -2147483648
  · subst hm; rw [C36_pow_int_min]; intro r h; cases h
  · rw [Fraction.pow_eq he hm]
    exact (mathPow_noWrap hs _ _).bind fun _ => NoWrap.pure _

/-- Multiplication finishes under every policy when the products fit. -/
theorem Ops.mul_progress {f g : Raw} {K₁ K₂ : ℕ} (hs : T.signed = true) (h1 : (K₁ : ℤ) ≤ T.max)
    (h2 : (K₂ : ℤ) ≤ T.max) (h12 : ((K₁ * K₂ : ℕ) : ℤ) ≤ T.max) (hf : f.AbsLe K₁)
    (hg : g.AbsLe K₂) :
    ∃ r, o.arith T .multiplies (.ff f g) ⇓ r ∧ r.AbsLe (K₁ * K₂) := by
  have fit : ∀ {f : Raw} {K : ℕ}, f.AbsLe K → f.Fit T K ∨ T.signed = false := by
    intro f K h
    exact Or.inl ⟨⟨h.1, fun h' => by rw [hs] at h'; cases h'⟩, ⟨h.2, fun h' => by rw [hs] at h'; cases h'⟩⟩
  have red : ∀ {f : Raw} {K : ℕ} (mode : ReduceMode), (K : ℤ) ≤ T.max → f.AbsLe K →
      ∃ r, f.reduce T mode ⇓ r ∧ r.AbsLe K := by
    intro f K mode hK h
    obtain ⟨r, hr, fr⟩ := ((fit h).resolve_right (by simp [hs])).reduce hK mode
    exact ⟨r, hr, fr.1.1, fr.2.1⟩
  induction o generalizing f g with
  | safe =>
    have n1 : (f.num * g.num).natAbs ≤ K₁ * K₂ := by
      rw [Int.natAbs_mul]; exact Nat.mul_le_mul hf.1 hg.1
    have n2 : (f.den * g.den).natAbs ≤ K₁ * K₂ := by
      rw [Int.natAbs_mul]; exact Nat.mul_le_mul hf.2 hg.2
    refine ⟨⟨_, _⟩, ?_, n1, n2⟩
    simp only [Ops.arith, Safe.arith, Safe.multipliesFF, mul_of_inRange (inRange_of_abs hs h12 n1),
      mul_of_inRange (inRange_of_abs hs h12 n2), ok_bind_false]
    rfl
  | fast =>
    have n1 : (f.num * g.num).natAbs ≤ K₁ * K₂ := by
      rw [Int.natAbs_mul]; exact Nat.mul_le_mul hf.1 hg.1
    have n2 : (f.den * g.den).natAbs ≤ K₁ * K₂ := by
      rw [Int.natAbs_mul]; exact Nat.mul_le_mul hf.2 hg.2
    refine ⟨⟨_, _⟩, ?_, n1, n2⟩
    simp only [Ops.arith, Fast.arith, Fast.multipliesFF, mul_of_inRange (inRange_of_abs hs h12 n1),
      mul_of_inRange (inRange_of_abs hs h12 n2), ok_bind_false]
    rfl
  | reducedInput o mode ih =>
    obtain ⟨f', hf', bf⟩ := red mode h1 hf
    obtain ⟨g', hg', bg⟩ := red mode h2 hg
    obtain ⟨r, hr, br⟩ := ih bf bg
    exact ⟨r, by simp only [Ops.arith, Args.reduce, hf', hg', ok_bind_false, Res.pure_def, hr], br⟩
  | reducedOutput o mode ih =>
    obtain ⟨r, hr, br⟩ := ih hf hg
    obtain ⟨s, hs, bs⟩ := red mode h12 br
    exact ⟨s, by simp only [Ops.arith, hr, ok_bind_false, hs], bs⟩

namespace Parse

theorem base_nat (l : FloatLit) : l.base = 10 ∨ l.base = 16 := by
  unfold FloatLit.base; split <;> simp

theorem base_small (l : FloatLit) : T.conv (l.base : ℤ) ⇓ (l.base : ℤ) := by
  rcases base_nat l with h | h <;> rw [h] <;> exact conv_small (by decide)

theorem whole_seq {l : FloatLit} (h : l.Valid) : l.whole = [] ∨ DigitSeq (dset (l.base : ℤ)) l.whole := by
  rw [dset_base]; exact h.whole

theorem frac_seq {l : FloatLit} (h : l.Valid) : l.frac = [] ∨ DigitSeq (dset (l.base : ℤ)) l.frac := by
  rw [dset_base]; exact h.frac

/-- The digits of the exponent, if any. -/
def expDigits (l : FloatLit) : List Char := l.exp.elim [] (·.digits)

theorem exp_seq {l : FloatLit} (h : l.Valid) : expDigits l = [] ∨
    DigitSeq (dset ((10 : ℕ) : ℤ)) (expDigits l) := by
  unfold expDigits
  rcases he : l.exp with _ | e
  · exact Or.inl rfl
  · exact Or.inr (h.exp_digits e he)

theorem litScan_negative {l : FloatLit} (p : ℤ) : (litScan l p).negative =
    l.exp.elim false (fun e => decide (e.sign = some '-')) := rfl

theorem expValue_eq (l : FloatLit) : l.expValue =
    (if l.exp.elim false (fun e => decide (e.sign = some '-')) then -1 else 1) *
      (seqValue 10 (expDigits l) : ℤ) := by
  unfold FloatLit.expValue expDigits
  rcases he : l.exp with _ | e
  · simp [seqValue, digits]
  · simp only [Option.elim_some, decide_eq_true_eq]
    split <;> simp

theorem expBase_eq (l : FloatLit) (p : ℤ) : (if (litScan l p).base = 10 then 10 else 2) =
    (l.expBase : ℤ) := by
  show (if (l.base : ℤ) = 10 then (10 : ℤ) else 2) = _
  unfold FloatLit.base FloatLit.expBase
  split <;> simp_all

theorem expBase_pos (l : FloatLit) : l.expBase ≠ 0 := by
  unfold FloatLit.expBase; split <;> simp

theorem expBase_inRange (l : FloatLit) : T.InRange (l.expBase : ℤ) := by
  unfold FloatLit.expBase
  split <;> exact inRange_of_nonneg_le (by decide) (by decide)

/-- `scanValue` on the scan of a literal, in terms of the literal. -/
theorem scanValue_lit (l : FloatLit) (p : ℤ) : scanValue T o (litScan l p) = (do
    let whole ← digitSequenceToInt T l.whole (l.base : ℤ)
    let num ← digitSequenceToInt T l.frac (l.base : ℤ)
    let prec ← T.conv p
    let den ← mathPow T (l.base : ℤ) prec
    let e ← digitSequenceToInt i32 (expDigits l) 10
    let exponent ← i32.mul
      (if l.exp.elim false (fun e => decide (e.sign = some '-')) then -1 else 1) e
    let sum ← Fraction.arith T T o .plus (.rf whole (Fraction.mk num den))
    let power ← Fraction.pow T (l.expBase : ℤ) exponent
    Fraction.arith T T o .multiplies (.ff sum power)) := by
  unfold scanValue
  rw [expBase_eq]
  have : T.conv (litScan l p).base = .ok (l.base : ℤ) false := base_small l
  rw [this, ok_bind_false]
  rfl

theorem toFraction_lit {l : FloatLit} (hv : l.Valid) (hp : l.point = true) :
    toFraction T o l.render = (precision l.frac >>= fun p => scanValue T o (litScan l p)) := by
  unfold toFraction
  rw [scan_complete hv hp]
  cases hq : precision l.frac with
  | fault k => simp
  | ok p w =>
    have e : ∀ {α β : Type} (a : α) (f : α → Res β), ((Res.ok a w) >>= f) =
      Res.bind (Res.ok a w) f := fun _ _ => rfl
    simp only [e, Res.bind, Res.pure_def, Bool.or_false]

theorem value_eq {l : FloatLit} {sum pw r : Raw}
    (h1 : Denotes sum ((seqValue l.base l.whole : ℚ) +
      seqValue l.base l.frac / (l.base : ℚ) ^ (digits l.frac).length))
    (h2 : Denotes pw ((l.expBase : ℚ) ^ l.expValue))
    (h3 : Fraction.arith T T o .multiplies (.ff sum pw) ⇓ r) : Denotes r l.value := by
  rw [Fraction.arith_self] at h3
  exact Ops.arith_exact (a := .ff sum pw) ⟨h1, h2⟩ h3

theorem toFraction_exact {l : FloatLit} (hv : l.Valid) (hp : l.point = true) {r : Raw}
    (h : toFraction T o l.render ⇓ r) : Denotes r l.value := by
  rw [toFraction_lit hv hp] at h
  obtain ⟨p, h1, g1⟩ := bind_eq_clean.1 h
  obtain ⟨p', w', h1', hpc, -⟩ := precision_ok l.frac
  rw [h1] at h1'
  cases h1'
  have hpc := hpc rfl
  rw [scanValue_lit] at g1
  obtain ⟨whole, h2, g2⟩ := bind_eq_clean.1 g1
  obtain ⟨num, h3, g3⟩ := bind_eq_clean.1 g2
  obtain ⟨prec, h4, g4⟩ := bind_eq_clean.1 g3
  obtain ⟨den, h5, g5⟩ := bind_eq_clean.1 g4
  obtain ⟨e, h6, g6⟩ := bind_eq_clean.1 g5
  obtain ⟨ex, h7, g7⟩ := bind_eq_clean.1 g6
  obtain ⟨sum, h8, g8⟩ := bind_eq_clean.1 g7
  obtain ⟨pw, h9, g9⟩ := bind_eq_clean.1 g8
  obtain ⟨-, rfl⟩ := (digitSequence_clean (base_nat l) (whole_seq hv)).1 h2
  obtain ⟨-, rfl⟩ := (digitSequence_clean (base_nat l) (frac_seq hv)).1 h3
  obtain ⟨-, rfl⟩ := conv_clean.1 h4
  have hb := (conv_clean.1 (base_small (T := T) l)).1
  rw [hpc] at h5
  obtain ⟨-, rfl⟩ := (mathPow_clean hb _).1 h5
  obtain ⟨-, rfl⟩ := (digitSequence_clean (Or.inl rfl) (exp_seq hv)).1 h6
  obtain ⟨hir, rfl⟩ := mul_clean.1 h7
  rw [← expValue_eq] at h9 hir
  have hpow := (C36_pow_exact (expBase_inRange l) hir h9).1
    (fun hh => expBase_pos l (by exact_mod_cast hh.1))
  rw [Fraction.arith_self] at h8
  have hb0 : l.base ≠ 0 := by rcases base_nat l with h | h <;> rw [h] <;> decide
  have hb0' : (l.base : ℤ) ≠ 0 := by exact_mod_cast hb0
  have hsum := Ops.arith_exact (a := .rf _ _) (x := (seqValue l.base l.whole : ℚ))
    (y := seqValue l.base l.frac / (l.base : ℚ) ^ (digits l.frac).length)
    ⟨by push_cast; rfl, ⟨pow_ne_zero _ hb0', by simp [Fraction.mk]⟩⟩ h8
  refine value_eq hsum ?_ g9
  simpa using hpow

theorem pow_count_lt (hb : T.bits ≤ 2147483648) {b n : ℕ} (hb2 : 2 ≤ b)
    (h : T.InRange ((b : ℤ) ^ n)) : n ≤ 2147483647 := by
  have h1 : ((2 ^ n : ℕ) : ℤ) ≤ (b : ℤ) ^ n := by
    exact_mod_cast Nat.pow_le_pow_left hb2 n
  have hr : T.InRange ((2 ^ n : ℕ) : ℤ) := by
    refine ⟨T.min_le_zero.trans (Int.natCast_nonneg _), h1.trans h.2⟩
  have := ((two_pow_inRange_iff n).1 hr).1
  omega

/-- For a signed type, finishing on a literal is finishing without any wrap. -/
theorem toFraction_noWrap (hs : T.signed = true) (hbits : T.bits ≤ 2147483648) {l : FloatLit}
    (hv : l.Valid) (hp : l.point = true) : (toFraction T o l.render).NoWrap := by
  intro r h
  rw [toFraction_lit hv hp] at h
  obtain ⟨p, w1, w2, h1, g1, hw⟩ := bind_eq_ok.1 h
  obtain ⟨p', w', h1', hpc, hpl⟩ := precision_ok l.frac
  rw [h1] at h1'
  cases h1'
  rw [scanValue_lit] at g1
  obtain ⟨whole, w3, w4, h2, g2, q2⟩ := bind_eq_ok.1 g1
  obtain ⟨num, w5, w6, h3, g3, q3⟩ := bind_eq_ok.1 g2
  have e3 : w3 = false := (digitLoop_noWrap hs (digitSeq_mem_reverse (whole_seq hv)) _ _).flag h2
  have e5 : w5 = false := (digitLoop_noWrap hs (digitSeq_mem_reverse (frac_seq hv)) _ _).flag h3
  subst e3 e5
  obtain ⟨hin, -⟩ := (digitSequence_clean (base_nat l) (frac_seq hv)).1 h3
  have hlen := pow_count_lt hbits (by rcases base_nat l with h | h <;> omega) hin
  have e1 := hpl hlen
  subst e1
  have hpc := hpc rfl
  subst hpc
  rw [conv_small hlen, ok_bind_false] at g3
  have hf : w6 = false := by
    refine NoWrap.flag ?_ g3
    refine (mathPow_noWrap hs _ _).bind fun den => ?_
    refine (digitLoop_noWrap (T := i32) rfl (b := 10) (digitSeq_mem_reverse (exp_seq hv)) _ _).bind
      fun e => ?_
    intro r hr
    obtain ⟨ex, w7, w8, h7, hr, hw⟩ := bind_eq_ok.1 hr
    have hir : i32.InRange ex := mul_inRange h7
    have e7 : w7 = false := (IntTy.arith_noWrap (T := i32) rfl _).flag h7
    have e8 : w8 = false := by
      refine NoWrap.flag ?_ hr
      exact (Fraction.arith_noWrap hs _ _).bind fun _ => (Fraction.pow_noWrap hs hir).bind fun _ =>
        Fraction.arith_noWrap hs _ _
    rw [e7, e8] at hw; cases hw
  rw [q2, q3, hf] at hw
  cases hw

theorem digitAsInt_noThrow (c : Char) : (digitAsInt T c).NoThrow := by
  unfold digitAsInt; nothrow

theorem digitLoop_noThrow (b : ℤ) (s : List Char) (res p : ℤ) :
    (digitLoop T b s res p).NoThrow := by
  induction s generalizing res p with
  | nil => exact NoThrow.pure _
  | cons c s ih =>
    rw [digitLoop]
    split
    · exact ih _ _
    · exact (digitAsInt_noThrow c).bind fun _ => (arith_noThrow _).bind fun _ =>
        (arith_noThrow _).bind fun _ => (arith_noThrow _).bind fun _ => ih _ _

theorem scanValue_noThrow (r : Scan) : (scanValue T o r).NoThrow := by
  unfold scanValue
  exact (conv_noThrow _).bind fun _ => (digitLoop_noThrow _ _ _ _).bind fun _ =>
    (digitLoop_noThrow _ _ _ _).bind fun _ => (conv_noThrow _).bind fun _ =>
    (mathPow_noThrow _ _).bind fun _ => (digitLoop_noThrow _ _ _ _).bind fun _ =>
    (arith_noThrow _).bind fun _ => (Fraction.arith_noThrow _ _ _ _ _).bind fun _ =>
    (Fraction.pow_noThrow _ _).bind fun _ => Fraction.arith_noThrow _ _ _ _ _

theorem toFraction_noThrow (s : List Char) : (toFraction T o s).NoThrow := by
  unfold toFraction
  obtain ⟨q, w, h, -⟩ := scan_sound s
  rw [h]
  refine NoThrow.bind (by intro k h; cases h) fun q => ?_
  cases q with
  | none => exact NoThrow.pure _
  | some r => exact scanValue_noThrow r

/-! ## Progress -/

theorem revValue_lt {b : ℕ} (hb : b = 10 ∨ b = 16) {s : List Char}
    (hs : ∀ c ∈ s, c ∈ dset (b : ℤ) ∨ c = '\'') : revValue b s < b ^ (digits s).length := by
  induction s with
  | nil => simp [revValue, digits]
  | cons c s ih =>
    have ih := ih (fun c hc => hs c (List.mem_cons_of_mem _ hc))
    rw [revValue]
    split
    · rename_i hq; rw [hq, digits_sep]; exact ih
    · rename_i hq
      have := digitValue_lt_base hb ((hs c (by simp)).resolve_right hq)
      rw [digits_cons _ hq, List.length_cons, Nat.pow_succ]
      nlinarith

theorem seqValue_lt {b : ℕ} (hb : b = 10 ∨ b = 16) {s : List Char}
    (hs : s = [] ∨ DigitSeq (dset (b : ℤ)) s) : seqValue b s < b ^ (digits s).length := by
  have := revValue_lt hb (digitSeq_mem_reverse hs)
  rwa [revValue_reverse, digits_reverse_length] at this

theorem toFraction_progress (hs : T.signed = true) {l : FloatLit} (hv : l.Valid)
    (hp : l.point = true) (he : (digits (expDigits l)).length ≤ 9)
    (hfl : (digits l.frac).length ≤ 2147483647)
    (hfit : ((l.base ^ ((digits l.whole).length + (digits l.frac).length) *
      l.expBase ^ l.expValue.natAbs : ℕ) : ℤ) ≤ T.max) :
    ∃ r, toFraction T o l.render ⇓ r := by
  have hbn := base_nat l
  have hb0 : 0 < l.base := by omega
  have hx0 : 0 < l.expBase := Nat.pos_of_ne_zero (expBase_pos l)
  obtain ⟨m, hm⟩ : ∃ m, m = (digits l.whole).length := ⟨_, rfl⟩
  obtain ⟨n, hn⟩ : ∃ n, n = (digits l.frac).length := ⟨_, rfl⟩
  rw [← hm, ← hn] at hfit
  rw [← hn] at hfl
  set W := l.base ^ (m + n) with hW
  set P := l.expBase ^ l.expValue.natAbs with hP
  have hW0 : 0 < W := Nat.pow_pos hb0
  have hP0 : 0 < P := Nat.pow_pos hx0
  have hWm : (W : ℤ) ≤ T.max := le_trans (by exact_mod_cast Nat.le_mul_of_pos_right W hP0) hfit
  have hPm : (P : ℤ) ≤ T.max := le_trans (by exact_mod_cast Nat.le_mul_of_pos_left P hW0) hfit
  have inR : ∀ k : ℕ, k ≤ m + n → T.InRange ((l.base : ℤ) ^ k) := by
    intro k hk
    refine inRange_of_abs hs hWm ?_
    rw [Int.natAbs_pow, Int.natAbs_natCast]
    exact Nat.pow_le_pow_right hb0 hk
  have h1 : precision l.frac ⇓ (n : ℤ) := by
    obtain ⟨p, w, h, hc, hl⟩ := precision_ok l.frac
    have := hl (by omega); subst this
    rw [h, hc rfl, hn]
  have h2 : digitSequenceToInt T l.whole (l.base : ℤ) ⇓ (seqValue l.base l.whole : ℤ) :=
    (digitSequence_clean hbn (whole_seq hv)).2 ⟨inR _ (by omega), rfl⟩
  have h3 : digitSequenceToInt T l.frac (l.base : ℤ) ⇓ (seqValue l.base l.frac : ℤ) :=
    (digitSequence_clean hbn (frac_seq hv)).2 ⟨inR _ (by omega), rfl⟩
  have h4 : T.conv (n : ℤ) ⇓ (n : ℤ) := conv_small hfl
  have hb := (conv_clean.1 (base_small (T := T) l)).1
  have h5 : mathPow T (l.base : ℤ) n ⇓ ((l.base : ℤ) ^ n) :=
    (mathPow_clean hb _).2 ⟨inR n (by omega), rfl⟩
  have hten : (10 : ℤ) ^ (digits (expDigits l)).length ≤ 1000000000 := by
    calc (10 : ℤ) ^ (digits (expDigits l)).length ≤ 10 ^ 9 := pow_le_pow_right₀ (by decide) he
      _ = 1000000000 := by norm_num
  have hten0 : (0 : ℤ) ≤ ((10 : ℕ) : ℤ) ^ (digits (expDigits l)).length := by positivity
  have h6 : digitSequenceToInt i32 (expDigits l) 10 ⇓ (seqValue 10 (expDigits l) : ℤ) :=
    (digitSequence_clean (Or.inl rfl) (exp_seq hv)).2
      ⟨i32_inRange.2 ⟨le_trans (by decide) hten0, by push_cast; omega⟩, rfl⟩
  have hev : (seqValue 10 (expDigits l) : ℤ) < 1000000000 := by
    have := seqValue_lt (Or.inl rfl) (exp_seq hv)
    have h' : ((seqValue 10 (expDigits l) : ℕ) : ℤ) < (10 : ℤ) ^ (digits (expDigits l)).length := by
      exact_mod_cast this
    omega
  have hex := expValue_eq l
  have hexr : i32.InRange l.expValue ∧ l.expValue ≠ -2147483648 := by
    rw [i32_inRange, hex]
    have : (0 : ℤ) ≤ seqValue 10 (expDigits l) := Int.natCast_nonneg _
    split <;> omega
  have h7 : i32.mul (if l.exp.elim false (fun e => decide (e.sign = some '-')) then -1 else 1)
      (seqValue 10 (expDigits l) : ℤ) ⇓ l.expValue :=
    mul_clean.2 ⟨by rw [← hex]; exact hexr.1, hex⟩
  -- the sum
  have hw := seqValue_lt hbn (whole_seq hv)
  have hfv := seqValue_lt hbn (frac_seq hv)
  rw [← hm] at hw
  rw [← hn] at hfv
  have hbn0 : 0 < l.base ^ n := Nat.pow_pos hb0
  have eW : W = l.base ^ m * l.base ^ n := by rw [hW, pow_add]
  have hnle : l.base ^ n ≤ W := by
    rw [eW]; exact Nat.le_mul_of_pos_left _ (Nat.pow_pos hb0)
  let f : Raw := ⟨(seqValue l.base l.frac : ℤ), (l.base : ℤ) ^ n⟩
  have hfd : f.den.natAbs = l.base ^ n := by
    simp [f, Int.natAbs_pow]
  have hf : f.AbsLe W := ⟨by simp [f]; omega, by rw [hfd]; exact hnle⟩
  have hbnQ : (0 : ℚ) < (l.base : ℚ) ^ n := by exact_mod_cast hbn0
  have hden : Denotes f ((seqValue l.base l.frac : ℚ) / (l.base : ℚ) ^ n) := by
    refine ⟨?_, by simp [f]⟩
    simp only [f]; exact pow_ne_zero _ (by exact_mod_cast hb0.ne')
  have hsumle : seqValue l.base l.whole * l.base ^ n + seqValue l.base l.frac ≤ W := by
    rw [eW]; nlinarith
  obtain ⟨sum, h8, -, hsumA⟩ := Ops.shift_progress (o := o) hs hWm hf hden
    (n := (seqValue l.base l.whole : ℤ))
    (v := (seqValue l.base l.whole : ℤ) + (seqValue l.base l.frac : ℚ) / (l.base : ℚ) ^ n)
    (by
      rw [hfd, Int.natAbs_natCast]
      have : seqValue l.base l.whole * l.base ^ n ≤ W := by omega
      exact_mod_cast this)
    (by
      rw [hfd, abs_of_nonneg (by positivity)]
      have : ((((seqValue l.base l.whole : ℕ) : ℤ) : ℚ) +
          (seqValue l.base l.frac : ℚ) / (l.base : ℚ) ^ n) * ((l.base ^ n : ℕ) : ℚ) =
          ((seqValue l.base l.whole * l.base ^ n + seqValue l.base l.frac : ℕ) : ℚ) := by
        push_cast; field_simp
      rw [this]; exact_mod_cast hsumle)
    (op := .plus) (a := .rf (seqValue l.base l.whole : ℤ) f) (Or.inr ⟨rfl, rfl, rfl⟩)
  -- the power
  have hpr : T.InRange ((l.expBase : ℤ) ^ l.expValue.natAbs) := by
    refine inRange_of_abs hs hPm ?_
    rw [Int.natAbs_pow, Int.natAbs_natCast]
  have h9 : Fraction.pow T (l.expBase : ℤ) l.expValue ⇓
      (if 0 ≤ l.expValue then ⟨(P : ℤ), 1⟩ else ⟨1, (P : ℤ)⟩) := by
    rw [Fraction.pow_eq hexr.1 hexr.2, (mathPow_clean (expBase_inRange l) _).2 ⟨hpr, rfl⟩, ok_bind_false]
    have : (P : ℤ) = (l.expBase : ℤ) ^ l.expValue.natAbs := by rw [hP]; push_cast; rfl
    rw [this]; rfl
  obtain ⟨r, h10, -⟩ := Ops.mul_progress (o := o) (f := sum)
    (g := if 0 ≤ l.expValue then ⟨(P : ℤ), 1⟩ else ⟨1, (P : ℤ)⟩) hs hWm hPm hfit hsumA
    (by split <;> constructor <;> simp <;> omega)
  refine ⟨r, ?_⟩
  rw [toFraction_lit hv hp, h1, ok_bind_false, scanValue_lit, h2, ok_bind_false, h3, ok_bind_false, h4,
    ok_bind_false, h5, ok_bind_false, h6, ok_bind_false, h7, ok_bind_false, Fraction.arith_self]
  show (o.arith T .plus (.rf _ f) >>= _) = _
  rw [h8, ok_bind_false, h9, ok_bind_false, Fraction.arith_self, h10]

/-! ## Separators -/

theorem digitLoop_filter (b : ℤ) (s : List Char) (res p : ℤ) :
    digitLoop T b (digits s) res p = digitLoop T b s res p := by
  induction s generalizing res p with
  | nil => rfl
  | cons c s ih =>
    by_cases hq : c = '\''
    · subst hq; rw [digits_sep, digitLoop, if_pos rfl, ih]
    · rw [digits_cons _ hq, digitLoop, digitLoop, if_neg hq, if_neg hq]
      simp only [ih]

theorem digitSequence_filter (s : List Char) (b : ℤ) :
    digitSequenceToInt T (digits s) b = digitSequenceToInt T s b := by
  unfold digitSequenceToInt
  rw [← digitLoop_filter b s.reverse, show digits s.reverse = (digits s).reverse from
    List.filter_reverse]

theorem precision_filter (s : List Char) : precision (digits s) = precision s := by
  have key : ∀ (s : List Char) (n : ℤ),
      (digits s).foldlM (fun n c => if c ≠ '\'' then u32.add n 1 else pure n) n =
      s.foldlM (fun n c => if c ≠ '\'' then u32.add n 1 else pure n) n := by
    intro s
    induction s with
    | nil => intro n; rfl
    | cons c s ih =>
      intro n
      by_cases hq : c = '\''
      · subst hq
        rw [digits_sep, List.foldlM_cons, if_neg (by simp), Res.pure_def, ok_bind_false, ih]
      · rw [digits_cons _ hq, List.foldlM_cons, List.foldlM_cons]
        simp only [ih]
  unfold precision
  rw [key]

theorem digitSeq_filter {D s : List Char} (hD : '\'' ∉ D) (h : DigitSeq D s) :
    DigitSeq D (digits s) := by
  have dg : ∀ {d}, d ∈ D → digits [d] = [d] := by
    intro d hd
    have : d ≠ '\'' := by rintro rfl; exact hD hd
    simp [digits, this]
  have ap : ∀ s t, digits (s ++ t) = digits s ++ digits t := fun s t => List.filter_append ..
  induction h with
  | digit hd => rw [dg hd]; exact .digit hd
  | snoc _ hd ih => rw [ap, dg hd]; exact .snoc ih hd
  | sep _ hd ih => rw [ap, digits_sep, dg hd]; exact .snoc ih hd

/-- The literal without its separators. -/
def stripLit (l : FloatLit) : FloatLit :=
  { l with
    whole := digits l.whole
    frac := digits l.frac
    exp := l.exp.map fun e => { e with digits := digits e.digits } }

theorem digits_of_ne {c : Char} (h : c ≠ '\'') : digits [c] = [c] := by simp [digits, h]

theorem digits_append (s t : List Char) : digits (s ++ t) = digits s ++ digits t :=
  List.filter_append ..

theorem expRender_strip {base : ℤ} {exp : Option Exponent} (h : ExpValid base exp) :
    expRender (exp.map fun e => { e with digits := digits e.digits }) = digits (expRender exp) := by
  rcases exp with _ | ⟨m, sign, ds⟩
  · rfl
  · obtain ⟨hm, hs, -⟩ := h _ rfl
    simp only at hm hs
    have hmq : m ≠ '\'' := by
      rintro rfl
      unfold markers at hm; split at hm <;> simp at hm
    have hsq : digits sign.toList = sign.toList := by
      rcases sign with _ | c
      · rfl
      · refine digits_of_ne ?_
        rcases hs c rfl with rfl | rfl <;> decide
    simp only [Option.map_some, expRender, Exponent.render]
    rw [digits_cons _ hmq, digits_append, hsq]

theorem expValid_of {l : FloatLit} (hv : l.Valid) : ExpValid (l.base : ℤ) l.exp := by
  intro e he
  refine ⟨?_, hv.sign e he, hv.exp_digits e he⟩
  rw [markers_base]; exact hv.marker e he

theorem stripLit_render {l : FloatLit} (hv : l.Valid) (hp : l.point = true) :
    (stripLit l).render = digits l.render := by
  rw [render_pointed (l := stripLit l) hp, render_pointed hp]
  simp only [stripLit]
  rw [expRender_strip (expValid_of hv), digits_append, digits_append,
    digits_cons _ (by decide : '.' ≠ '\''), digits_append]
  congr 1
  rcases hx : l.hexPrefix with _ | c
  · rfl
  · rcases hv.hexPrefix c hx with rfl | rfl <;> rfl

theorem stripLit_valid {l : FloatLit} (hv : l.Valid) : (stripLit l).Valid := by
  have hq : '\'' ∉ l.digitSet := by rw [← dset_base]; exact quote_not_mem _
  have hd : ∀ s, s = [] ∨ DigitSeq l.digitSet s → digits s = [] ∨ DigitSeq l.digitSet (digits s) := by
    rintro s (rfl | h)
    · exact Or.inl rfl
    · exact Or.inr (digitSeq_filter hq h)
  have hne : ∀ s, s = [] ∨ DigitSeq l.digitSet s → s ≠ [] → digits s ≠ [] := by
    rintro s (rfl | h) hn
    · exact absurd rfl hn
    · exact digitSeq_ne_nil (digitSeq_filter hq h)
  refine ⟨hv.hexPrefix, hd _ hv.whole, hd _ hv.frac, ?_, ?_, ?_, ?_, ?_, ?_⟩
  · rcases hv.some_digit with h | h
    · exact Or.inl (hne _ hv.whole h)
    · exact Or.inr (hne _ hv.frac h)
  · intro h; simp only [stripLit]; rw [hv.frac_point h]; rfl
  · intro h; simpa [stripLit] using hv.exp_needed h
  · intro e he
    simp only [stripLit, Option.mem_def, Option.map_eq_some_iff] at he
    obtain ⟨e', he', rfl⟩ := he
    exact hv.marker e' he'
  · intro e he
    simp only [stripLit, Option.mem_def, Option.map_eq_some_iff] at he
    obtain ⟨e', he', rfl⟩ := he
    exact hv.sign e' he'
  · intro e he
    simp only [stripLit, Option.mem_def, Option.map_eq_some_iff] at he
    obtain ⟨e', he', rfl⟩ := he
    exact digitSeq_filter (by decide) (hv.exp_digits e' he')

theorem toFraction_strip {l : FloatLit} (hv : l.Valid) (hp : l.point = true) :
    toFraction T o (digits l.render) = toFraction T o l.render := by
  rw [← stripLit_render hv hp, toFraction_lit (stripLit_valid hv) hp, toFraction_lit hv hp]
  have e1 : precision (stripLit l).frac = precision l.frac := precision_filter _
  rw [e1]
  congr 1
  funext p
  rw [scanValue_lit, scanValue_lit]
  have e2 : ∀ b, digitSequenceToInt T (stripLit l).whole b = digitSequenceToInt T l.whole b :=
    digitSequence_filter _
  have e3 : ∀ b, digitSequenceToInt T (stripLit l).frac b = digitSequenceToInt T l.frac b :=
    digitSequence_filter _
  have e4 : expDigits (stripLit l) = digits (expDigits l) := by
    unfold expDigits stripLit
    rcases l.exp with _ | e <;> rfl
  have e5 : (stripLit l).exp.elim false (fun e => decide (e.sign = some '-')) =
      l.exp.elim false (fun e => decide (e.sign = some '-')) := by
    unfold stripLit
    rcases l.exp with _ | e <;> rfl
  have e6 : (stripLit l).base = l.base := rfl
  have e7 : (stripLit l).expBase = l.expBase := rfl
  rw [e2, e3, e4, digitSequence_filter, e5, e6, e7]

end Parse
end Ieme

namespace Ieme

open Res IntTy Lit Parse

variable {T : IntTy} {o : Ops} {s : List Char} {r : Raw}

theorem digitSequenceToInt_unsigned (hs : T.signed = false) {b : ℕ} (hd : DigitSeq (dset (b : ℤ)) s)
    (hv : T.InRange (seqValue b s : ℤ)) : ∃ w, digitSequenceToInt T s b = .ok (seqValue b s : ℤ) w := by
  obtain ⟨r, w, h1, h2, h3⟩ := digitSequence_unsigned hs (Or.inr hd)
  refine ⟨w, ?_⟩
  rw [h1]
  congr 1
  have e := h3
  unfold Int.ModEq at e
  have hmax : T.max = ((2 ^ T.bits : ℕ) : ℤ) - 1 := by simp [IntTy.max, hs]
  have a0 := h2.nonneg hs
  have b0 := hv.nonneg hs
  have a1 := h2.2
  have b1 := hv.2
  rw [hmax] at a1 b1
  rwa [Int.emod_eq_of_lt a0 (by omega), Int.emod_eq_of_lt b0 (by omega)] at e

end Ieme
