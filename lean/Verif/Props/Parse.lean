import Verif.Lemmas.ParseValue

/-!
# Parsing floating-point literals: properties C50–C57

`Parse.toFraction T o s` is `floating_point_string_to_fraction<T, o>(s)`, `Parse.dec s` is
`operator""_dec(s)`.  `IsFloatLit`, `IsPointedFloatLit`, `FloatLit.value`, `Lit.DigitSeq` and
`Lit.seqValue` are the grammar of the C++ standard (`Verif/Spec/Parse.lean`).
-/

namespace Ieme

open Res IntTy Lit Parse

variable {T : IntTy} {o : Ops} {s : List Char} {r : Raw}

/-- `4'9.3'9e-1'0` -/
def exampleLit : FloatLit :=
  ⟨none, ['4', '\'', '9'], true, ['3', '\'', '9'], some ⟨'e', some '-', ['1', '\'', '0']⟩⟩

/-- `0xC.8P+4` -/
def exampleHexLit : FloatLit := ⟨some 'x', ['C'], true, ['8'], some ⟨'P', some '+', ['4']⟩⟩

/-- `1e5` -/
def examplePointless : FloatLit := ⟨none, ['1'], false, [], some ⟨'e', none, ['5']⟩⟩

/-- `0x1p3` -/
def exampleHexPointless : FloatLit := ⟨some 'x', ['1'], false, [], some ⟨'p', none, ['3']⟩⟩

theorem exampleLit_valid : exampleLit.Valid :=
  ⟨by simp [exampleLit], Or.inr ((isValid_iff (base := 10)).1 (by decide)),
    Or.inr ((isValid_iff (base := 10)).1 (by decide)), by simp [exampleLit], by simp [exampleLit],
    by simp [exampleLit], by simp [exampleLit], by simp [exampleLit],
    fun e he => by cases he; exact (isValid_iff (base := 10)).1 (by decide)⟩

theorem exampleHexLit_valid : exampleHexLit.Valid :=
  ⟨by simp [exampleHexLit], Or.inr ((isValid_iff (base := 16)).1 (by decide)),
    Or.inr ((isValid_iff (base := 16)).1 (by decide)), by simp [exampleHexLit], by simp [exampleHexLit],
    by simp [exampleHexLit], by simp [exampleHexLit], by simp [exampleHexLit],
    fun e he => by cases he; exact (isValid_iff (base := 10)).1 (by decide)⟩

theorem examplePointless_valid : examplePointless.Valid :=
  ⟨by simp [examplePointless], Or.inr ((isValid_iff (base := 10)).1 (by decide)),
    Or.inl rfl, by simp [examplePointless], by simp [examplePointless],
    by simp [examplePointless], by simp [examplePointless], by simp [examplePointless],
    fun e he => by cases he; exact (isValid_iff (base := 10)).1 (by decide)⟩

theorem exampleHexPointless_valid : exampleHexPointless.Valid :=
  ⟨by simp [exampleHexPointless], Or.inr ((isValid_iff (base := 16)).1 (by decide)),
    Or.inl rfl, by simp [exampleHexPointless], by simp [exampleHexPointless],
    by simp [exampleHexPointless], by simp [exampleHexPointless], by simp [exampleHexPointless],
    fun e he => by cases he; exact (isValid_iff (base := 10)).1 (by decide)⟩

/-! ## C50 -/

/-- **C50** Scanning returns normally on every string: no access out of bounds, no fault of
any other kind. -/
theorem C50_scan_total (s : List Char) : ∃ found w, scan s = .ok found w := by
  obtain ⟨o, w, h, -⟩ := scan_sound s
  exact ⟨o, w, h⟩

/-- **C50** In particular it never reads out of bounds; for the whole conversion see
`C50_conversion_in_bounds`. -/
theorem C50_no_out_of_bounds (s : List Char) : scan s ≠ .fault .outOfBounds := by
  obtain ⟨o, w, h⟩ := C50_scan_total s
  rw [h]; intro h; cases h

/-- The boundary cases do reach the accesses: an exponent marker at the end, a lone sign, an
empty remainder. -/
example : scan "1.0e".toList ⇓ none ∧ scan "1.0e+".toList ⇓ none ∧ scan "0x.".toList ⇓ none ∧
    scan "".toList ⇓ none ∧ scan ".".toList ⇓ none ∧
    View.removePrefix "ab".toList 3 = .fault .outOfBounds := by decide

/-! ## C51 -/

/-- **C51** The scanner accepts exactly the literals with a radix point. -/
theorem C51_accepts_iff (s : List Char) :
    (∃ found w, scan s = .ok (some found) w) ↔ IsPointedFloatLit s := by
  constructor
  · rintro ⟨f, w, h⟩
    obtain ⟨o, w', h1, h2⟩ := scan_sound s
    rw [h] at h1; cases h1
    exact h2 f rfl
  · rintro ⟨l, hv, hp, rfl⟩
    rw [scan_complete hv hp]
    obtain ⟨p, w, h, -⟩ := precision_ok l.frac
    exact ⟨_, _, by rw [h]; exact bind_eq_ok.2 ⟨_, _, _, rfl, rfl, rfl⟩⟩

/-- **C51** Every other string converts to an undefined fraction. -/
theorem C51_rejected_undefined (hs : ¬ IsPointedFloatLit s) :
    ∃ w, toFraction T o s = .ok ⟨0, 0⟩ w := by
  obtain ⟨f, w, h1, h2⟩ := scan_sound s
  rcases f with _ | f
  · exact ⟨w || false, by rw [toFraction, h1]; exact bind_eq_ok.2 ⟨_, _, _, rfl, rfl, rfl⟩⟩
  · exact absurd (h2 f rfl) hs

/-- **C51** A literal whose conversion finishes cleanly converts to a defined fraction. -/
theorem C51_accepted_defined (hs : IsPointedFloatLit s) (h : toFraction T o s ⇓ r) : r.den ≠ 0 := by
  obtain ⟨l, hv, hp, rfl⟩ := hs
  exact (toFraction_exact hv hp h).1

/-- **C51** For a signed type the result tells the two apart: among the strings whose
conversion finishes, the literals are those with a defined result. -/
theorem C51_defined_iff (hs : T.signed = true) (hb : T.bits ≤ 2147483648) {w : Bool}
    (h : toFraction T o s = .ok r w) : r.den ≠ 0 ↔ IsPointedFloatLit s := by
  constructor
  · intro hd
    by_contra hc
    obtain ⟨w', h'⟩ := C51_rejected_undefined (T := T) (o := o) hc
    rw [h] at h'; cases h'
    exact hd rfl
  · intro hl
    obtain ⟨l, hv, hp, rfl⟩ := hl
    have := (toFraction_noWrap hs hb hv hp).flag h
    subst this
    exact (toFraction_exact hv hp h).1

/-- **C51** Not so for an unsigned type: a valid literal can wrap to an undefined fraction. -/
theorem C51_unsigned_undefined : IsPointedFloatLit "0x0.00000000p0".toList ∧
    toFraction u32 .defaults "0x0.00000000p0".toList = .ok ⟨0, 0⟩ true := by
  refine ⟨⟨⟨some 'x', ['0'], true, ['0', '0', '0', '0', '0', '0', '0', '0'], some ⟨'p', none, ['0']⟩⟩,
    ⟨by simp, Or.inr ((isValid_iff (base := 16)).1 (by decide)),
      Or.inr ((isValid_iff (base := 16)).1 (by decide)), by simp, by simp, by simp, by simp, by simp,
      fun e he => by cases he; exact (isValid_iff (base := 10)).1 (by decide)⟩, rfl, by decide⟩,
    by decide +kernel⟩

example : IsPointedFloatLit "4'9.3'9e-1'0".toList ∧ IsPointedFloatLit "0xC.8P+4".toList ∧
    toFraction i64 .defaults "4'9.3'9e-1'0".toList ⇓ ⟨4939, 1000000000000⟩ ∧
    toFraction i32 .defaults "0xC.8P+4".toList ⇓ ⟨200, 1⟩ :=
  ⟨⟨exampleLit, exampleLit_valid, rfl, by decide⟩, ⟨exampleHexLit, exampleHexLit_valid, rfl, by decide⟩,
    by decide +kernel, by decide +kernel⟩

example : ¬ IsPointedFloatLit "1.5f".toList ∧ ¬ IsPointedFloatLit "1''0.5".toList ∧
    ¬ IsPointedFloatLit "0x1.8".toList ∧ ¬ IsPointedFloatLit "-1.5".toList := by
  simp only [← C51_accepts_iff]
  refine ⟨?_, ?_, ?_, ?_⟩ <;> rintro ⟨f, w, h⟩ <;> revert h
  · rw [show scan "1.5f".toList = .ok none false by decide]; simp
  · rw [show scan "1''0.5".toList = .ok none false by decide]; simp
  · rw [show scan "0x1.8".toList = .ok none false by decide]; simp
  · rw [show scan "-1.5".toList = .ok none false by decide]; simp

/-! ## C52 -/

/-- **C52, partial.**  Full claim: every literal without suffix is accepted.  Proved for those
with a radix point; false for all others: see `C52_pointless_rejected`. -/
theorem C52_literal_accepted_partial (hs : IsPointedFloatLit s) :
    ∃ found w, scan s = .ok (some found) w := (C51_accepts_iff s).2 hs

/-- **C52, refuted in general.**  No literal without a radix point is accepted; each converts
to an undefined fraction. -/
theorem C52_pointless_rejected {l : FloatLit} (hv : l.Valid) (hp : l.point = false) :
    ∃ w, toFraction T o l.render = .ok ⟨0, 0⟩ w := by
  refine C51_rejected_undefined ?_
  rintro ⟨l', hv', hp', he⟩
  have hmem : '.' ∈ l'.render := by rw [render_pointed hp']; simp
  rw [he] at hmem
  have h1 := point_not_digit (whole_seq hv)
  unfold FloatLit.render at hmem
  rw [if_neg (by simp [hp])] at hmem
  simp only [List.append_nil, List.mem_append, h1, or_false] at hmem
  rcases hmem with hm | hm
  · rcases hx : l.hexPrefix with _ | c
    · rw [hx] at hm; simp at hm
    · rw [hx] at hm
      rcases hv.hexPrefix c hx with rfl | rfl <;> simp at hm
  · rcases hx : l.exp with _ | e
    · rw [hx] at hm; simp at hm
    · rw [hx] at hm
      have hd := point_not_digit (base := 10) (Or.inr (hv.exp_digits e hx))
      have hsg := hv.sign e hx
      have hmk := hv.marker e hx
      simp only [Exponent.render, List.mem_cons, List.mem_append, hd, or_false] at hm
      rcases hm with hm | hm
      · rw [← hm] at hmk; split at hmk <;> simp at hmk
      · have := hsg '.' (by simpa using hm); simp at this

/-- **C52, refuted in general**, with witnesses: `1e5` and `0x1p3` are literals and convert
to undefined fractions. -/
theorem C52_witness : (IsFloatLit "1e5".toList ∧ toFraction i32 .defaults "1e5".toList ⇓ ⟨0, 0⟩) ∧
    (IsFloatLit "0x1p3".toList ∧ toFraction i32 .defaults "0x1p3".toList ⇓ ⟨0, 0⟩) :=
  ⟨⟨⟨examplePointless, examplePointless_valid, by decide⟩, by decide +kernel⟩,
    ⟨⟨exampleHexPointless, exampleHexPointless_valid, by decide⟩, by decide +kernel⟩⟩

/-! ## C53 -/

/-- **C53** A literal converted cleanly has exactly its mathematical value. -/
theorem C53_value_exact {l : FloatLit} (hv : l.Valid) (hp : l.point = true)
    (h : toFraction T o l.render ⇓ r) : Denotes r l.value := toFraction_exact hv hp h

/-- **C53** For a signed type no hypothesis about wrapping is needed. -/
theorem C53_signed_value_exact (hs : T.signed = true) (hb : T.bits ≤ 2147483648) {l : FloatLit}
    (hv : l.Valid) (hp : l.point = true) {w : Bool} (h : toFraction T o l.render = .ok r w) :
    w = false ∧ Denotes r l.value := by
  have := (toFraction_noWrap hs hb hv hp).flag h
  subst this
  exact ⟨rfl, toFraction_exact hv hp h⟩

/-- **C53** A literal is converted when its digits, scaled by its exponent, fit the
representation: with `n` digits and exponent `e`, when `base ^ n * expBase ^ |e|` does, and
the exponent has at most nine digits. -/
theorem C53_finishes (hs : T.signed = true) {l : FloatLit} (hv : l.Valid) (hp : l.point = true)
    (he : ∀ e ∈ l.exp, (digits e.digits).length ≤ 9) (hfl : (digits l.frac).length ≤ 2147483647)
    (hfit : ((l.base ^ ((digits l.whole).length + (digits l.frac).length) *
      l.expBase ^ l.expValue.natAbs : ℕ) : ℤ) ≤ T.max) :
    ∃ r, toFraction T o l.render ⇓ r ∧ Denotes r l.value := by
  have he' : (digits (expDigits l)).length ≤ 9 := by
    unfold expDigits
    rcases hx : l.exp with _ | e
    · simp [digits]
    · exact he e hx
  obtain ⟨r, h⟩ := toFraction_progress (o := o) hs hv hp he' hfl hfit
  exact ⟨r, h, toFraction_exact hv hp h⟩

example : exampleLit.Valid ∧ exampleLit.point = true ∧ exampleLit.render = "4'9.3'9e-1'0".toList ∧
    exampleLit.value = 4939 / 10 ^ 12 ∧
    (∀ e ∈ exampleLit.exp, (digits e.digits).length ≤ 9) ∧
    ((exampleLit.base ^ ((digits exampleLit.whole).length + (digits exampleLit.frac).length) *
      exampleLit.expBase ^ exampleLit.expValue.natAbs : ℕ) : ℤ) ≤ i64.max ∧
    exampleHexLit.value = 200 := by
  refine ⟨exampleLit_valid, rfl, by decide, ?_, by simp [exampleLit]; decide, by decide, ?_⟩
  · have : exampleLit.value = ((49 : ℕ) + (39 : ℕ) / ((10 : ℕ) : ℚ) ^ 2) * ((10 : ℕ) : ℚ) ^ (-10 : ℤ) := rfl
    rw [this]; norm_num
  · have : exampleHexLit.value = ((12 : ℕ) + (8 : ℕ) / ((16 : ℕ) : ℚ) ^ 1) * ((2 : ℕ) : ℚ) ^ (4 : ℤ) := rfl
    rw [this]; norm_num

/-! ## C54 -/

/-- **C54** Decimal digit sequences are recognised exactly. -/
theorem C54_valid_dec (s : List Char) : isValidDigitSequence s 10 = true ↔ DigitSeq decDigits s :=
  isValid_iff

/-- **C54** Hexadecimal digit sequences are recognised exactly. -/
theorem C54_valid_hex (s : List Char) : isValidDigitSequence s 16 = true ↔ DigitSeq hexDigits s :=
  isValid_iff

/-- **C54** A decimal digit sequence evaluates to its positional value. -/
theorem C54_value_dec (hs : DigitSeq decDigits s) {n : ℤ} (h : digitSequenceToInt T s 10 ⇓ n) :
    n = seqValue 10 s :=
  ((digitSequence_clean (b := 10) (Or.inl rfl) (Or.inr hs)).1 h).2

/-- **C54** A hexadecimal digit sequence evaluates to its positional value. -/
theorem C54_value_hex (hs : DigitSeq hexDigits s) {n : ℤ} (h : digitSequenceToInt T s 16 ⇓ n) :
    n = seqValue 16 s :=
  ((digitSequence_clean (b := 16) (Or.inr rfl) (Or.inr hs)).1 h).2

/-- **C54** In every other base too only decimal digits are recognised. -/
theorem C54_valid_other {b : ℤ} (hb : b ≠ 16) (s : List Char) :
    isValidDigitSequence s b = true ↔ DigitSeq decDigits s := by
  rw [isValid_iff, dset, if_neg hb]

/-- **C54** In every base a digit sequence evaluates to its positional value. -/
theorem C54_value_any {b : ℕ} (hs : DigitSeq hexDigits s) {n : ℤ}
    (h : digitSequenceToInt T s b ⇓ n) : n = seqValue b s := by
  have := digitLoop_value (digitSeq_mem_reverse (.inr hs)) h
  rw [revValue_reverse] at this
  simpa using this

example : isValidDigitSequence "17".toList 8 = true ∧ digitSequenceToInt i32 "17".toList 8 ⇓ 15 ∧
    seqValue 8 "17".toList = 15 ∧ isValidDigitSequence "1a".toList 20 = false := by
  decide

example : DigitSeq decDigits "1'234".toList ∧ digitSequenceToInt i32 "1'234".toList 10 ⇓ 1234 ∧
    seqValue 10 "1'234".toList = 1234 ∧
    DigitSeq hexDigits "dE'aD".toList ∧ digitSequenceToInt i32 "dE'aD".toList 16 ⇓ 0xdead ∧
    ¬ DigitSeq decDigits "1''2".toList ∧ ¬ DigitSeq decDigits "'12".toList ∧
    ¬ DigitSeq decDigits "12'".toList ∧ ¬ DigitSeq decDigits "1a".toList ∧
    ¬ DigitSeq decDigits [] := by
  simp only [← C54_valid_dec, ← C54_valid_hex]; decide

/-! ## C55 -/

/-- **C55, partial.**  Full claim: a sequence whose value fits is evaluated.  Proved under the
exact condition for signed types, that the power after the last digit fits; in general false:
see `C55_representable_overflows`. -/
theorem C55_signed_finishes_iff_partial (hs : T.signed = true) (hd : DigitSeq decDigits s) :
    (∃ n w, digitSequenceToInt T s 10 = .ok n w) ↔ T.InRange ((10 : ℤ) ^ (digits s).length) := by
  constructor
  · rintro ⟨n, w, h⟩
    have := (digitLoop_noWrap hs (b := 10) (digitSeq_mem_reverse (Or.inr hd)) _ _).flag h
    subst this
    exact ((digitSequence_clean (b := 10) (Or.inl rfl) (Or.inr hd)).1 h).1
  · intro h
    exact ⟨_, _, (digitSequence_clean (b := 10) (Or.inl rfl) (Or.inr hd)).2 ⟨h, rfl⟩⟩

/-- **C55, partial.**  The same for hexadecimal sequences. -/
theorem C55_signed_finishes_iff_hex_partial (hs : T.signed = true) (hd : DigitSeq hexDigits s) :
    (∃ n w, digitSequenceToInt T s 16 = .ok n w) ↔ T.InRange ((16 : ℤ) ^ (digits s).length) := by
  constructor
  · rintro ⟨n, w, h⟩
    have := (digitLoop_noWrap hs (b := 16) (digitSeq_mem_reverse (Or.inr hd)) _ _).flag h
    subst this
    exact ((digitSequence_clean (b := 16) (Or.inr rfl) (Or.inr hd)).1 h).1
  · intro h
    exact ⟨_, _, (digitSequence_clean (b := 16) (Or.inr rfl) (Or.inr hd)).2 ⟨h, rfl⟩⟩

/-- **C55** For unsigned types the claim holds: a representable value is returned, even though
the unused power may wrap. -/
theorem C55_unsigned_exact (hs : T.signed = false) :
    (DigitSeq decDigits s → T.InRange (seqValue 10 s : ℤ) →
      ∃ w, digitSequenceToInt T s 10 = .ok (seqValue 10 s : ℤ) w) ∧
    (DigitSeq hexDigits s → T.InRange (seqValue 16 s : ℤ) →
      ∃ w, digitSequenceToInt T s 16 = .ok (seqValue 16 s : ℤ) w) :=
  ⟨fun h h' => digitSequenceToInt_unsigned (b := 10) hs h h', fun h h' => digitSequenceToInt_unsigned (b := 16) hs h h'⟩

/-- **C55, refuted in general.**  `1234567890` fits an `int`, but evaluating it overflows, and
so does converting the literal `1234567890.`; likewise `7fffffff`. -/
theorem C55_representable_overflows :
    (DigitSeq decDigits "1234567890".toList ∧ i32.InRange (seqValue 10 "1234567890".toList : ℤ) ∧
      digitSequenceToInt i32 "1234567890".toList 10 = .fault .overflow ∧
      toFraction i32 .defaults "1234567890.".toList = .fault .overflow) ∧
    (DigitSeq hexDigits "7fffffff".toList ∧ i32.InRange (seqValue 16 "7fffffff".toList : ℤ) ∧
      digitSequenceToInt i32 "7fffffff".toList 16 = .fault .overflow) := by
  simp only [← C54_valid_dec, ← C54_valid_hex]; decide +kernel

example : DigitSeq decDigits "987654321".toList ∧
    i32.InRange ((10 : ℤ) ^ (digits "987654321".toList).length) ∧
    digitSequenceToInt u32 "4000000000".toList 10 = .ok 4000000000 true := by
  simp only [← C54_valid_dec]; decide

/-! ## C56 -/

/-- **C56** `_dec` throws for every string that is not a literal with a radix point. -/
theorem C56_throws (hs : ¬ IsPointedFloatLit s) : dec s = .fault .thrown := by
  obtain ⟨w, h⟩ := C51_rejected_undefined (T := i64) (o := .defaults) hs
  rw [dec, h]
  rfl

/-- **C56** `_dec` throws for no literal with a radix point. -/
theorem C56_throws_iff : dec s = .fault .thrown ↔ ¬ IsPointedFloatLit s := by
  refine ⟨fun h hl => ?_, C56_throws⟩
  obtain ⟨l, hv, hp, rfl⟩ := hl
  rw [dec] at h
  cases ht : toFraction i64 .defaults l.render with
  | fault k =>
    rw [ht, fault_bind] at h
    cases h
    exact (toFraction_noThrow _).ne ht
  | ok r w =>
    have hw := (toFraction_noWrap (by rfl) (by decide) hv hp).flag ht
    subst hw
    rw [ht, ok_bind_false, if_pos (by simp [Raw.isDefined, (toFraction_exact hv hp ht).1])] at h
    cases h

/-- **C56** Whatever `_dec` returns is defined and is exactly the value of the literal, with
nothing wrapped. -/
theorem C56_returns_exact {w : Bool} (h : dec s = .ok r w) :
    w = false ∧ ∃ l : FloatLit, l.Valid ∧ l.point = true ∧ l.render = s ∧ Denotes r l.value := by
  have hl : IsPointedFloatLit s := by
    by_contra hc; rw [C56_throws hc] at h; cases h
  obtain ⟨l, hv, hp, rfl⟩ := hl
  rw [dec] at h
  obtain ⟨a, w1, w2, h1, h2, hw⟩ := bind_eq_ok.1 h
  have hw1 := (toFraction_noWrap (by rfl) (by decide) hv hp).flag h1
  subst hw1
  have hx := toFraction_exact hv hp h1
  rw [if_pos (by simp [Raw.isDefined, hx.1]), pure_eq_ok] at h2
  obtain ⟨rfl, rfl⟩ := h2
  exact ⟨hw, l, hv, hp, rfl, hx⟩

example : dec "2.50".toList ⇓ ⟨5, 2⟩ ∧ dec "1e5".toList = .fault .thrown ∧
    dec "abc".toList = .fault .thrown ∧ dec "1.0e30".toList = .fault .overflow := by decide +kernel

/-! ## C57 -/

/-- **C57** Removing the digit separators from a literal leaves it a literal and gives the
same outcome, whatever the type and policy. -/
theorem C57_separators_irrelevant (hs : IsPointedFloatLit s) :
    IsPointedFloatLit (digits s) ∧ toFraction T o (digits s) = toFraction T o s := by
  obtain ⟨l, hv, hp, rfl⟩ := hs
  exact ⟨⟨stripLit l, stripLit_valid hv, hp, stripLit_render hv hp⟩, toFraction_strip hv hp⟩

example : IsPointedFloatLit "4'9.3'9e-1'0".toList ∧ digits "4'9.3'9e-1'0".toList = "49.39e-10".toList :=
  ⟨⟨exampleLit, exampleLit_valid, rfl, by decide⟩, by decide⟩

end Ieme
