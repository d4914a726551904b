import Verif.Lemmas.SourceValue
import Verif.Props.Silent
import Verif.Props.Overload
import Verif.Props.Literals
import Verif.Props.Finish

/-!
# C140: from program text to values
-/

namespace Ieme

open Source Overload Lit Res

variable {text x w : List Char} {ts : List Tok} {e : Src} {t : Ty} {q : ℚ} {v : Val}

/-- `1/2_fr + 0.25_dec*(3 - 1/3_fr)` -/
def exampleText : List Char := "1/2_fr + 0.25_dec*(3 - 1/3_fr)".toList

/-- What the example is. -/
def exampleSrc : Src :=
  .bin .plus (.bin .divides (.int i32 1) (.fr 2))
    (.bin .multiplies (.dec "0.25".toList)
      (.bin .minus (.int i32 3) (.bin .divides (.int i32 1) (.fr 3))))

/-- **C140** Text is split into the longest possible tokens, or rejected if it can not be. -/
theorem C140_tokens : lex text = some ts ↔ Lexes text ts := lex_iff

example : lex "0xe+1_fr -.5_dec".toList =
      some [.num "0xe+1_fr".toList, .minus, .num ".5_dec".toList] ∧
    lex "1--1".toList = none ∧ lex "1- -1".toList = some [.num ['1'], .minus, .minus, .num ['1']] := by
  decide +kernel

/-- **C140** A number token is read as the literal it is in decimal, octal, hexadecimal or binary
digits, with the first type its suffix allows that holds it, or rejected. -/
theorem C140_literals : literal x = some e ↔ IsLiteral x e := literal_iff

example : literal "1'000".toList = some (.int i32 1000) ∧ literal "1u".toList = some (.int u32 1) ∧
    literal "0x1lLu".toList = none ∧ literal "0x1LLu".toList = some (.int u64 1) ∧
    literal "0x8000'0000'0000'0000l".toList = some (.int u64 9223372036854775808) ∧
    literal "1l_fr".toList = none ∧ literal "0xffffffff".toList =
      some (.int u32 4294967295) ∧ literal "4294967295".toList = some (.int i64 4294967295) ∧
    literal "010_fr".toList = some (.fr 8) ∧ literal "0b11_fr".toList = some (.fr 3) ∧
    literal "08_fr".toList = none ∧ literal "1.5_fr".toList = none ∧
    literal "1.5_dec".toList = some (.dec "1.5".toList) := by
  decide +kernel

/-- **C140** An integer literal with a suffix has the first type of the suffix that holds it, and is
rejected if none does. -/
theorem C140_suffix {s t : List Char} {n : ℕ} {d u l : Bool} (hs : IntLit s n d)
    (ht : IntSuffix t u l) : literal (s ++ t) =
      ((suffixTypes d u l).find? fun T => decide (T.InRange n)).map (.int · n) := by
  cases hf : (suffixTypes d u l).find? fun T => decide (T.InRange n) with
  | some T => exact C140_literals.2 (.suffixed hs ht hf)
  | none =>
    by_contra hc
    obtain ⟨e, he⟩ := Option.ne_none_iff_exists'.1 hc
    unfold literal at he
    have hm : '_' ∉ s ++ t := by
      rw [List.mem_append, not_or]
      exact ⟨intLit_mem hs, fun hc => absurd (intSuffix_mem ht _ hc) (by decide)⟩
    rw [before_eq_none.2 fun hc => hm (hc.subset (by decide)),
      before_eq_none.2 fun hc => hm (hc.subset (by decide))] at he
    simp only [intLiteral, splitSuffix_append hs (intSuffix_mem ht), suffix_iff.2 (.inr ht),
      intValue_iff.2 hs, Option.bind_some, Option.map_eq_some_iff, intType_iff, hf] at he
    obtain ⟨T, hT, -⟩ := he
    cases hT

example : IntLit ['7'] 7 true ∧ IntSuffix ['U', 'l', 'l'] true true ∧
    literal "7Ull".toList = some (.int u64 7) ∧
    literal "9223372036854775808l".toList = none :=
  ⟨.dec (.digit (by decide)) (by decide), .ul (a := ['U']) (b := ['l', 'l']) (by decide) (by decide),
    by decide +kernel, by decide +kernel⟩

/-- **C140** The tokens are read as the grammar of C++ says. -/
theorem C140_grammar : operand [] ts = some e ↔ Additive e ts := operand_iff

example : operand [] [.minus, .num ['1'], .slash, .num "2_fr".toList, .star, .num ['3']] =
      some (.bin .multiplies (.bin .divides (.neg (.int i32 1)) (.fr 2)) (.int i32 3)) ∧
    operand [] [.num ['1'], .slash] = none := by
  decide +kernel

/-- **C140** A text is accepted exactly if it splits into tokens that follow the grammar, and is the
expression that they spell. -/
theorem C140_compile_iff : compile text = some e ↔ ∃ ts, Lexes text ts ∧ Additive e ts := by
  rw [compile, Option.bind_eq_some_iff]
  simp only [C140_tokens, C140_grammar]

example : compile exampleText = some exampleSrc := by decide +kernel

/-- **C140** No text can be read in two ways. -/
theorem C140_unambiguous {ts' : List Tok} {e' : Src} (h : Lexes text ts) (h' : Lexes text ts')
    (ha : Additive e ts) (ha' : Additive e' ts') : ts = ts' ∧ e = e' := by
  have h1 := C140_tokens.2 h
  rw [C140_tokens.2 h'] at h1
  cases h1
  have h2 := C140_grammar.2 ha
  rw [C140_grammar.2 ha'] at h2
  cases h2
  exact ⟨rfl, rfl⟩

example : Lexes exampleText ((lex exampleText).getD []) ∧
    Additive exampleSrc ((lex exampleText).getD []) := by
  rw [← C140_tokens, ← C140_grammar]
  decide +kernel

/-- **C140** Spaces between the tokens change nothing, and can be left out wherever the tokens stay
apart. -/
theorem C140_layout (hw : ∀ c ∈ w, c ∈ blanks) (h : Laid ts text) (ha : Additive e ts) :
    compile (w ++ text) = some e :=
  C140_compile_iff.2 ⟨ts, (lexes_of_laid h).blanks hw, ha⟩

/-- **C140** Texts of the same tokens have the same result. -/
theorem C140_layout_irrelevant {text' : List Char} (h : Laid ts text) (h' : Laid ts text') :
    run text = run text' := by
  have h1 := C140_tokens.2 (lexes_of_laid h)
  have h2 := C140_tokens.2 (lexes_of_laid h')
  rw [run, run, compile, compile, h1, h2]

example : Laid [.num ['1'], .slash, .num "2_fr".toList] "1/2_fr".toList ∧
    Laid [.num ['1'], .slash, .num "2_fr".toList] "1 /\t2_fr\n".toList := by
  have h1 : PPNumber ['1'] := .digit (by decide)
  have h2 : PPNumber "2_fr".toList :=
    PPNumber.word (p := ['2']) (w := ['_', 'f', 'r']) (.digit (by decide)) (by decide +kernel)
  refine ⟨?_, ?_⟩
  · refine Laid.cons (k := .num ['1']) (w := []) (text := "/2_fr".toList) (by simp) (by simp [Apart])
      (by rintro x ⟨⟩; exact h1) ?_
    refine Laid.cons (k := .slash) (w := []) (text := "2_fr".toList) (by simp) (by simp [Apart])
      (by rintro x ⟨⟩) ?_
    exact Laid.cons (k := .num "2_fr".toList) (w := []) (text := []) (by simp) (by simp)
      (by rintro x ⟨⟩; exact h2) .nil
  · refine Laid.cons (k := .num ['1']) (w := [' ']) (text := "/\t2_fr\n".toList) (by decide)
      (by simp) (by rintro x ⟨⟩; exact h1) ?_
    refine Laid.cons (k := .slash) (w := ['\t']) (text := "2_fr\n".toList) (by decide) (by simp)
      (by rintro x ⟨⟩) ?_
    exact Laid.cons (k := .num "2_fr".toList) (w := ['\n']) (text := []) (by decide) (by simp)
      (by rintro x ⟨⟩; exact h2) .nil

/-- **C140** A text that evaluates cleanly has the exact value of what is written. -/
theorem C140_exact (hc : compile text = some e) (hm : Means e t q) (h : run text ⇓ v) :
    v.Denotes q ∧ v.HasTy t := by
  simp only [run, hc, Src.eval, bind_eq_clean] at h
  obtain ⟨a, h1, h2⟩ := h
  obtain ⟨h3, h4⟩ := means_typed hm h1
  obtain ⟨ts, -, hts⟩ := C140_compile_iff.1 hc
  obtain ⟨t', h5, h6⟩ := C121_type_sound (typed_wellTyped (fits_of_additive hts) h1) h2
  rw [h3] at h5
  cases h5
  exact ⟨C121_exact h2 h4, h6⟩

/-- The literals of the example. -/
def exampleQuarter : FloatLit := ⟨none, ['0'], true, ['2', '5'], none⟩

theorem exampleQuarter_valid : exampleQuarter.Valid := by
  refine ⟨by simp [exampleQuarter], .inr (.digit (by decide)), .inr ?_, by decide, by decide,
    by decide, by simp [exampleQuarter], by simp [exampleQuarter], by simp [exampleQuarter]⟩
  exact .snoc (s := ['2']) (.digit (by decide)) (by decide)

theorem exampleSrc_means : Means exampleSrc (.frac i64 .defaults) (7 / 6) := by
  have hq : Means (.dec "0.25".toList) (.frac i64 .defaults) (1 / 4) := by
    have := Means.dec exampleQuarter_valid rfl
    have e1 : exampleQuarter.render = "0.25".toList := by decide
    have e2 : exampleQuarter.value = 1 / 4 := by decide +kernel
    rwa [e1, e2] at this
  refine .bin (.bin .int .fr (by decide +kernel : _ = some (.frac i32 .defaults)) rfl)
    (.bin hq (.bin .int (.bin .int .fr (by decide +kernel : _ = some (.frac i32 .defaults)) rfl)
      (by decide +kernel : _ = some (.frac i32 .defaults)) rfl)
      (by decide +kernel : _ = some (.frac i64 .defaults)) rfl) (by decide +kernel) ?_
  decide +kernel

example : compile exampleText = some exampleSrc ∧ Means exampleSrc (.frac i64 .defaults) (7 / 6) ∧
    run exampleText ⇓ .frac ⟨7, 6⟩ :=
  ⟨by decide +kernel, exampleSrc_means, by decide +kernel⟩

/-- **C140** Where integer literals have signed types and `_fr` literals fit `int`, nothing changes silently:
whatever the text evaluates to is exact. -/
theorem C140_silent {wr : Bool} (hc : compile text = some e) (hs : e.Small)
    (h : run text = .ok v wr) : wr = false ∧ ∀ t q, Means e t q → v.Denotes q ∧ v.HasTy t := by
  have hr := h
  simp only [run, hc, Src.eval, bind_eq_ok] at h
  obtain ⟨a, w1, w2, h1, h2, rfl⟩ := h
  obtain ⟨ts, -, hts⟩ := C140_compile_iff.1 hc
  have hf := fits_of_additive hts
  have e1 := typed_flag h1
  have e2 := (C123_typed_expressions (typed_wellTyped hf h1) (typed_calm hf hs h1).1 h2).1
  subst e1 e2
  exact ⟨rfl, fun t q hm => C140_exact hc hm hr⟩

example : compile exampleText = some exampleSrc ∧ exampleSrc.Small ∧
    run exampleText = .ok (.frac ⟨7, 6⟩) false :=
  ⟨by decide +kernel, by simp [exampleSrc, Src.Small]; decide, by decide +kernel⟩

/-- **C140** `n/d_fr`, with or without spaces, in whatever digits and with whatever suffix of `n`, is the fraction with exactly
these parts, in the type of the literal `n`, whenever `d` fits it.  Otherwise `d` is silently reduced
modulo a power of two. -/
theorem C140_fraction {a b w₁ w₂ w₃ : List Char} {n d : ℕ} {db : Bool} {T : IntTy}
    (ha : IsLiteral a (.int T n))
    (hb : IntLit b d db) (hd : u64.InRange d) (h1 : ∀ c ∈ w₁, c ∈ blanks) (h2 : ∀ c ∈ w₂, c ∈ blanks)
    (h3 : ∀ c ∈ w₃, c ∈ blanks) :
    (T.InRange d → run (a ++ w₁ ++ '/' :: w₂ ++ (b ++ "_fr".toList) ++ w₃) ⇓ .frac ⟨n, d⟩) ∧
    ∃ d', T.InRange d' ∧ d' ≡ d [ZMOD 2 ^ T.bits] ∧
      run (a ++ w₁ ++ '/' :: w₂ ++ (b ++ "_fr".toList) ++ w₃) =
        .ok (.frac ⟨n, d'⟩) (decide (¬ T.InRange d)) := by
  have hl : Laid [.num a, .slash, .num (b ++ "_fr".toList)]
      (a ++ w₁ ++ '/' :: w₂ ++ (b ++ "_fr".toList) ++ w₃) := by
    have := Laid.cons (k := .num a) (w := w₁) h1 (by simp [Apart])
      (by rintro x ⟨⟩; exact ppNumber_of_int ha)
      (Laid.cons (k := .slash) (w := w₂) h2 (by simp [Apart]) (by rintro x ⟨⟩)
      (Laid.cons (k := .num (b ++ "_fr".toList)) (w := w₃) h3 (by simp)
        (by rintro x ⟨⟩; exact (ppNumber_of_intLit hb).word (by decide +kernel)) .nil))
    simpa [Tok.text] using this
  have hc : compile (a ++ w₁ ++ '/' :: w₂ ++ (b ++ "_fr".toList) ++ w₃) =
      some (.bin .divides (.int T n) (.fr d)) := by
    refine C140_layout (w := []) (by simp) hl ?_
    exact .up (.bin (a := [.num a]) (b := [.num (b ++ "_fr".toList)]) (by simp [multiplicative])
      (.up (.literal ha)) (.literal (.fr hb hd)))
  have hr : run (a ++ w₁ ++ '/' :: w₂ ++ (b ++ "_fr".toList) ++ w₃) =
      (do return .frac (← DenLit.divRep T n ⟨false, d⟩)) := by
    rw [run, hc]
    exact eval_quotient n d (a := .leaf (.int T) (.int n)) rfl rfl rfl
  obtain ⟨d', g1, g2, g3, g4, -⟩ := C69_literal_converted T ⟨false, d⟩
  have g4 := g4 n
  refine ⟨fun h => ?_, d', g1, g2, ?_⟩
  · rw [hr, g4, g3 h]
    simp [h, pure_def]
  · rw [hr, g4, bind_eq_ok]
    exact ⟨_, _, false, rfl, rfl, by simp⟩

example : IsLiteral "0x2aL".toList (.int i64 42) ∧ IntLit "1'000".toList 1000 true ∧
    run "0x2aL / 1'000_fr".toList ⇓ .frac ⟨42, 1000⟩ ∧
    run "1/4294967298_fr".toList = .ok (.frac ⟨1, 2⟩) true ∧
    run "1l/4294967298_fr".toList ⇓ .frac ⟨1, 4294967298⟩ := by
  refine ⟨C140_literals.1 (by decide +kernel), ?_, by decide +kernel, by decide +kernel,
    by decide +kernel⟩
  exact .dec (s := "1'000".toList)
    (.snoc (s := "1'00".toList) (.snoc (s := "1'0".toList) (.sep (s := ['1']) (.digit (by decide))
      (by decide)) (by decide)) (by decide)) (by decide)

/-- **C140** A literal with a radix point followed by `_dec` is one token, and what it evaluates to is
the number shown, in lowest terms. -/
theorem C140_decimal {l : FloatLit} (hv : l.Valid) (hp : l.point = true) :
    compile (l.render ++ "_dec".toList) = some (.dec l.render) ∧
    ∀ v wr, run (l.render ++ "_dec".toList) = .ok v wr →
      wr = false ∧ v = .frac ⟨l.value.num, l.value.den⟩ := by
  have hc : compile (l.render ++ "_dec".toList) = some (.dec l.render) := by
    have hl := Laid.cons (k := .num (l.render ++ "_dec".toList)) (w := []) (text := []) (ts := [])
      (by simp) (by simp)
      (by rintro x ⟨⟩; exact (ppNumber_of_floatLit hv hp).word (by decide +kernel)) .nil
    simpa [Tok.text] using C140_layout (w := []) (by simp) hl (.up (.up (.literal .dec)))
  refine ⟨hc, fun v wr h => ?_⟩
  simp only [run, hc, Src.eval, Src.typed, bind_eq_ok, pure_eq_ok] at h
  obtain ⟨a, w1, w2, ⟨r, w3, w4, h1, ⟨rfl, rfl⟩, rfl⟩, h2, rfl⟩ := h
  obtain ⟨rfl, rfl⟩ := C94_dec_lowest_terms hv hp h1
  simp only [TExpr.eval, pure_eq_ok] at h2
  obtain ⟨rfl, rfl⟩ := h2
  exact ⟨rfl, rfl⟩

example : exampleQuarter.Valid ∧ exampleQuarter.render ++ "_dec".toList = "0.25_dec".toList ∧
    run "0.25_dec".toList ⇓ .frac ⟨1, 4⟩ :=
  ⟨exampleQuarter_valid, by decide, by decide +kernel⟩

/-- **C140** Any other number followed by `_dec` compiles but throws, for example an integer or a number
with an exponent and no point. -/
theorem C140_decimal_throws (hx : PPNumber x) (hn : ¬ IsPointedFloatLit x) :
    run (x ++ "_dec".toList) = .fault .thrown := by
  have hc : compile (x ++ "_dec".toList) = some (.dec x) := by
    have hl := Laid.cons (k := .num (x ++ "_dec".toList)) (w := []) (text := []) (ts := [])
      (by simp) (by simp) (by rintro x ⟨⟩; exact hx.word (by decide +kernel)) .nil
    simpa [Tok.text] using C140_layout (w := []) (by simp) hl (.up (.up (.literal .dec)))
  rw [run, hc]
  simp only [Src.eval, Src.typed, C56_throws hn, fault_bind]

example : PPNumber "10".toList ∧ ¬ IsPointedFloatLit "10".toList ∧
    run "10_dec".toList = .fault .thrown ∧ run "1e5_dec".toList = .fault .thrown := by
  refine ⟨.ident (s := ['1']) (.digit (by decide)) (by decide +kernel), ?_, by decide +kernel,
    by decide +kernel⟩
  rw [← C56_throws_iff]
  decide +kernel

/-- **C140** Division is read from the left, so that in `n/m/d_fr` the integers are divided first and
the remainder is lost. -/
theorem C140_chain {a b c : List Char} {n m d : ℕ} {da db dc : Bool} (ha : IntLit a n da)
    (hb : IntLit b m db) (hc : IntLit c d dc) (hn : i32.InRange n) (hm : i32.InRange m)
    (hd : i32.InRange d) (h0 : m ≠ 0) :
    run (a ++ '/' :: b ++ '/' :: (c ++ "_fr".toList)) ⇓ .frac ⟨(n / m : ℕ), d⟩ ∧
    (d ≠ 0 → (Denotes ⟨(n / m : ℕ), d⟩ ((n : ℚ) / m / d) ↔ m ∣ n)) := by
  have find : ∀ {k : ℕ} (z : Bool), i32.InRange k →
      (literalTypes z).find? (fun T => decide (T.InRange k)) = some i32 := by
    intro k z hk
    cases z <;> simp [literalTypes, hk]
  have hu : u64.InRange d := by
    have := i32_inRange.1 hd
    exact ⟨(by decide : u64.min ≤ 0).trans (Int.natCast_nonneg d), this.2.trans (by decide)⟩
  have hl : Laid [.num a, .slash, .num b, .slash, .num (c ++ "_fr".toList)]
      (a ++ '/' :: b ++ '/' :: (c ++ "_fr".toList)) := by
    have := Laid.cons (k := .num a) (w := []) (by simp) (by simp [Apart])
      (by rintro x ⟨⟩; exact ppNumber_of_intLit ha)
      (Laid.cons (k := .slash) (w := []) (by simp) (by simp [Apart]) (by rintro x ⟨⟩)
      (Laid.cons (k := .num b) (w := []) (by simp) (by simp [Apart])
      (by rintro x ⟨⟩; exact ppNumber_of_intLit hb)
      (Laid.cons (k := .slash) (w := []) (by simp) (by simp [Apart]) (by rintro x ⟨⟩)
      (Laid.cons (k := .num (c ++ "_fr".toList)) (w := []) (by simp) (by simp)
        (by rintro x ⟨⟩; exact (ppNumber_of_intLit hc).word (by decide +kernel)) .nil))))
    simpa [Tok.text] using this
  have hcm : compile (a ++ '/' :: b ++ '/' :: (c ++ "_fr".toList)) =
      some (.bin .divides (.bin .divides (.int i32 n) (.int i32 m)) (.fr d)) := by
    refine C140_layout (w := []) (by simp) hl ?_
    exact .up (.bin (a := [.num a, .slash, .num b]) (b := [.num (c ++ "_fr".toList)])
      (by simp [multiplicative])
      (.bin (a := [.num a]) (b := [.num b]) (by simp [multiplicative]) (.up (.literal (.int ha (find _ hn))))
        (.literal (.int hb (find _ hm)))) (.literal (.fr hc hu)))
  have hq : i32.InRange ((n / m : ℕ) : ℤ) := by
    have h1 := (i32_inRange.1 hn).2
    have h2 : ((n / m : ℕ) : ℤ) ≤ n := by exact_mod_cast Nat.div_le_self n m
    have h3 := Int.natCast_nonneg (n / m)
    exact i32_inRange.2 ⟨by omega, h2.trans h1⟩
  have hdiv : builtin i32 i32 .divides n m ⇓ ((n / m : ℕ) : ℤ) := by
    have hcm : IntTy.common i32 i32 = i32 := by decide
    have ht : (n : ℤ).tdiv m = ((n / m : ℕ) : ℤ) := by simp [Int.tdiv_eq_ediv_of_nonneg]
    simp only [builtin, hcm, bind_eq_clean]
    refine ⟨n, IntTy.conv_clean.2 ⟨hn, rfl⟩, m, IntTy.conv_clean.2 ⟨hm, rfl⟩, ?_⟩
    exact IntTy.div_clean.2 ⟨by exact_mod_cast h0, by rwa [ht], ht.symm⟩
  constructor
  · rw [run, hcm]
    have he : (TExpr.bin .divides (.leaf (.int i32) (.int n)) (.leaf (.int i32) (.int m))).eval ⇓
        .int ((n / m : ℕ) : ℤ) := by
      simp only [TExpr.eval, TExpr.ty, pure_def, ok_bind_false, apply, hdiv]
    simp only
    rw [eval_quotient (T := i32) _ d (a := .bin .divides (.leaf (.int i32) (.int n))
      (.leaf (.int i32) (.int m))) rfl (by rfl) he, divRep_clean hd, ok_bind_false]
    rfl
  · intro hd0
    have hm0 : (m : ℚ) ≠ 0 := by exact_mod_cast h0
    have hd0' : (d : ℚ) ≠ 0 := by exact_mod_cast hd0
    have hd0'' : (d : ℤ) ≠ 0 := by exact_mod_cast hd0
    simp only [Denotes, ne_eq, hd0'', not_false_eq_true, true_and, Int.cast_natCast]
    rw [div_left_inj' hd0', eq_div_iff hm0, Nat.dvd_iff_div_mul_eq]
    exact_mod_cast Iff.rfl

example : run "2/3/4_fr".toList ⇓ .frac ⟨0, 4⟩ ∧ run "6/3/4_fr".toList ⇓ .frac ⟨2, 4⟩ ∧
    IntLit ['2'] 2 true ∧ IntLit ['4'] 4 true := by
  refine ⟨by decide +kernel, by decide +kernel, ?_, ?_⟩ <;>
    exact .dec (.digit (by decide)) (by decide)

/-- **C140** Texts that do not mean what they seem to: a leading zero makes octal, a chain of divisions
divides integers first, a large denominator is reduced, a minus behind a minus and a hexadecimal
number ending in `e` before a sign are other tokens, and a suffix `u` makes differences wrap. -/
theorem C140_pitfalls :
    run "1/010_fr".toList ⇓ .frac ⟨1, 8⟩ ∧ run "1/10_fr".toList ⇓ .frac ⟨1, 10⟩ ∧
    run "2/3/4_fr".toList ⇓ .frac ⟨0, 4⟩ ∧ run "2/3_fr/4".toList ⇓ .frac ⟨1, 6⟩ ∧
    run "1/4294967298_fr".toList = .ok (.frac ⟨1, 2⟩) true ∧
    run "1--1/2_fr".toList = .fault .illFormed ∧ run "1- -1/2_fr".toList ⇓ .frac ⟨3, 2⟩ ∧
    run "0xe+1/2_fr".toList = .fault .illFormed ∧ run "0xf+1/2_fr".toList ⇓ .frac ⟨31, 2⟩ ∧
    run "1/2_fr*3_fr".toList = .fault .illFormed ∧ run "1/08_fr".toList = .fault .illFormed ∧
    run "1/2_fr - 1".toList ⇓ .frac ⟨-1, 2⟩ ∧
    run "1u/2_fr - 1".toList = .ok (.frac ⟨4294967295, 2⟩) true := by
  decide +kernel

end Ieme
