import Verif.Lemmas.StreamFmt

/-!
# Streams with formatting flags: property C98

`Readable fl padded T f` (in `Verif/Spec/StreamFmt.lean`) lists the conditions under which a
fraction written with the flags `fl`, and with padding or not, can be read with the same flags.
-/

namespace Ieme

open IntTy Ieme.Stream

variable {T : IntTy} {fl : Flags} {f g : Raw} {v : ℤ} {rest w : List Char} {width : ℕ}

/-- **C98, partial.**  Full claim: whatever the formatting flags and the width of a stream, what is
written is read back as it was.  Proved for padding by whitespace, nonnegative parts or decimal
output, and padding that does not come between a sign or prefix and the digits; false otherwise,
see `C98_hex_negative`, `C98_internal`, `C98_zero_fill`. -/
theorem C98_round_trip_partial (hx : fl.fill ∈ whitespace) (hf : f.InRange T) (hw : Spaces w)
    (hs : fl.skipws = true ∨ w = []) (hr : NoContinuation rest) (h : Readable fl ((put fl 0 T f.num).length < width) T f) :
    readF fl T ⟨w ++ (writeF fl width T f ++ rest), false, false⟩ g =
      (f, ⟨rest, rest.isEmpty, false⟩) :=
  (readF_writeF hx hf hw hs hr width).1 h

/-- **C98** With padding by whitespace these conditions are exactly those under which extraction
succeeds. -/
theorem C98_succeeds_iff (hx : fl.fill ∈ whitespace) (hf : f.InRange T) (hw : Spaces w)
    (hs : fl.skipws = true ∨ w = []) (hr : NoContinuation rest) :
    (readF fl T ⟨w ++ (writeF fl width T f ++ rest), false, false⟩ g).2.fail = false ↔
      Readable fl ((put fl 0 T f.num).length < width) T f := by
  obtain ⟨h1, h2⟩ := readF_writeF (g := g) hx hf hw hs hr width
  refine ⟨fun h => ?_, fun h => by rw [h1 h]⟩
  by_contra hc
  rw [h2 hc] at h
  cases h

/-- **C98** With padding by whitespace a fraction is never read back silently as another one. -/
theorem C98_never_silently_wrong (hx : fl.fill ∈ whitespace) (hf : f.InRange T) (hw : Spaces w)
    (hs : fl.skipws = true ∨ w = []) (hr : NoContinuation rest)
    (h : (readF fl T ⟨w ++ (writeF fl width T f ++ rest), false, false⟩ g).2.fail = false) :
    (readF fl T ⟨w ++ (writeF fl width T f ++ rest), false, false⟩ g).1 = f := by
  rw [C98_round_trip_partial hx hf hw hs hr ((C98_succeeds_iff hx hf hw hs hr).1 h)]

/-- A case that meets the hypotheses: hexadecimal with prefix, capital letters and padding at the
right. -/
example :
    let fl : Flags := { base := .hex, showbase := true, uppercase := true, adjust := .left }
    fl.fill ∈ whitespace ∧ (⟨255, 4096⟩ : Raw).InRange i32 ∧ Readable fl ((put fl 0 i32 255).length < 7) i32 ⟨255, 4096⟩ ∧
    (put fl 0 i32 255).length < 7 ∧ writeF fl 7 i32 ⟨255, 4096⟩ = "0XFF   /0X1000".toList ∧
    readF fl i32 ⟨"0XFF   /0X1000;".toList, false, false⟩ ⟨0, 1⟩ =
      (⟨255, 4096⟩, ⟨[';'], false, false⟩) := by
  refine ⟨by decide, by decide, ⟨fun _ => by decide, fun _ => .inl rfl⟩, by decide +kernel,
    by decide +kernel, by decide +kernel⟩

/-- **C98** The text in decimal is the number itself. -/
theorem C98_written_decimal (h : ¬ fl.NonDecimal) : Numeral (put fl 0 T v) v := by
  have hb : fl.base = .dec ∨ fl.base = .unset := by
    rcases hb : fl.base with _ | _ | _ | _
    · exact .inl rfl
    · exact absurd (.inl hb) h
    · exact absurd (.inr hb) h
    · exact .inr rfl
  have hp : put fl 0 T v = (if v < 0 then ['-'] else if fl.showpos ∧ T.signed then ['+'] else []) ++
      digitsIn fl.base fl.uppercase v.natAbs := by
    rw [put_zero]
    rcases hb with hb | hb <;> simp [plain, parts, hb]
  obtain ⟨h1, -, h3⟩ := digitsIn_value fl.base fl.uppercase v.natAbs
  have h2 := digitsIn_dec_mem hb fl.uppercase v.natAbs
  have e : fl.base.outRadix = 10 := by rcases hb with h | h <;> rw [h] <;> rfl
  rw [e] at h3
  rw [hp]
  split
  · have := Numeral.minus h1 h2
    rw [h3] at this
    rwa [show -(v.natAbs : ℤ) = v by omega] at this
  · have e' : (v.natAbs : ℤ) = v := by omega
    split
    · have := Numeral.plus h1 h2
      rw [h3] at this
      rwa [e'] at this
    · have := Numeral.bare h1 h2
      rw [h3] at this
      rwa [e'] at this

/-- **C98** The text in hexadecimal is the number modulo `2^bits`, after a prefix if there is to be
one. -/
theorem C98_written_hex (h : fl.base = .hex) : ∃ pre ds, put fl 0 T v = pre ++ ds ∧
    (pre = [] ∨ (fl.showbase = true ∧ (pre = ['0', 'x'] ∨ pre = ['0', 'X']))) ∧
    ds ≠ [] ∧ (∀ c ∈ ds, c ∈ Lit.hexDigits) ∧ (Lit.seqValue 16 ds : ℤ) = v % 2 ^ T.bits := by
  obtain ⟨h1, h2, h3⟩ := digitsIn_value .hex fl.uppercase (asUnsigned T v)
  refine ⟨if fl.showbase ∧ asUnsigned T v ≠ 0 then ['0', if fl.uppercase then 'X' else 'x'] else [],
    digitsIn .hex fl.uppercase (asUnsigned T v), ?_, ?_, h1, h2, ?_⟩
  · rw [put_zero]; simp [plain, parts, h]
  · split
    · rename_i hs
      refine .inr ⟨hs.1, ?_⟩
      cases fl.uppercase <;> simp
    · exact .inl rfl
  · rw [show (16 : ℕ) = Base.hex.outRadix from rfl, h3, asUnsigned_cast]

/-- **C98** The text in octal is the number modulo `2^bits`. -/
theorem C98_written_oct (h : fl.base = .oct) : ∃ ds, put fl 0 T v = ds ∧ ds ≠ [] ∧
    (∀ c ∈ ds, c ∈ Lit.decDigits ∧ c ≠ '8' ∧ c ≠ '9') ∧
    (Lit.seqValue 8 ds : ℤ) = v % 2 ^ T.bits := by
  obtain ⟨h1, h2, h3⟩ := digitsIn_value .oct fl.uppercase (asUnsigned T v)
  have h4 := digitsIn_oct_mem fl.uppercase (asUnsigned T v)
  have e : put fl 0 T v = (if fl.showbase ∧ asUnsigned T v ≠ 0 then ['0'] else []) ++
      digitsIn .oct fl.uppercase (asUnsigned T v) := by
    rw [put_zero]; simp [plain, parts, h]
  have e3 : (Lit.seqValue 8 (digitsIn .oct fl.uppercase (asUnsigned T v)) : ℤ) = v % 2 ^ T.bits := by
    rw [show (8 : ℕ) = Base.oct.outRadix from rfl, h3, asUnsigned_cast]
  rw [e]
  split
  · refine ⟨_, rfl, by simp, fun c hc => ?_, e3⟩
    rcases List.mem_cons.1 hc with rfl | hc
    · decide
    · exact h4 c hc
  · exact ⟨_, rfl, h1, h4, e3⟩

example : ¬ (Flags.NonDecimal { showpos := true }) ∧ put { showpos := true } 0 i32 7 = ['+', '7'] ∧
    put { base := .hex, showbase := true } 0 i32 (-1) = "0xffffffff".toList ∧
    put { base := .oct, showbase := true } 0 u64 64 = "0100".toList := by
  refine ⟨(by rintro (h | h) <;> cases h), by decide +kernel, by decide +kernel, by decide +kernel⟩

/-- **C98** The width of the stream is used for the numerator alone: the denominator is never
padded, and the numerator takes at least the width. -/
theorem C98_width : writeF fl width T f = put fl width T f.num ++ '/' :: put fl 0 T f.den ∧
    (writeF fl width T f).length =
      max width (put fl 0 T f.num).length + 1 + (put fl 0 T f.den).length := by
  refine ⟨rfl, ?_⟩
  rw [writeF, List.length_append, List.length_cons, put_length]
  omega

example : writeF {} 6 i32 ⟨-1, 25⟩ = "    -1/25".toList := by decide +kernel

/-- **C98** With default formatting these are the operators of C48 and C49. -/
theorem C98_default (T : IntTy) (f g : Raw) (s : IStream) :
    writeF {} 0 T f = write f ∧ readF {} T s g = Stream.read T s g := by
  constructor
  · rw [writeF, write, put_default rfl (.inl rfl), put_default rfl (.inl rfl)]
  · simp only [readF, Stream.read, getIntF_default (fl := {}) rfl rfl]

/-! ## Refutations of the full claim -/

/-- **C98, refuted.**  A negative numerator written in hexadecimal can not be read back: `failbit`
is set and the numerator becomes the greatest value. -/
theorem C98_hex_negative :
    let fl : Flags := { base := .hex }
    (⟨-1, 2⟩ : Raw).InRange i32 ∧ writeF fl 0 i32 ⟨-1, 2⟩ = "ffffffff/2".toList ∧
    readF fl i32 ⟨writeF fl 0 i32 ⟨-1, 2⟩, false, false⟩ ⟨0, 1⟩ =
      (⟨2147483647, 1⟩, ⟨"/2".toList, false, true⟩) := by
  refine ⟨by decide, by decide +kernel, by decide +kernel⟩

/-- **C98, refuted.**  Padding between the sign and the digits (`std::internal`) can not be read
back. -/
theorem C98_internal :
    let fl : Flags := { adjust := .internal }
    (⟨-1, 2⟩ : Raw).InRange i32 ∧ writeF fl 4 i32 ⟨-1, 2⟩ = "-  1/2".toList ∧
    readF fl i32 ⟨writeF fl 4 i32 ⟨-1, 2⟩, false, false⟩ ⟨5, 7⟩ =
      (⟨0, 7⟩, ⟨"  1/2".toList, false, true⟩) := by
  refine ⟨by decide, by decide +kernel, by decide +kernel⟩

/-- **C98, refuted.**  Padding with zeros makes a negative fraction read back as another one
without failure: `-3/4` becomes `0/4`.  Without base flags even a positive one does: `10/3`
becomes `8/3`. -/
theorem C98_zero_fill :
    let fl : Flags := { fill := '0' }
    let fl' : Flags := { fill := '0', base := .unset }
    (⟨-3, 4⟩ : Raw).InRange i32 ∧ writeF fl 5 i32 ⟨-3, 4⟩ = "000-3/4".toList ∧
    readF fl i32 ⟨writeF fl 5 i32 ⟨-3, 4⟩, false, false⟩ ⟨5, 7⟩ = (⟨0, 4⟩, ⟨[], true, false⟩) ∧
    writeF fl' 3 i32 ⟨10, 3⟩ = "010/3".toList ∧
    readF fl' i32 ⟨writeF fl' 3 i32 ⟨10, 3⟩, false, false⟩ ⟨5, 7⟩ = (⟨8, 3⟩, ⟨[], true, false⟩) := by
  refine ⟨by decide, by decide +kernel, by decide +kernel, by decide +kernel, by decide +kernel⟩

end Ieme
