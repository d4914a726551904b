import Verif.Lemmas.StreamExact

/-!
# Streams: properties C48 and C49

`IsFraction text n d rest` (in `Verif/Spec/Stream.lean`) says that `text` begins with an
integer `n`, has a slash later on, after that an integer `d`, and then `rest`.
-/

namespace Ieme

open IntTy Ieme.Stream

variable {T : IntTy} {f g : Raw} {n d : ℤ} {text rest w : List Char}

/-- **C48** What was written is read back as it was, whatever the value was before, if the
following text does not begin with a digit: the parts are the same, the stream is good, or at
its end if nothing follows, and exactly the following text is left.  Whitespace before the
fraction is skipped, so that fractions can be read one after the other. -/
theorem C48_round_trip (hf : f.InRange T) (hw : Spaces w) (hr : NoDigitFirst rest) :
    Stream.read T ⟨w ++ (write f ++ rest), false, false⟩ g =
      (f, ⟨rest, rest.isEmpty, false⟩) := by
  have e : w ++ (write f ++ rest) =
      w ++ (showInt f.num ++ ([] ++ '/' :: ([] ++ (showInt f.den ++ rest)))) := by
    simp [write]
  have h1 := getInt_numeral (T := T) (rest := [] ++ '/' :: ([] ++ (showInt f.den ++ rest)))
    (old := g.num) hw (showInt_numeral f.num)
    (fun c t e => by obtain ⟨rfl, -⟩ := List.cons.inj e; decide) hf.1
  have h2 := getInt_numeral (T := T) (w := []) (old := g.den) (by simp [Spaces])
    (showInt_numeral f.den) hr hf.2
  simp only [Stream.read, e, h1]
  rw [ignore_slash (by simp) (by rfl)]
  rw [h2]

/-- **C48** The text is the numerator in decimal, a slash, and the denominator in decimal. -/
theorem C48_written_text (f : Raw) : ∃ a b, write f = a ++ '/' :: b ∧ Numeral a f.num ∧
    Numeral b f.den :=
  ⟨_, _, rfl, showInt_numeral _, showInt_numeral _⟩

/-- **C48** Different fractions are written differently. -/
theorem C48_injective (h : write f = write g) : f = g := by
  -- read both back on a type that is wide enough
  obtain ⟨B, hB⟩ : ∃ B : ℕ, 32 ≤ B ∧ f.num.natAbs + f.den.natAbs + g.num.natAbs + g.den.natAbs ≤ B :=
    ⟨_, Nat.le_max_left 32 _, Nat.le_max_right 32 _⟩
  have hp : B < 2 ^ B := Nat.lt_two_pow_self
  let W : IntTy := ⟨true, B + 1, by omega⟩
  have hin : ∀ x : ℤ, x.natAbs ≤ B → W.InRange x := fun x hx => by
    have e1 : W.min = -((2 ^ B : ℕ) : ℤ) := rfl
    have e2 : W.max = ((2 ^ B : ℕ) : ℤ) - 1 := rfl
    rw [IntTy.InRange, e1, e2]
    omega
  have hf : f.InRange W := ⟨hin _ (by omega), hin _ (by omega)⟩
  have hg : g.InRange W := ⟨hin _ (by omega), hin _ (by omega)⟩
  have nd : NoDigitFirst [] := fun c t e => by cases e
  have h1 := C48_round_trip (g := f) (w := []) hf (by simp [Spaces]) nd
  have h2 := C48_round_trip (g := f) (w := []) hg (by simp [Spaces]) nd
  rw [h] at h1
  exact (Prod.mk.inj (h1.symm.trans h2)).1

example : (⟨-2147483648, 7⟩ : Raw).InRange i32 ∧ write ⟨-2147483648, 7⟩ = "-2147483648/7".toList ∧
    Spaces [' ', '\n'] ∧ NoDigitFirst " 1/2".toList ∧
    Stream.read i32 ⟨" -2147483648/7 1/2".toList, false, false⟩ ⟨0, 1⟩ =
      (⟨-2147483648, 7⟩, ⟨" 1/2".toList, false, false⟩) := by
  refine ⟨by decide, by decide +kernel, by unfold Spaces; decide, ?_, by decide +kernel⟩
  intro c t e
  have : ' ' = c := (List.cons.inj e).1
  subst this
  decide

/-- The condition on the following text is needed: the denominator takes in further digits. -/
example : Stream.read i32 ⟨write ⟨1, 2⟩ ++ ['3'], false, false⟩ ⟨0, 1⟩ =
    (⟨1, 23⟩, ⟨[], true, false⟩) := by decide +kernel

/-! ## Malformed input -/

/-- **C49** Text of the right form whose integers fit is read. -/
theorem C49_well_formed_read (h : IsFraction text n d rest) (hn : T.InRange n)
    (hd : T.InRange d) :
    Stream.read T ⟨text, false, false⟩ g = (⟨n, d⟩, ⟨rest, rest.isEmpty, false⟩) := by
  obtain ⟨w, a, junk, w', b, rfl, h1, h2, h3, h4, h5, h6, h7⟩ := h
  have nd : NoDigitFirst (junk ++ '/' :: (w' ++ (b ++ rest))) := by
    intro c t e
    cases junk with
    | nil =>
      obtain ⟨rfl, -⟩ := List.cons.inj e
      decide
    | cons x l =>
      obtain ⟨rfl, -⟩ := List.cons.inj e
      exact h4 x (l ++ ['/']) rfl
  have k1 := getInt_numeral (T := T) (old := g.num) h1 h2 nd hn
  have k2 := getInt_numeral (T := T) (old := g.den) h5 h6 h7 hd
  simp only [Stream.read, k1]
  rw [ignore_slash h3 (by cases junk <;> rfl), k2]

/-- **C49, partial.**  Full claim: if `failbit` is not set, the text has the right form, its
integers fit, and they are what was read.  Proved for signed types, and for unsigned types
when there is no minus sign in the text; false otherwise, see `C49_unsigned_negative`. -/
theorem C49_success_exact_partial {s : IStream} (hu : T.signed = true ∨ '-' ∉ text)
    (h : Stream.read T ⟨text, false, false⟩ g = (f, s)) (hf : s.fail = false) :
    IsFraction text f.num f.den s.rest ∧ f.InRange T ∧ s.eof = s.rest.isEmpty := by
  simp only [Stream.read] at h
  generalize e1 : getInt T ⟨text, false, false⟩ g.num = r1 at h
  generalize e2 : ignore r1.2 '/' = s2 at h
  generalize e3 : getInt T s2 g.den = r3 at h
  obtain ⟨rfl, rfl⟩ := Prod.mk.inj h
  obtain ⟨n1, s1⟩ := r1
  obtain ⟨d3, s3⟩ := r3
  -- the second integer; its text is a part of the whole
  have good2 : s2.eof = false ∧ s2.fail = false := by
    unfold getInt at e3
    split at e3
    · obtain ⟨-, rfl⟩ := Prod.mk.inj e3
      cases hf
    · rename_i hs
      cases h1 : s2.eof <;> cases h2 : s2.fail <;> simp_all
  subst e2
  obtain ⟨i1, i2, junk, i3, i4⟩ := ignore_good good2.1 good2.2
  obtain ⟨-, -, w, a, t1, t2, t3, t4, t5, t6⟩ := getInt_ok e1 i2 hu
  simp only at i1 i2 i3 t1 t4 t6 e3
  have sub : '-' ∉ text → '-' ∉ (ignore s1 '/').rest := fun hn hm => hn (by
    rw [t1, i3]
    simp only [List.mem_append, List.mem_cons]
    exact .inr (.inr (.inr (.inr hm))))
  obtain ⟨-, -, w', b, u1, u2, u3, u4, u5, u6⟩ := getInt_ok e3 hf (hu.imp_right sub)
  refine ⟨⟨w, a, junk, w', b, ?_, t2, t3, i4, ?_, u2, u3, u4⟩, ⟨t5, u5⟩, u6⟩
  · rw [t1, i3]
    conv_lhs => rw [u1]
  · intro c t e
    rw [i3] at t4
    cases junk with
    | nil =>
      obtain ⟨rfl, -⟩ := List.cons.inj e
      decide
    | cons x l =>
      obtain ⟨rfl, -⟩ := List.cons.inj e
      exact t4 x _ rfl

/-- **C49, partial** (see `C49_success_exact_partial`).  Text that does not have the right
form, or has an integer that does not fit, sets `failbit`. -/
theorem C49_malformed_fails_partial (hu : T.signed = true ∨ '-' ∉ text)
    (h : ∀ n d rest, IsFraction text n d rest → ¬ (T.InRange n ∧ T.InRange d)) :
    (Stream.read T ⟨text, false, false⟩ g).2.fail = true := by
  by_contra hc
  have hf : (Stream.read T ⟨text, false, false⟩ g).2.fail = false := by simpa using hc
  obtain ⟨h1, h2, -⟩ := C49_success_exact_partial hu rfl hf
  exact h _ _ _ h1 ⟨h2.1, h2.2⟩

/-- **C49** Exactly when extraction succeeds, and what is read, for every type: the text must have
the right form and both integers must be accepted; for signed types these are the ones that fit. -/
theorem C49_success_iff {e : Bool} : Stream.read T ⟨text, false, false⟩ g = (f, ⟨rest, e, false⟩) ↔
    e = rest.isEmpty ∧ ∃ n d, IsFraction text n d rest ∧ Accepted T n ∧ Accepted T d ∧
      f = ⟨received T n, received T d⟩ := by
  constructor
  · intro h
    rcases read_cases T text g with ⟨n, d, rest', h1, h2, h3, h4⟩ | ⟨-, hf⟩
    · rw [h] at h4
      obtain ⟨rfl, h5⟩ := Prod.mk.inj h4
      obtain ⟨rfl, rfl, -⟩ := IStream.mk.inj h5
      exact ⟨rfl, n, d, h1, h2, h3, rfl⟩
    · rw [h] at hf; cases hf
  · rintro ⟨rfl, n, d, h1, h2, h3, rfl⟩
    exact read_isFraction h1 h2 h3

/-- **C49** For signed types the accepted integers are those that fit, and they are stored
unchanged; for unsigned types negative integers are stored modulo `2^bits`. -/
theorem C49_accepted (T : IntTy) (n : ℤ) :
    (T.signed = true → (Accepted T n ↔ T.InRange n)) ∧
    (T.InRange n → Accepted T n ∧ received T n = n) ∧
    (Accepted T n → ∃ k : ℤ, received T n = n + k * 2 ^ T.bits) ∧ T.InRange (received T n) := by
  have h1 := T.min_le_zero
  have h2 := T.max_ge
  have hp : (0 : ℤ) < 2 ^ T.bits := by positivity
  refine ⟨fun hs => by rw [Accepted, if_pos hs], fun hr => ?_, fun ha => ?_, ?_⟩
  · obtain ⟨h3, h4⟩ := id hr
    by_cases hs : T.signed = true
    · rw [Accepted, received, if_pos hs, if_pos hs]
      exact ⟨hr, by omega⟩
    · have h0 := hr.nonneg (by simpa using hs)
      have h5 : (n.natAbs : ℤ) ≤ T.max := by omega
      rw [Accepted, received, if_neg hs, if_neg hs, if_pos h5]
      have := IntTy.wrap_of_inRange hr
      rw [IntTy.wrap, if_neg hs] at this
      exact ⟨h5, by simpa using this⟩
  · by_cases hs : T.signed = true
    · rw [Accepted, if_pos hs] at ha
      obtain ⟨h3, h4⟩ := ha
      rw [received, if_pos hs]
      exact ⟨0, by omega⟩
    · rw [Accepted, if_neg hs] at ha
      rw [received, if_neg hs, if_pos ha]
      refine ⟨-(n / 2 ^ T.bits), ?_⟩
      have := Int.emod_add_mul_ediv n (2 ^ T.bits)
      linarith
  · by_cases hs : T.signed = true
    · rw [received, if_pos hs]
      constructor <;> omega
    · rw [received, if_neg hs]
      split
      · have := T.wrap_inRange n
        rw [IntTy.wrap, if_neg hs] at this
        simpa using this
      · constructor <;> omega

/-- The hypotheses of `C49_success_iff` in a case where the result differs from the text. -/
example : IsFraction "-1/2".toList (-1) 2 [] → Accepted u32 (-1) ∧ received u32 (-1) = 4294967295 ∧
    ¬ Accepted i32 2147483648 ∧ received i32 2147483648 = 2147483647 := fun _ => by decide

/-- **C49** Reading from a stream that is at its end or has failed sets `failbit` and changes
nothing else. -/
theorem C49_not_good_fails {s : IStream} (h : s.eof = true ∨ s.fail = true) :
    Stream.read T s f = (f, { s with fail := true }) := by
  have hg : (s.eof || s.fail) = true := by simpa using h
  simp only [Stream.read, getInt, hg, if_true, ignore, Bool.or_true]

/-- **C49, refuted for unsigned types.**  A negative integer does not fit an unsigned type, but
`-1/2` is read without complaint as `4294967295/2`. -/
theorem C49_unsigned_negative :
    IsFraction "-1/2".toList (-1) 2 [] ∧ ¬ u32.InRange (-1) ∧
    Stream.read u32 ⟨"-1/2".toList, false, false⟩ ⟨0, 1⟩ =
      (⟨4294967295, 2⟩, ⟨[], true, false⟩) := by
  refine ⟨?_, by decide, by decide +kernel⟩
  refine ⟨[], ['-', '1'], [], [], ['2'], by decide, by simp [Spaces], ?_, by decide, ?_,
    by simp [Spaces], ?_, ?_⟩
  · exact .minus (ds := ['1']) (by decide) (by decide)
  · intro c t e; obtain ⟨rfl, -⟩ := List.cons.inj e; decide
  · exact .bare (ds := ['2']) (by decide) (by decide)
  · intro c t e; cases e

example :
    (Stream.read i32 ⟨"12".toList, false, false⟩ ⟨0, 1⟩).2.fail = true ∧
    (Stream.read i32 ⟨"12 ".toList, false, false⟩ ⟨0, 1⟩).2.fail = true ∧
    (Stream.read i32 ⟨"/3".toList, false, false⟩ ⟨0, 1⟩).2.fail = true ∧
    (Stream.read i32 ⟨"1/x".toList, false, false⟩ ⟨0, 1⟩).2.fail = true ∧
    (Stream.read i32 ⟨"2147483648/3".toList, false, false⟩ ⟨0, 1⟩).2.fail = true ∧
    (Stream.read i32 ⟨"".toList, false, false⟩ ⟨0, 1⟩).2.fail = true ∧
    Stream.read i32 ⟨"1 apple/ +2 pears".toList, false, false⟩ ⟨0, 1⟩ =
      (⟨1, 2⟩, ⟨" pears".toList, false, false⟩) := by decide +kernel

end Ieme
