import Verif.Lemmas.ReadLoop
import Verif.Props.StreamRead
import Verif.Props.StreamMore
import Verif.Props.StreamFmt
import Verif.Props.Numeric
import Verif.Props.Arith
import Verif.Props.Finish

/-!
# Programs that read a text of fractions to its end: property C143
-/

namespace Ieme

open Stream Std

variable {fl : Flags} {T : IntTy} {o : Ops} {text rest sep : List Char} {f g : Raw}
  {xs : List Raw}

/-- **C143** Exactly what `while (stream >> value)` collects from any text, under any formatting flags
and for any type: the fractions that the text begins with, up to the first place where no fraction
that the type accepts follows. -/
theorem C143_collects_iff : (readLoop fl T ⟨text, false, false⟩ g).1 = xs ↔
    ∃ rest, Records fl T text xs rest ∧ NoRecord fl T rest := by
  constructor
  · rintro rfl
    obtain ⟨xs, rest, h1, h2⟩ := exists_records fl T text
    rw [records_loop h1 h2]
    exact ⟨rest, h1, h2⟩
  · rintro ⟨rest, h1, h2⟩
    exact records_loop h1 h2 g

/-- Text after the fractions, a number too large, and numbers in hexadecimal. -/
example : (readLoop {} i32 ⟨"1/2 -3/4 and more".toList, false, false⟩ ⟨0, 1⟩).1 =
      [⟨1, 2⟩, ⟨-3, 4⟩] ∧
    (readLoop {} i32 ⟨"1/2 3000000000/4 5/6".toList, false, false⟩ ⟨0, 1⟩).1 = [⟨1, 2⟩] ∧
    (readLoop { base := .hex } i32 ⟨"a/ff 0x10/3".toList, false, false⟩ ⟨0, 1⟩).1 =
      [⟨10, 255⟩, ⟨16, 3⟩] := by decide +kernel

/-- **C143** What is collected has parts of the type, and there is at most one fraction for each three
characters. -/
theorem C143_collected_small :
    (∀ x ∈ (readLoop fl T ⟨text, false, false⟩ g).1, x.InRange T) ∧
    3 * (readLoop fl T ⟨text, false, false⟩ g).1.length ≤ text.length := by
  obtain ⟨rest, h1, -⟩ := C143_collects_iff.1 (rfl : (readLoop fl T ⟨text, false, false⟩ g).1 = _)
  exact ⟨h1.inRange, by have := h1.length; omega⟩

example : (readLoop {} u32 ⟨"-1/2".toList, false, false⟩ ⟨0, 1⟩).1 = [⟨4294967295, 2⟩] := by
  decide +kernel

/-- **C143** What the loop leaves: `failbit` is set on every text, and the value is what a failed
extraction from the rest of the text leaves of the last fraction, which is that fraction itself if
there is no rest. -/
theorem C143_left (h : Records fl T text xs rest) (hr : NoRecord fl T rest) :
    (readLoop fl T ⟨text, false, false⟩ g).2.2.fail = true ∧
    (rest = [] → xs ≠ [] → (readLoop fl T ⟨text, false, false⟩ g).2.1 = xs.getLastD g) ∧
    (rest ≠ [] ∨ xs = [] →
      FractionFailureF fl T (xs.getLastD g).num (xs.getLastD g).den rest
        (readLoop fl T ⟨text, false, false⟩ g).2.1.num
        (readLoop fl T ⟨text, false, false⟩ g).2.1.den) := by
  refine ⟨readLoop_fails _ _, ?_⟩
  have failure : ∀ {text : List Char} (g : Raw), NoRecord fl T text →
      FractionFailureF fl T g.num g.den text (readLoop fl T ⟨text, false, false⟩ g).2.1.num
        (readLoop fl T ⟨text, false, false⟩ g).2.1.den := by
    intro text g hr
    rw [readLoop_noRecord hr]
    exact C102_failure_iff.1 ⟨rfl, readF_noRecord hr⟩
  induction h generalizing g with
  | none => exact ⟨fun _ h => absurd rfl h, fun _ => failure g hr⟩
  | @more text text' rest n d ys h1 h2 h3 h4 ih =>
    rw [readLoop_record h1 h2 h3]
    obtain ⟨k1, k2⟩ := ih (g := ⟨received T n, received T d⟩) hr
    rw [List.getLastD_cons]
    by_cases ht : text' = []
    · subst ht
      cases h4 with
      | none => exact ⟨fun _ _ => by rw [readLoop_bad (by simp)]; rfl, fun h => by simp at h⟩
      | more h _ _ _ => exact absurd h.length (by simp)
    · have e : text'.isEmpty = false := by rw [List.isEmpty_eq_false_iff]; exact ht
      rw [e]
      refine ⟨fun h _ => ?_, fun h => k2 (.inl (h.resolve_right (by simp)))⟩
      cases h4 with
      | none => exact absurd h ht
      | more a b c d => exact k1 h (by simp)

example : (readLoop {} i32 ⟨"1/2 3/4".toList, false, false⟩ ⟨0, 1⟩).2 =
      (⟨3, 4⟩, ⟨[], true, true⟩) ∧
    (readLoop {} i32 ⟨"1/2 3/x".toList, false, false⟩ ⟨0, 1⟩).2 =
      (⟨3, 0⟩, ⟨['x'], false, true⟩) := by decide +kernel

/-- **C143** From a text of written fractions, with whitespace between them and possibly around them,
all are collected; the value is the last one and the stream is at its end. -/
theorem C143_written {vs : List (List Char × Raw)} (h : SpacedFile T vs) (hr : Spaces rest) :
    readLoop {} T ⟨writeAll vs ++ rest, false, false⟩ g =
      (vs.map (·.2), (vs.map (·.2)).getLastD g, ⟨[], true, true⟩) := by
  have blank : ∀ {b : Bool} {g : Raw}, (b = true → rest = []) →
      readLoop {} T ⟨rest, b, false⟩ g = ([], g, ⟨[], true, true⟩) := by
    intro b g hb
    have e : readF {} T ⟨rest, b, false⟩ g = (g, ⟨[], true, true⟩) := by
      rw [(C98_default T g g _).2]
      cases b with
      | true => rw [hb rfl]; rfl
      | false =>
        have := spaces_iff.1 hr
        simp [Stream.read, getInt, ignore, this]
    rw [readLoop_fail (by rw [e]), e]
  obtain ⟨h1, h2⟩ := h
  suffices H : ∀ {b : Bool} (vs : List (List Char × Raw)) (g : Raw),
      (∀ v ∈ vs, Spaces v.1 ∧ v.2.InRange T) → (∀ v ∈ vs.tail, v.1 ≠ []) →
      (b = true → writeAll vs ++ rest = []) →
      readLoop {} T ⟨writeAll vs ++ rest, b, false⟩ g =
        (vs.map (·.2), (vs.map (·.2)).getLastD g, ⟨[], true, true⟩) from
    H vs g h1 h2 (by simp)
  clear h1 h2 vs
  intro b vs g h1 h2 hb
  induction vs generalizing g b with
  | nil =>
    rw [show writeAll [] ++ rest = rest from rfl] at hb ⊢
    rw [blank hb]
    rfl
  | cons v vs ih =>
    obtain ⟨hw, hv⟩ := h1 v (by simp)
    have e : writeAll (v :: vs) ++ rest = v.1 ++ (write v.2 ++ (writeAll vs ++ rest)) := by
      obtain ⟨w, u⟩ := v
      simp [writeAll]
    have hb' : b = false := by
      by_contra hc
      have := hb (by simpa using hc)
      rw [e] at this
      simp [write] at this
    have spaced : ∀ {w t : List Char}, Spaces w → w ≠ [] → NoDigitFirst (w ++ t) := by
      intro w t hw h0 c t' e hc
      cases w with
      | nil => exact h0 rfl
      | cons x l =>
        obtain ⟨rfl, -⟩ := List.cons.inj e
        have := hw.isSpace x (by simp)
        rw [space_not_digit (Stream.mem_decDigits.1 hc)] at this
        cases this
    have hn : NoDigitFirst (writeAll vs ++ rest) := by
      cases vs with
      | nil =>
        rw [show writeAll [] ++ rest = rest from rfl]
        by_cases h0 : rest = []
        · rw [h0]; intro c t e; simp at e
        · have := spaced (t := []) hr h0
          rwa [List.append_nil] at this
      | cons u us =>
        obtain ⟨w, u⟩ := u
        have := spaced (t := write u ++ writeAll us ++ rest) (h1 (w, u) (by simp)).1
          (h2 (w, u) (by simp))
        simpa [writeAll] using this
    have er : readF {} T ⟨writeAll (v :: vs) ++ rest, b, false⟩ g =
        (v.2, ⟨writeAll vs ++ rest, (writeAll vs ++ rest).isEmpty, false⟩) := by
      rw [(C98_default T g g _).2, e, hb', C48_round_trip hv hw hn]
    rw [readLoop_ok (by rw [er]), er]
    dsimp only
    rw [ih v.2 (fun u hu => h1 u (by simp [hu])) (fun u hu => h2 u (by
      rw [List.tail_cons]; exact List.mem_of_mem_tail hu)) (by
        intro h; exact List.isEmpty_iff.1 h)]
    rw [List.map_cons, List.getLastD_cons]

example : SpacedFile i32 [([], ⟨1, 2⟩), (['\n'], ⟨-3, 4⟩)] ∧
    writeAll [([], ⟨1, 2⟩), (['\n'], ⟨-3, 4⟩)] ++ ['\n'] = "1/2\n-3/4\n".toList := by
  refine ⟨⟨by unfold Spaces; decide, by decide⟩, by decide +kernel⟩

/-- **C143** Exactly when the stream is at its end after the loop, with default flags: when nothing but
whitespace is left, and also when the text breaks off within a fraction. -/
theorem C143_eof_iff (h : Records {} T text xs rest) (hr : NoRecord {} T rest) :
    (readLoop {} T ⟨text, false, false⟩ g).2.2.eof = true ↔ UsedUp T rest := by
  have stop : ∀ {text : List Char} (g : Raw), NoRecord {} T text →
      ((readLoop {} T ⟨text, false, false⟩ g).2.2.eof = true ↔ UsedUp T text) := by
    intro text g hr
    rw [readLoop_noRecord hr]
    have := readF_noRecord (g := g) hr
    rw [(C98_default T g g _).2] at this ⊢
    exact read_eof this
  induction h generalizing g with
  | none => exact stop g hr
  | @more text text' rest n d ys h1 h2 h3 h4 ih =>
    rw [readLoop_record h1 h2 h3]
    by_cases ht : text' = []
    · subst ht
      cases h4 with
      | none =>
        rw [readLoop_bad (by simp)]
        exact iff_of_true rfl (.inl (.inl (by simp [Spaces])))
      | more h _ _ _ => exact absurd h.length (by simp)
    · have e : text'.isEmpty = false := by rw [List.isEmpty_eq_false_iff]; exact ht
      rw [e]
      exact ih hr

example : UsedUp i32 " \n".toList ∧ UsedUp i32 "12".toList ∧ UsedUp i32 "3/-".toList :=
  ⟨.inl (.inl (by unfold Spaces; decide)),
    .inl (.inr (.inr ⟨12, [], ['1', '2'], rfl, by simp [Spaces], .bare (by simp) (by decide),
      by intro c t e; simp at e⟩)),
    .inr (.inr ⟨3, [], ['-'], ⟨[], ['3'], rfl, by simp [Spaces], .bare (by simp) (by decide), by
      intro c t e; obtain ⟨rfl, -⟩ := List.cons.inj e; decide⟩, by decide, by simp,
      .inr (.inl ⟨[], '-', rfl, by simp [Spaces], .inr rfl⟩)⟩)⟩

/-- **C143, what the code does not give.**  A number without slash is joined with the next
fraction: from `5`, `1/2`, `3/4` on three lines the loop collects `5/2` and `3/4`, and ends in the same
state as after a well-formed text.  A text that breaks off also ends in that state: after `1/2 7`
the value is `7/2`, after `1/2 3/` it is `3/2`, which nobody wrote.  Other text stops the
loop and leaves a zero numerator. -/
theorem C143_not_detected :
    readLoop {} i32 ⟨"5\n1/2\n3/4\n".toList, false, false⟩ ⟨0, 1⟩ =
      ([⟨5, 2⟩, ⟨3, 4⟩], ⟨3, 4⟩, ⟨[], true, true⟩) ∧
    readLoop {} i32 ⟨"5/2\n3/4\n".toList, false, false⟩ ⟨0, 1⟩ =
      ([⟨5, 2⟩, ⟨3, 4⟩], ⟨3, 4⟩, ⟨[], true, true⟩) ∧
    readLoop {} i32 ⟨"1/2 7".toList, false, false⟩ ⟨0, 1⟩ = ([⟨1, 2⟩], ⟨7, 2⟩, ⟨[], true, true⟩) ∧
    readLoop {} i32 ⟨"1/2 3/".toList, false, false⟩ ⟨0, 1⟩ = ([⟨1, 2⟩], ⟨3, 2⟩, ⟨[], true, true⟩) ∧
    readLoop {} i32 ⟨"1/2 x 3/4".toList, false, false⟩ ⟨0, 1⟩ =
      ([⟨1, 2⟩], ⟨0, 2⟩, ⟨"x 3/4".toList, false, true⟩) := by
  refine ⟨by decide +kernel, by decide +kernel, by decide +kernel, by decide +kernel, by decide +kernel⟩

/-! ## Adding up -/

/-- **C143** The loop that adds up what it reads does what `std::accumulate` does with what the first
loop collects, and leaves the same value and stream. -/
theorem C143_sum_loop (s : IStream) (g sum : Raw) :
    sumLoop fl T o s g sum = (do
      let r ← accumulate T o .plus sum (readLoop fl T s g).1
      return (r, (readLoop fl T s g).2)) := sumLoop_eq o s g sum

/-- **C143** So on any text, if the fractions that are collected are defined, the sum is exact. -/
theorem C143_sum_exact {sum r : Raw} {p : Raw × IStream} (hs : sum.den ≠ 0)
    (hx : AllDefined (readLoop fl T ⟨text, false, false⟩ g).1)
    (h : sumLoop fl T o ⟨text, false, false⟩ g sum ⇓ (r, p)) :
    Denotes r (sum.quot + sumOf (readLoop fl T ⟨text, false, false⟩ g).1) ∧
      p = (readLoop fl T ⟨text, false, false⟩ g).2 := by
  rw [C143_sum_loop] at h
  obtain ⟨r', h1, h2⟩ := Res.bind_eq_clean.1 h
  obtain ⟨rfl, rfl⟩ := Prod.mk.inj (Res.pure_eq_ok.1 h2).1
  exact ⟨C133_accumulate hs hx h1, rfl⟩

example : sumLoop {} i32 .defaults ⟨"1/2 1/3 -5/6".toList, false, false⟩ ⟨0, 1⟩ ⟨0, 1⟩ ⇓
      (⟨0, 1⟩, ⟨-5, 6⟩, ⟨[], true, true⟩) ∧
    sumLoop {} i32 .defaults ⟨"1/2 1/0".toList, false, false⟩ ⟨0, 1⟩ ⟨0, 1⟩ = .fault .divByZero := by
  decide +kernel

/-- **C143** End to end: from a text of written fractions whose denominators divide a representable `D`
and whose magnitudes, in units of `1/D`, add up to a representable number, the program makes exactly
their sum, in lowest terms under a policy that normalises results. -/
theorem C143_sum_written {vs : List (List Char × Raw)} {D : ℤ} (hf : SpacedFile T vs)
    (hr : Spaces rest) (ho : o.BasedOnSafe) (hn : o.NormalizesOutput) (hs : T.signed = true)
    (hD : 0 < D) (hDm : D ≤ T.max) (hd : ∀ v ∈ vs, v.2.den ≠ 0 ∧ v.2.den ∣ D)
    (hw : weightOver D (vs.map (·.2)) ≤ T.max) :
    ∃ r, sumLoop {} T o ⟨writeAll vs ++ rest, false, false⟩ g ⟨0, 1⟩ ⇓
        (r, (vs.map (·.2)).getLastD g, ⟨[], true, true⟩) ∧
      Canonical r ∧ r.quot = sumOf (vs.map (·.2)) := by
  have hdef : ∀ x ∈ (⟨0, 1⟩ : Raw) :: vs.map (·.2), x.den ≠ 0 ∧ x.den ∣ D := by
    rintro x (_ | ⟨_, hx⟩)
    · exact ⟨by simp, by simp⟩
    · obtain ⟨v, hv, rfl⟩ := List.mem_map.1 hx
      exact hd v hv
  obtain ⟨t, ht, e⟩ := C133_accumulate_is_reduce T o .plus ⟨0, 1⟩ (vs.map (·.2))
  obtain ⟨r, h1, -, h2, h3⟩ := C133_reduce_finishes (init := ⟨0, 1⟩) (xs := vs.map (·.2)) (g := t)
    ho hs hD hDm (by rw [Grouping.Of, ht]) hdef (by
      simp only [weightOver, List.map_cons, List.sum_cons, Raw.over] at hw ⊢
      simpa using hw)
  rw [← e] at h1
  refine ⟨r, ?_, ?_, ?_⟩
  · rw [C143_sum_loop, C143_written hf hr, h1, Res.ok_bind_false]
    rfl
  · have inr : ∀ x ∈ vs.map (·.2), x.InRange T := by
      intro x hx
      obtain ⟨v, hv, rfl⟩ := List.mem_map.1 hx
      exact (hf.1 v hv).2
    cases vs with
    | nil =>
      obtain rfl : (⟨0, 1⟩ : Raw) = r := (Res.pure_eq_ok.1 h1).1
      exact ⟨by decide, by decide⟩
    | cons v vs =>
      rw [e] at h1
      refine Grouping.eval_canonical hn ?_ (by rw [ht]; simp) h1 h2
      rw [ht]
      rintro x (_ | ⟨_, hx⟩)
      · have := T.max_ge
        have := T.min_le_zero
        refine ⟨⟨?_, ?_⟩, ?_, ?_⟩ <;> simp only <;> omega
      · exact inr x hx
  · rw [Raw.quot, h3]
    simp [Raw.quot]

example : SpacedFile i32 [([], ⟨1, 2⟩), (['\n'], ⟨1, -3⟩)] ∧ Ops.defaults.BasedOnSafe ∧
    weightOver 6 [⟨1, 2⟩, ⟨1, -3⟩] ≤ i32.max ∧
    sumLoop {} i32 .defaults ⟨"1/2\n1/-3\n".toList, false, false⟩ ⟨0, 1⟩ ⟨0, 1⟩ ⇓
      (⟨1, 6⟩, ⟨1, -3⟩, ⟨[], true, true⟩) := by
  refine ⟨⟨by unfold Spaces; decide, by decide⟩, trivial, ?_, by decide +kernel⟩
  simp only [weightOver]
  decide +kernel

/-! ## Writing again -/

/-- What is written for the fractions `xs`. -/
private theorem lines_eq (sep : List Char) (xs : List Raw) : ∃ vs rest,
    (xs.flatMap fun v => write v ++ sep) = writeAll vs ++ rest ∧ vs.map (·.2) = xs ∧
    (∀ v ∈ vs, v.1 = [] ∨ v.1 = sep) ∧ (∀ v ∈ vs.tail, v.1 = sep) ∧ (rest = [] ∨ rest = sep) := by
  have key : ∀ xs : List Raw, sep ++ (xs.flatMap fun v => write v ++ sep) =
      writeAll (xs.map fun v => (sep, v)) ++ sep := by
    intro xs
    induction xs with
    | nil => simp [writeAll]
    | cons x xs ih => simp [writeAll, ← ih]
  cases xs with
  | nil => exact ⟨[], [], rfl, rfl, by simp, by simp, .inl rfl⟩
  | cons x xs =>
    refine ⟨([], x) :: xs.map fun v => (sep, v), sep, ?_, ?_, ?_, ?_, .inr rfl⟩
    · simp [writeAll, key]
    · simp
    · simp
    · simp

private theorem readLoop_lines (hs : Spaces sep) (h0 : sep ≠ []) (hx : ∀ x ∈ xs, x.InRange T)
    (g : Raw) :
    readLoop {} T ⟨xs.flatMap fun v => write v ++ sep, false, false⟩ g =
      (xs, xs.getLastD g, ⟨[], true, true⟩) := by
  obtain ⟨vs, rest, e, rfl, h1, h2, h3⟩ := lines_eq sep xs
  rw [e, C143_written ⟨fun v hv => ⟨?_, hx _ (List.mem_map_of_mem hv)⟩, fun v hv => ?_⟩]
  · rcases h3 with rfl | rfl
    · simp [Spaces]
    · exact hs
  · rcases h1 v hv with h | h <;> rw [h]
    · simp [Spaces]
    · exact hs
  · rw [h2 v hv]; exact h0

/-- **C143** The loop `while (in >> value) out << value << sep`, whatever the text and the flags of
`in`, writes a text from which the same fractions are collected; and copying that text again
reproduces it. -/
theorem C143_copy (hs : Spaces sep) (h0 : sep ≠ []) :
    readLoop {} T ⟨copyLoop fl T sep ⟨text, false, false⟩ g, false, false⟩ f =
      ((readLoop fl T ⟨text, false, false⟩ g).1,
        (readLoop fl T ⟨text, false, false⟩ g).1.getLastD f, ⟨[], true, true⟩) ∧
    copyLoop {} T sep ⟨copyLoop fl T sep ⟨text, false, false⟩ g, false, false⟩ f =
      copyLoop fl T sep ⟨text, false, false⟩ g := by
  have e := readLoop_lines hs h0 (C143_collected_small (fl := fl) (T := T) (text := text) (g := g)).1 f
  rw [copyLoop_eq, copyLoop_eq, e]
  exact ⟨rfl, rfl⟩

/-- Numbers with signs, zeros and text between the parts are written in their plain form. -/
example : copyLoop {} i32 ['\n'] ⟨" +01/2 -3 over / 4 x".toList, false, false⟩ ⟨0, 1⟩ =
      "1/2\n-3/4\n".toList ∧
    copyLoop { base := .hex } i32 ['\n'] ⟨"ff/0x10".toList, false, false⟩ ⟨0, 1⟩ =
      "255/16\n".toList := by decide +kernel

/-- **C143** The loop that reduces what it reads before it writes it finishes exactly when no collected
fraction that is defined has the minimum of a signed type as a part. -/
theorem C143_reduce_finishes_iff (mode : ReduceMode) :
    (∃ t, reduceLoop fl T mode sep ⟨text, false, false⟩ g ⇓ t) ↔
      ∀ x ∈ (readLoop fl T ⟨text, false, false⟩ g).1, x.den ≠ 0 → T.signed = true →
        x.num ≠ T.min ∧ x.den ≠ T.min := by
  have hr := (C143_collected_small (fl := fl) (T := T) (text := text) (g := g)).1
  simp only [reduceLoop_iff]
  generalize (readLoop fl T ⟨text, false, false⟩ g).1 = xs at hr
  have step : ∀ x : Raw, x.InRange T → ((∃ y, x.reduce T mode ⇓ y) ↔
      (x.den ≠ 0 → T.signed = true → x.num ≠ T.min ∧ x.den ≠ T.min)) := by
    intro x hx
    by_cases h0 : x.den = 0
    · exact iff_of_true ⟨_, C21_reduce_undefined mode h0⟩ fun h => absurd h0 h
    · rw [imp_iff_right h0, ← C21_reduce_finishes_iff mode hx h0]
      constructor
      · rintro ⟨y, h⟩; exact .of_clean h
      · rintro ⟨y, w, h⟩
        exact ⟨y, by rw [h, C22_reduce_never_wraps hx h]⟩
  constructor
  · rintro ⟨t, ys, h, -⟩
    induction h with
    | nil => simp
    | cons h1 _ ih =>
      rw [List.forall_mem_cons]
      exact ⟨(step _ (hr _ (by simp))).1 ⟨_, h1⟩, ih fun x hx => hr x (by simp [hx])⟩
  · intro h
    suffices H : ∃ ys, List.Forall₂ (fun x y => x.reduce T mode ⇓ y) xs ys from
      let ⟨ys, hy⟩ := H; ⟨_, ys, hy, rfl⟩
    induction xs with
    | nil => exact ⟨[], .nil⟩
    | cons x xs ih =>
      obtain ⟨ys, hy⟩ := ih (fun x hx => hr x (by simp [hx])) (fun x hx => h x (by simp [hx]))
      obtain ⟨y, h1⟩ := (step x (hr x (by simp))).2 (h x (by simp))
      exact ⟨y :: ys, .cons h1 hy⟩

/-- **C143** From what that loop writes the reduced fractions are collected, in the same number, order
and with the same values; and running the loop on it again reproduces it. -/
theorem C143_reduce_again {mode : ReduceMode} {t : List Char} (hs : Spaces sep) (h0 : sep ≠ [])
    (h : reduceLoop fl T mode sep ⟨text, false, false⟩ g ⇓ t) :
    List.Forall₂ (fun x y => x.reduce T mode ⇓ y ∧ ∀ q, Denotes y q ↔ Denotes x q)
      (readLoop fl T ⟨text, false, false⟩ g).1 (readLoop {} T ⟨t, false, false⟩ f).1 ∧
    reduceLoop {} T mode sep ⟨t, false, false⟩ f ⇓ t := by
  have hr := (C143_collected_small (fl := fl) (T := T) (text := text) (g := g)).1
  obtain ⟨ys, hy, rfl⟩ := (reduceLoop_iff mode sep _ g).1 h
  have hys : ∀ y ∈ ys, y.InRange T ∧ y.reduce T mode ⇓ y := by
    clear h
    generalize (readLoop fl T ⟨text, false, false⟩ g).1 = xs at hr hy
    induction hy with
    | nil => simp
    | cons h1 _ ih =>
      rw [List.forall_mem_cons]
      exact ⟨⟨Raw.reduce_inRange h1, C22_reduce_idempotent mode h1⟩,
        ih fun x hx => hr x (by simp [hx])⟩
  have e := readLoop_lines hs h0 (fun y hy => (hys y hy).1) f
  rw [reduceLoop_iff, e]
  refine ⟨hy.imp fun _ _ h => ⟨h, (C20_reduce_preserves mode).1 h⟩, ys, ?_, rfl⟩
  clear e h hy
  induction ys with
  | nil => exact .nil
  | cons y ys ih => exact .cons (hys y (by simp)).2 (ih fun y hy => hys y (by simp [hy]))

example : reduceLoop {} i32 .normalizeSigns ['\n'] ⟨"2/4 3/-9 5/0".toList, false, false⟩ ⟨0, 1⟩ ⇓
      "1/2\n-1/3\n0/0\n".toList ∧
    reduceLoop {} i32 .normalizeSigns ['\n'] ⟨"1/2 -2147483648/3".toList, false, false⟩ ⟨0, 1⟩ =
      .fault .gcdPrecond := by decide +kernel

end Ieme
