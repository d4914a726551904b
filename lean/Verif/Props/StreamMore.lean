import Verif.Props.Stream

/-!
# More about streams: properties C75 and C76
-/

namespace Ieme

open IntTy Ieme.Stream

variable {T : IntTy} {f g : Raw} {text rest w : List Char} {s : IStream}

/-! ## C75: what a failed extraction leaves behind -/

/-- **C75** Whatever the input, the target is left with parts of its type. -/
theorem C75_in_range (hg : g.InRange T) : (Stream.read T s g).1.InRange T :=
  ⟨getInt_inRange hg.1, getInt_inRange hg.2⟩

/-- **C75, partial.**  Full claim: an extraction that sets `failbit` leaves the target as it
was.  Proved when the stream was not good or has nothing but whitespace left; false in general,
see `C75_failure_changes_target`. -/
theorem C75_failure_keeps_target_partial (h : s.eof = true ∨ s.fail = true ∨ Spaces s.rest) :
    (Stream.read T s g).1 = g ∧ (Stream.read T s g).2.fail = true := by
  by_cases hg : s.eof = true ∨ s.fail = true
  · rw [C49_not_good_fails hg]; exact ⟨rfl, rfl⟩
  · have hsp : Spaces s.rest := by tauto
    have e : s.rest.dropWhile isSpace = [] := by
      have := dropWhile_append_of (b := []) hsp.isSpace (by simp)
      rwa [List.append_nil] at this
    have hb : (s.eof || s.fail) = false := by simpa using hg
    simp [Stream.read, getInt, ignore, e, hb]

/-- **C75** If no integer can be read for the numerator, the denominator is left as it was. -/
theorem C75_denominator_kept (h : (getInt T s g.num).2.fail = true) :
    (Stream.read T s g).1.den = g.den ∧ (Stream.read T s g).2.fail = true := by
  simp only [Stream.read]
  generalize getInt T s g.num = r at *
  have e : ignore r.2 '/' = { r.2 with fail := true } := by simp [ignore, h]
  rw [e]
  simp [getInt]

/-- **C75, refuted in general.**  A failed extraction into `1/2` leaves `12/2` after `12`,
`0/2` after `abc`, `3/0` after `3/x`, and `2147483647/2` after `9999999999/5`. -/
theorem C75_failure_changes_target :
    Stream.read i32 ⟨"12".toList, false, false⟩ ⟨1, 2⟩ = (⟨12, 2⟩, ⟨[], true, true⟩) ∧
    Stream.read i32 ⟨"abc".toList, false, false⟩ ⟨1, 2⟩ =
      (⟨0, 2⟩, ⟨"abc".toList, false, true⟩) ∧
    Stream.read i32 ⟨"3/x".toList, false, false⟩ ⟨1, 2⟩ = (⟨3, 0⟩, ⟨['x'], false, true⟩) ∧
    Stream.read i32 ⟨"9999999999/5".toList, false, false⟩ ⟨1, 2⟩ =
      (⟨2147483647, 2⟩, ⟨"/5".toList, false, true⟩) := by decide +kernel

example : (⟨1, 2⟩ : Raw).InRange i32 ∧ Spaces " \n".toList ∧
    Stream.read i32 ⟨" \n".toList, false, false⟩ ⟨1, 2⟩ = (⟨1, 2⟩, ⟨[], true, true⟩) ∧
    (getInt i32 ⟨"abc".toList, false, false⟩ 1).2.fail = true :=
  ⟨by decide, by unfold Spaces; decide, by decide +kernel, by decide +kernel⟩

/-! ## C76: many fractions in one stream -/

/-- **C75** Exactly when extraction from a good stream fails, and what the target holds then;
`FractionFailure` in `Verif/Spec/Stream.lean` lists the ways. -/
theorem C75_failure_iff {text : List Char} {n d : ℤ} :
    ((Stream.read T ⟨text, false, false⟩ g).1 = ⟨n, d⟩ ∧
      (Stream.read T ⟨text, false, false⟩ g).2.fail = true) ↔
    FractionFailure T g.num g.den text n d := by
  refine ⟨fun ⟨h, hf⟩ => ?_, read_failure⟩
  rcases read_cases T text g with ⟨_, _, rest, -, -, -, h4⟩ | ⟨h', -⟩
  · rw [h4] at hf; cases hf
  · rwa [h] at h'

/-- No slash after the numerator; a denominator that is too large. -/
example : FractionFailure i32 1 2 "12".toList 12 2 ∧
    FractionFailure i32 1 2 "3/-9999999999".toList 3 (-2147483648) := by
  constructor
  · rw [← C75_failure_iff (g := ⟨1, 2⟩)]; decide +kernel
  · rw [← C75_failure_iff (g := ⟨1, 2⟩)]; decide +kernel

/-- **C76** Fractions written one after the other, each after some whitespace, are all read
back, whatever the targets were; exactly the text behind them is left.  (The first one needs no
whitespace before it, see C48.) -/
theorem C76_all_read_back {vs : List (List Char × Raw)} {ts : List Raw}
    (hw : ∀ v ∈ vs, v.1 ≠ [] ∧ Spaces v.1 ∧ v.2.InRange T) (ht : ts.length = vs.length)
    (hr : NoDigitFirst rest) (h0 : vs ≠ []) :
    readAll T ⟨writeAll vs ++ rest, false, false⟩ ts =
      (vs.map (·.2), ⟨rest, rest.isEmpty, false⟩) := by
  suffices H : ∀ {b : Bool}, (vs = [] → b = rest.isEmpty) → (vs ≠ [] → b = false) →
      readAll T ⟨writeAll vs ++ rest, b, false⟩ ts =
        (vs.map (·.2), ⟨rest, rest.isEmpty, false⟩) from
    H (fun h => absurd h h0) (fun _ => rfl)
  clear h0
  intro b hb hb'
  induction vs generalizing ts b with
  | nil =>
    cases ts with
    | nil => simp [readAll, writeAll, hb]
    | cons t ts => simp at ht
  | cons v vs ih =>
    obtain ⟨w, v⟩ := v
    cases ts with
    | nil => simp at ht
    | cons t ts =>
      obtain ⟨h1, h2, h3⟩ := hw (w, v) (by simp)
      simp only at h1 h2 h3
      rw [hb' (by simp)]
      have e : writeAll ((w, v) :: vs) ++ rest = w ++ (write v ++ (writeAll vs ++ rest)) := by
        simp [writeAll]
      have hn : NoDigitFirst (writeAll vs ++ rest) := by
        cases vs with
        | nil => exact hr
        | cons u us =>
          obtain ⟨w', u⟩ := u
          obtain ⟨k1, k2, -⟩ := hw (w', u) (by simp)
          simp only at k1 k2
          cases w' with
          | nil => exact absurd rfl k1
          | cons c l =>
            intro c' t e
            obtain ⟨rfl, -⟩ := List.cons.inj e
            have hc := k2.isSpace c (by simp)
            intro hd
            rw [space_not_digit (mem_decDigits.1 hd)] at hc
            cases hc
      rw [e, readAll, C48_round_trip h3 h2 hn]
      simp only [List.map_cons]
      rw [ih (fun u hu => hw u (by simp [hu])) (by simpa using ht)]
      · intro h; subst h; rfl
      · intro h
        cases vs with
        | nil => exact absurd rfl h
        | cons u us =>
          obtain ⟨w', u⟩ := u
          obtain ⟨k1, -⟩ := hw (w', u) (by simp)
          cases w' with
          | nil => exact absurd rfl k1
          | cons c l => rfl

/-- **C76** From the first failure on nothing changes: the remaining targets keep their values and
the stream stays as it is. -/
theorem C76_stops_at_failure {vs : List Raw} (h : s.fail = true) : readAll T s vs = (vs, s) := by
  induction vs with
  | nil => rfl
  | cons v vs ih =>
    have e : { s with fail := true } = s := by cases s; simp only at h; rw [h]
    rw [readAll, C49_not_good_fails (.inr h), e]
    simp only [ih]

example : readAll i32 ⟨"1/2 x 3/4".toList, false, false⟩ [⟨0, 1⟩, ⟨5, 6⟩, ⟨7, 8⟩] =
      ([⟨1, 2⟩, ⟨0, 6⟩, ⟨7, 8⟩], ⟨"x 3/4".toList, false, true⟩) := by decide +kernel

example : writeAll [([' '], ⟨1, 2⟩), (['\n', ' '], ⟨-3, 4⟩)] = " 1/2\n -3/4".toList ∧
    readAll i32 ⟨" 1/2\n -3/4".toList, false, false⟩ [⟨0, 1⟩, ⟨0, 1⟩] =
      ([⟨1, 2⟩, ⟨-3, 4⟩], ⟨[], true, false⟩) := by decide +kernel

/-- Without whitespace in between they run together. -/
example : readAll i32 ⟨"1/23/4".toList, false, false⟩ [⟨0, 1⟩, ⟨0, 1⟩] =
      ([⟨1, 23⟩, ⟨0, 1⟩], ⟨"/4".toList, false, true⟩) := by decide +kernel

end Ieme
