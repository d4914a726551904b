import Verif.Lemmas.StreamProgram
import Verif.Props.Stream
import Verif.Props.StreamExcept

/-!
# C150: the models of the stream operators do what their text says

`rawText` and `fractionText` in `Verif/Model/StreamText.lean` are the text of
`/repo/include/ieme/raw_fraction.hpp:57-71` and `/repo/include/ieme/fraction.hpp:499-511`.
-/

namespace Ieme

open Stream StreamText

variable {σ : Type} {D : Device σ} {T : IntTy} {f g : Raw} {v : Raw → Obj}

/-- **C150** Parsing the text gives the program that the other theorems are about. -/
theorem C150_text : StreamText.parse (rawText ++ fractionText) = some program := by decide +kernel

/-- Another text gives another program. -/
example : StreamText.parse ["template <typename Rep>",
      "std::ostream& operator<<(std::ostream& s, raw_fraction<Rep> v)", "{",
      "  s << '(';", "  return s << v.numerator;", "}"] =
    some [⟨.out, ⟨.name Header.N.«std::ostream», false, true, 115⟩,
      ⟨.app1 Header.N.«raw_fraction» (.name Header.N.«Rep»), false, false, 118⟩, false,
      [.io ⟨115, [(.out, .chr 40)]⟩,
        .ret ⟨115, [(.out, .fld 118 Header.N.«numerator»)]⟩]⟩] := by
  decide +kernel

/-- **C150** On any stream the two `<<` write the numerator, a slash and the denominator, and the two
`>>` read the numerator, skip to the next slash and read the denominator; an exception on the way
ends in `std::terminate`. -/
theorem C150_operators (hv : v ∈ forms) (s : σ) :
    Gives D .out (v f) s ((insertion D f s).noexcept.map (v f, ·)) ∧
    Gives D .inp (v f) s ((extraction D f s).noexcept.map fun r => (v r.1, r.2)) := by
  have e (n : ℕ) (hn : 2 ≤ n) : ∃ k, n = k + 2 := ⟨n - 2, by omega⟩
  simp only [forms, List.mem_cons, List.not_mem_nil, or_false] at hv
  rcases hv with rfl | rfl
  · exact ⟨⟨2, fun n hn => by obtain ⟨k, rfl⟩ := e n hn; exact insert_raw f s⟩,
      ⟨2, fun n hn => by obtain ⟨k, rfl⟩ := e n hn; exact extract_raw f s⟩⟩
  · exact ⟨⟨2, fun n hn => by obtain ⟨k, rfl⟩ := e n hn; exact insert_frac f s⟩,
      ⟨2, fun n hn => by obtain ⟨k, rfl⟩ := e n hn; exact extract_frac f s⟩⟩

example : Obj.raw ∈ forms ∧ Obj.frac ∈ forms := by simp [forms]

/-- **C150** The models of extraction: with default formatting, with formatting flags, in another
locale, of an 8-bit representation. -/
theorem C150_read (hv : v ∈ forms) (fl : Flags) (L : Punct) (N : NarrowTy) (s : IStream) :
    Gives (plain (getInt T)) .inp (v f) s
      (.returned (v (Stream.read T s f).1, (Stream.read T s f).2)) ∧
    Gives (plain (getIntF fl T)) .inp (v f) s
      (.returned (v (readF fl T s f).1, (readF fl T s f).2)) ∧
    Gives (plain (L.getInt T)) .inp (v f) s
      (.returned (v (L.read T s f).1, (L.read T s f).2)) ∧
    Gives (plain (getChar N)) .inp (v f) s
      (.returned (v (readChar N s f).1, (readChar N s f).2)) :=
  ⟨(C150_operators hv s).2, (C150_operators hv s).2, (C150_operators hv s).2,
    (C150_operators hv s).2⟩

/-- **C150** The models of extraction with stream exceptions, also from a device that can break
down. -/
theorem C150_read_throwing (hv : v ∈ forms) (m : Mask) (m' : DMask) (fl : Flags) (s : IStream)
    (s' : DStream) :
    Gives (throwing m fl T) .inp (v f) s ((readX m fl T s f).map fun r => (v r.1, r.2)) ∧
    Gives (breaking m' fl T) .inp (v f) s' ((readD m' fl T s' f).map fun r => (v r.1, r.2)) := by
  refine ⟨(C150_operators hv s).2, ?_⟩
  have h := (C150_operators (D := breaking m' fl T) (f := f) hv s').2
  have e : (extraction (breaking m' fl T) f s').noexcept = readD m' fl T s' f := by
    simp only [extraction, breaking, input, readD, Call.map]
    cases getIntD m' fl T s' f.num with
    | returned a => cases h2 : ignoreD m' a.2 '/' <;> simp [Call.andThen, h2]
    | _ => rfl
  rwa [e] at h

/-- **C150** The models of insertion: with default formatting, in another locale, of an 8-bit
representation, with formatting flags, and with stream exceptions on a device that can be full. -/
theorem C150_write (hv : v ∈ forms) (fl : Flags) (w : ℕ) (L : Punct) (m : OMask) (s : List Char)
    (s' : OStream) :
    Gives (text showInt) .out (v f) s (.returned (v f, s ++ Stream.write f)) ∧
    Gives (text L.showInt) .out (v f) s (.returned (v f, s ++ L.write f)) ∧
    Gives (text fun x => [charOf x]) .out (v f) s (.returned (v f, s ++ writeChar f)) ∧
    Gives (formatted fl T) .out (v f) (s, w) (.returned (v f, (s ++ writeF fl w T f, 0))) ∧
    Gives (limited m fl T) .out (v f) s' ((writeX m fl T s' f).map (v f, ·)) := by
  refine ⟨?_, ?_, ?_, ?_, (C150_operators hv s').1⟩
  · simpa [insertion, text, output, Call.andThen, Call.noexcept, Call.map, Stream.write] using
      (C150_operators (D := text showInt) (f := f) hv s).1
  · simpa [insertion, text, output, Call.andThen, Call.noexcept, Call.map, Punct.write] using
      (C150_operators (D := text L.showInt) (f := f) hv s).1
  · simpa [insertion, text, output, Call.andThen, Call.noexcept, Call.map, writeChar] using
      (C150_operators (D := text fun x => [charOf x]) (f := f) hv s).1
  · simpa [insertion, formatted, output, Call.andThen, Call.noexcept, Call.map, writeF] using
      (C150_operators (D := formatted fl T) (f := f) hv (s, w)).1

/-- `-3/7` written after `x = `, and read back -/
example : StreamText.invoke (text showInt) program 5 .out (.frac ⟨-3, 7⟩) "x = ".toList =
      some (.returned (.frac ⟨-3, 7⟩, "x = -3/7".toList)) ∧
    StreamText.invoke (plain (getInt i32)) program 5 .inp (.frac ⟨0, 1⟩)
      ⟨" -3/7;".toList, false, false⟩ =
      some (.returned (.frac ⟨-3, 7⟩, ⟨";".toList, false, false⟩)) := by decide +kernel

/-! ### Consequences for the text -/

/-- **C150** Evaluated from the text, `>>` reads back what `<<` has written. -/
theorem C150_round_trip {w rest t : List Char} (hv : v ∈ forms) (hf : f.InRange T) (hw : Spaces w)
    (hr : NoDigitFirst rest)
    (ho : Gives (text showInt) .out (v f) [] (.returned (v f, t))) :
    Gives (plain (getInt T)) .inp (v g) ⟨w ++ (t ++ rest), false, false⟩
      (.returned (v f, ⟨rest, rest.isEmpty, false⟩)) := by
  have e := ho.unique (C150_write (T := T) hv {} 0 ⟨[], ','⟩ {} [] ⟨[], none, 0, false, false⟩).1
  simp only [List.nil_append, Call.returned.injEq, Prod.mk.injEq, true_and] at e
  subst e
  have h := (C150_read (T := T) (f := g) hv {} ⟨[], ','⟩ i8
    ⟨w ++ (Stream.write f ++ rest), false, false⟩).1
  rwa [C48_round_trip hf hw hr] at h

example : (⟨-3, 7⟩ : Raw).InRange i32 ∧ Spaces [' '] ∧
    Gives (text showInt) .out (.frac ⟨-3, 7⟩) [] (.returned (.frac ⟨-3, 7⟩, "-3/7".toList)) := by
  refine ⟨by decide, by unfold Spaces; decide, ?_⟩
  have h := (C150_write (T := i32) (f := ⟨-3, 7⟩) (v := .frac) (by simp [forms]) {} 0 ⟨[], ','⟩ {} []
    ⟨[], none, 0, false, false⟩).1
  have e : ([] : List Char) ++ Stream.write ⟨-3, 7⟩ = "-3/7".toList := by decide +kernel
  rwa [e] at h

/-- **C150** Evaluated from the text, no exception of any stream ever leaves one of the four
operators. -/
theorem C150_never_throws {d : Dir} {r : Call (Obj × σ)} {s : σ} (hv : v ∈ forms)
    (h : Gives D d (v f) s r) : r ≠ .thrown := by
  have k {α β : Type} (c : Call α) (q : α → β) : c.noexcept.map q ≠ .thrown := by
    cases c <;> simp [Call.noexcept, Call.map, Call.andThen]
  cases d with
  | out => rw [h.unique (C150_operators hv s).1]; exact k _ _
  | inp => rw [h.unique (C150_operators hv s).2]; exact k _ _

/-- At the end of the text with `stream.exceptions(std::ios::failbit)` -/
example : StreamText.invoke (throwing { fail := true } {} i32) program 5 .inp (.raw ⟨0, 1⟩)
    ⟨[], false, false⟩ = some .terminated := by decide +kernel

/-! ### The number of a name -/

example : Header.nameCode "std::streamsize" = Header.N.«std::streamsize» := by decide +kernel

end Ieme
