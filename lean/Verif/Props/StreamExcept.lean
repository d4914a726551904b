import Verif.Lemmas.StreamExcept
import Verif.Props.Stream
import Verif.Props.StreamFmt

/-!
# C118: stream extraction ends the program where the stream should throw

The extraction operators are `noexcept`, so a stream with exceptions enabled never gets to throw
from them: `std::terminate` is called instead.  The theorems say exactly when that happens, for
every mask, format, type and text.
-/

namespace Ieme

open Stream

variable {T : IntTy} {fl : Flags} {m : Mask} {s : IStream} {f g v : Raw} {w rest text : List Char}

/-- **C118** No exception ever leaves the operator, so none can be caught. -/
theorem C118_never_throws : readX m fl T s v ≠ .thrown := by
  rw [readX_eq]
  split <;> simp

/-- **C118** The program ends exactly if the extraction without exceptions would leave the stream
with a state bit for which exceptions are enabled. -/
theorem C118_terminates_iff : readX m fl T s v = .terminated ↔
    (m.eof = true ∧ (readF fl T s v).2.eof = true) ∨
      (m.fail = true ∧ (readF fl T s v).2.fail = true) := by
  rw [readX_eq, ← Bool.and_eq_true, ← Bool.and_eq_true, ← Bool.or_eq_true]
  show _ ↔ m.hits _ = true
  split <;> simp_all

/-- **C118** Otherwise the value and the stream are those without exceptions. -/
theorem C118_returned {r : Raw × IStream} (h : readX m fl T s v = .returned r) :
    r = readF fl T s v := by
  rw [readX_eq] at h
  split at h
  · simp at h
  · exact (Call.returned.inj h).symm

/-- **C118** With no exceptions enabled, as is the default, extraction always returns. -/
theorem C118_no_exceptions : readX {} fl T s v = .returned (readF fl T s v) := by
  rw [readX_eq]
  simp [Mask.hits]

example : readX { fail := true } {} i32 ⟨"3/4 5".toList, false, false⟩ ⟨0, 1⟩ =
    .returned (⟨3, 4⟩, ⟨" 5".toList, false, false⟩) := by decide +kernel
example : readX { fail := true } {} i32 ⟨"3/x".toList, false, false⟩ ⟨0, 1⟩ = .terminated := by
  decide +kernel
example : readX {} {} i32 ⟨"3/x".toList, false, false⟩ ⟨0, 1⟩ =
    .returned (⟨3, 0⟩, ⟨"x".toList, false, true⟩) := by decide +kernel

/-! ## Correct text -/

/-- **C118** What was written reads back under every mask if something follows it. -/
theorem C118_followed (hf : f.InRange T) (hw : Spaces w) (hr : NoDigitFirst rest) (h0 : rest ≠ []) :
    readX m {} T ⟨w ++ (write f ++ rest), false, false⟩ g =
      .returned (f, ⟨rest, false, false⟩) := by
  have he : rest.isEmpty = false := by cases rest <;> simp_all
  rw [readX_eq, (C98_default T f g _).2, C48_round_trip hf hw hr, he]
  simp [Mask.hits]

/-- **C118, refuted for correct text.**  A correctly written fraction that is the last thing in the
stream ends the program if exceptions are enabled for the end of the stream; without the
exceptions it is read. -/
theorem C118_last_terminates (hf : f.InRange T) (hw : Spaces w) (hm : m.eof = true) :
    readX m {} T ⟨w ++ write f, false, false⟩ g = .terminated ∧
    readX {} {} T ⟨w ++ write f, false, false⟩ g = .returned (f, ⟨[], true, false⟩) := by
  have h := C48_round_trip (g := g) (rest := []) hf hw (by intro c t e; simp at e)
  rw [List.append_nil] at h
  constructor
  · rw [C118_terminates_iff, (C98_default T f g _).2, h]
    exact .inl ⟨hm, rfl⟩
  · rw [C118_no_exceptions, (C98_default T f g _).2, h]
    rfl

example : (⟨-3, 4⟩ : Raw).InRange i32 ∧ Spaces [' '] ∧ write ⟨-3, 4⟩ = "-3/4".toList ∧
    readX { eof := true } {} i32 ⟨" -3/4".toList, false, false⟩ ⟨0, 1⟩ = .terminated ∧
    readX { eof := true } {} i32 ⟨" -3/4\n".toList, false, false⟩ ⟨0, 1⟩ =
      .returned (⟨-3, 4⟩, ⟨"\n".toList, false, false⟩) := by
  refine ⟨by decide, by simp [Spaces, whitespace], by decide +kernel, by decide +kernel,
    by decide +kernel⟩

/-! ## Wrong text -/

/-- **C118** Exactly the texts that are not a fraction the type accepts end the program if
exceptions are enabled for failure only. -/
theorem C118_malformed_iff : readX { fail := true } {} T ⟨text, false, false⟩ g = .terminated ↔
    ¬ ∃ n d rest, IsFraction text n d rest ∧ Accepted T n ∧ Accepted T d := by
  rw [C118_terminates_iff, (C98_default T g g _).2]
  simp only [Bool.false_eq_true, false_and, true_and, false_or]
  constructor
  · rintro h ⟨n, d, rest, h1, h2, h3⟩
    rw [C49_success_iff.2 ⟨rfl, n, d, h1, h2, h3, rfl⟩] at h
    simp at h
  · intro h
    by_contra hc
    have hc : (Stream.read T ⟨text, false, false⟩ g).2.fail = false := by simpa using hc
    generalize e : Stream.read T ⟨text, false, false⟩ g = r at hc
    obtain ⟨r, s1, s2, s3⟩ := r
    obtain rfl : s3 = false := hc
    obtain ⟨-, n, d, h1, h2, h3, -⟩ := C49_success_iff.1 e
    exact h ⟨n, d, _, h1, h2, h3⟩

/-- **C118, refuted.**  The integer extraction of the standard library throws on the same text,
which a program can catch. -/
theorem C118_uncatchable :
    getIntX { fail := true } {} i32 ⟨"abc".toList, false, false⟩ 0 = .thrown ∧
    readX { fail := true } {} i32 ⟨"abc".toList, false, false⟩ ⟨0, 1⟩ = .terminated := by
  refine ⟨by decide +kernel, by decide +kernel⟩

/-- **C118** The three steps of an extraction throw exactly if they leave the stream with a state
bit for which exceptions are enabled, and otherwise do what they do without exceptions. -/
theorem C118_steps {old : ℤ} {c : Char} :
    (getIntX m fl T s old = .thrown ↔ (m.eof = true ∧ (getIntF fl T s old).2.eof = true) ∨
      (m.fail = true ∧ (getIntF fl T s old).2.fail = true)) ∧
    (getIntX m fl T s old ≠ .thrown → getIntX m fl T s old = .returned (getIntF fl T s old)) ∧
    (ignoreX m s c = .thrown ↔ (m.eof = true ∧ (ignore s c).eof = true) ∨
      (m.fail = true ∧ (ignore s c).fail = true)) ∧
    (ignoreX m s c ≠ .thrown → ignoreX m s c = .returned (ignore s c)) := by
  simp only [getIntX, ignoreX, Mask.hits, ← Bool.and_eq_true, ← Bool.or_eq_true]
  have key : ∀ {α : Type} {a : α} {b : Bool},
      ((if b = true then Call.thrown else .returned a) = .thrown ↔ b = true) ∧
      ((if b = true then Call.thrown else .returned a) ≠ .thrown →
        (if b = true then Call.thrown else .returned a) = .returned a) := by
    intro α a b
    cases b <;> simp
  exact ⟨key.1, key.2, key.1, key.2⟩

example : ignoreX { eof := true } ⟨"34".toList, false, false⟩ '/' = .thrown ∧
    ignoreX { fail := true } ⟨"34".toList, false, false⟩ '/' = .returned ⟨[], true, false⟩ ∧
    ignoreX { eof := true, fail := true } ⟨"3/4".toList, false, false⟩ '/' =
      .returned ⟨"4".toList, false, false⟩ := by
  refine ⟨by decide +kernel, by decide +kernel, by decide +kernel⟩

/-! ## Reading to the end -/

/-- **C118** The loop `while (stream >> value)` is finite on every text. -/
theorem C118_loop_ends {fuel : ℕ} (h : s.rest.length < fuel) :
    ∃ c, readWhile m fl T fuel s v = some c := by
  induction fuel generalizing s v with
  | zero => omega
  | succ k ih =>
    rw [readWhile, readX_eq]
    by_cases hh : m.hits (readF fl T s v).2 = true
    · exact ⟨.terminated, by simp [hh]⟩
    · simp only [if_neg hh]
      by_cases hf : (readF fl T s v).2.fail = true
      · exact ⟨_, by rw [if_pos hf]⟩
      · rw [if_neg hf]
        have := readF_length (fl := fl) (T := T) (s := s) (v := v) (by simpa using hf)
        obtain ⟨c, hc⟩ := ih (s := (readF fl T s v).2) (v := (readF fl T s v).1) (by omega)
        rw [hc]
        exact ⟨_, rfl⟩

/-- **C118, refuted.**  With exceptions enabled for failure the loop ends the program on every text,
well-formed or not: it is left by a failed extraction only. -/
theorem C118_loop_terminates {fuel : ℕ} (hm : m.fail = true) (h : s.rest.length < fuel) :
    readWhile m fl T fuel s v = some .terminated := by
  induction fuel generalizing s v with
  | zero => omega
  | succ k ih =>
    rw [readWhile, readX_eq]
    by_cases hh : m.hits (readF fl T s v).2 = true
    · simp [hh]
    · simp only [if_neg hh]
      have hf : (readF fl T s v).2.fail = false := by
        simp only [Mask.hits, hm, Bool.true_and, Bool.or_eq_true, not_or] at hh
        simpa using hh.2
      have := readF_length (fl := fl) (T := T) (s := s) (v := v) hf
      rw [if_neg (by simp [hf]), ih (s := (readF fl T s v).2) (v := (readF fl T s v).1) (by omega)]
      rfl

/-- **C118** Without exceptions the loop collects what was written. -/
theorem C118_loop_collects {vs : List (List Char × Raw)} {fuel : ℕ}
    (hv : ∀ v ∈ vs, v.1 ≠ [] ∧ Spaces v.1 ∧ v.2.InRange T) (h : vs.length < fuel) :
    ∃ s', s'.fail = true ∧ s'.rest = [] ∧
      readWhile {} {} T fuel ⟨writeAll vs, false, false⟩ v =
        some (.returned (vs.map (·.2), s')) := by
  suffices H : ∀ {b : Bool}, (vs ≠ [] → b = false) → ∃ s', s'.fail = true ∧ s'.rest = [] ∧
      readWhile {} {} T fuel ⟨writeAll vs, b, false⟩ v =
        some (.returned (vs.map (·.2), s')) from H fun _ => rfl
  induction vs generalizing fuel v with
  | nil =>
    intro b _
    obtain ⟨k, rfl⟩ : ∃ k, fuel = k + 1 := ⟨fuel - 1, by simp at h; omega⟩
    refine ⟨⟨[], true, true⟩, rfl, rfl, ?_⟩
    rw [readWhile, C118_no_exceptions]
    cases b <;> simp [readF, getIntF, ignore, writeAll]
  | cons x vs ih =>
    intro b hb
    obtain ⟨k, rfl⟩ : ∃ k, fuel = k + 1 := ⟨fuel - 1, by simp at h; omega⟩
    obtain ⟨h1, h2, h3⟩ := hv x (by simp)
    have nd : NoDigitFirst (writeAll vs) := by
      cases vs with
      | nil => intro c t e; simp [writeAll] at e
      | cons y ys =>
        obtain ⟨k1, k2, -⟩ := hv y (by simp)
        intro c t e hc
        obtain ⟨yw, yv⟩ := y
        cases yw with
        | nil => exact k1 rfl
        | cons z zs =>
          simp only [writeAll, List.cons_append] at e
          obtain ⟨rfl, -⟩ := List.cons.inj e
          have := mem_whitespace.1 (k2 z (by simp))
          rw [space_not_digit (mem_decDigits.1 hc)] at this
          cases this
    obtain ⟨s', e1, e2, e3⟩ := ih (fuel := k) (v := x.2) (fun y hy => hv y (by simp [hy]))
      (by simp at h; omega) (b := (writeAll vs).isEmpty) (by
        intro h0
        cases vs with
        | nil => exact absurd rfl h0
        | cons y ys =>
          obtain ⟨k1, -⟩ := hv y (by simp)
          obtain ⟨yw, yv⟩ := y
          cases yw with
          | nil => exact absurd rfl k1
          | cons z zs => rfl)
    refine ⟨s', e1, e2, ?_⟩
    rw [readWhile, C118_no_exceptions, hb (by simp), (C98_default T x.2 v _).2]
    rw [show writeAll (x :: vs) = x.1 ++ (write x.2 ++ writeAll vs) from rfl,
      C48_round_trip h3 h2 nd]
    simp [e3, Call.andThen]

example : readWhile {} {} i32 4 ⟨" 1/2 -3/4".toList, false, false⟩ ⟨0, 1⟩ =
      some (.returned ([⟨1, 2⟩, ⟨-3, 4⟩], ⟨[], true, true⟩)) ∧
    readWhile { fail := true } {} i32 10 ⟨" 1/2 -3/4".toList, false, false⟩ ⟨0, 1⟩ =
      some .terminated ∧
    writeAll [([' '], ⟨1, 2⟩), ([' '], ⟨-3, 4⟩)] = " 1/2 -3/4".toList := by
  refine ⟨by decide +kernel, by decide +kernel, by decide +kernel⟩

end Ieme
