import Verif.Lemmas.StreamOut
import Verif.Props.Stream

/-!
# C129: writing fractions to a device that can be full
-/

namespace Ieme

open Stream

variable {T : IntTy} {fl : Flags} {s : OStream} {f g : Raw} {m : OMask}

/-- **C129** What writing a fraction to a good stream does, completely.  The device receives as much
of the text as it has room for; `badbit` is set exactly when that is not all of it, and `failbit`
exactly when it is cut before the denominator begins. -/
theorem C129_write (hs : s.good = true) :
    s.write fl T f = ⟨s.text ++ s.cut (writeF fl s.width T f),
      s.room.map (· - (writeF fl s.width T f).length), 0,
      !decide (s.Takes (writeF fl s.width T f).length),
      !decide (s.Takes ((put fl s.width T f.num).length + 1))⟩ := by
  have e : put fl s.width T f.num ++ ['/'] ++ put fl 0 T f.den = writeF fl s.width T f := by
    simp [writeF]
  rw [OStream.write_eq hs, OStream.insert_insert hs, e]
  simp

example : (⟨"x=".toList, some 9, 6, false, false⟩ : OStream).good = true ∧
    (⟨"x=".toList, some 9, 6, false, false⟩ : OStream).write {} i32 ⟨-1, 250⟩ =
      ⟨"x=    -1/25".toList, some 0, 0, true, false⟩ ∧
    (⟨"x=".toList, some 6, 6, false, false⟩ : OStream).write {} i32 ⟨-1, 250⟩ =
      ⟨"x=    -1".toList, some 0, 0, true, true⟩ := by decide +kernel

/-- **C129** A stream that is not good receives nothing and keeps its width. -/
theorem C129_not_good (hs : s.good = false) : s.write fl T f = { s with fail := true } := by
  have h : ∀ {s : OStream} {cs : List Char}, s.good = false → s.insert cs = { s with fail := true } :=
    OStream.insert_bad
  have h' : OStream.good { s with fail := true } = false := by simp [OStream.good]
  simp only [OStream.write, OStream.putInt, OStream.putChar, h hs, h h']

example : (⟨[], none, 6, true, false⟩ : OStream).good = false ∧
    (⟨[], none, 6, true, false⟩ : OStream).write {} i32 ⟨-1, 250⟩ = ⟨[], none, 6, true, true⟩ := by
  decide +kernel

/-- **C129** After writing, a stream that was good is good exactly when the device has received the
whole text; otherwise it has received a proper prefix of it. -/
theorem C129_good_iff (hs : s.good = true) :
    ((s.write fl T f).good = true ↔ (s.write fl T f).text = s.text ++ writeF fl s.width T f) ∧
    ((s.write fl T f).good = true ↔ s.Takes (writeF fl s.width T f).length) ∧
    ∃ t, t <+: writeF fl s.width T f ∧ (s.write fl T f).text = s.text ++ t := by
  have h1 : (s.write fl T f).text = s.text ++ s.cut (writeF fl s.width T f) := by
    rw [C129_write hs]
  have h2 : (s.write fl T f).good = true ↔ s.Takes (writeF fl s.width T f).length := by
    rw [C129_write hs]
    simp only [OStream.good, Bool.not_not, Bool.and_eq_true, decide_eq_true_eq]
    refine ⟨fun h => h.1, fun h => ⟨h, h.mono ?_⟩⟩
    simp only [writeF, List.length_append, List.length_cons]
    omega
  refine ⟨?_, h2, _, ?_, h1⟩
  · rw [h2, h1, List.append_cancel_left_eq]
    unfold OStream.Takes OStream.cut
    cases s.room with
    | none => simp
    | some k =>
      simp only [Option.some.injEq, forall_eq']
      refine ⟨List.take_of_length_le, fun h => ?_⟩
      rw [← h, List.length_take]
      exact Nat.min_le_left _ _
  · unfold OStream.cut
    split
    · exact List.prefix_rfl
    · exact List.take_prefix _ _

example : (⟨[], some 4, 0, false, false⟩ : OStream).good = true ∧
    ((⟨[], some 4, 0, false, false⟩ : OStream).write {} i32 ⟨1, 25⟩).good = true ∧
    ((⟨[], none, 0, false, false⟩ : OStream).write {} i32 ⟨1, 25⟩).good = true ∧
    ((⟨[], some 3, 0, false, false⟩ : OStream).write {} i32 ⟨1, 25⟩).good = false := by
  decide +kernel

/-- **C129** With exceptions enabled no exception reaches the caller: where the state after writing
has a bit of the mask the program is terminated, otherwise the call returns. -/
theorem C129_exceptions :
    writeX m fl T s f =
      if m.hits (s.write fl T f) then .terminated else .returned (s.write fl T f) := by
  have key : ∀ {s : OStream} {cs : List Char}, m.hits s = true → m.hits (s.insert cs) = true := by
    intro s cs h
    by_contra h'
    rw [Bool.not_eq_true] at h'
    rw [OMask.hits_insert h'] at h
    cases h
  unfold writeX OMask.call OStream.write
  cases h1 : m.hits (s.putInt fl T f.num) with
  | true =>
    have h2 : m.hits ((s.putInt fl T f.num).putChar fl '/') = true := key h1
    have h3 : m.hits (((s.putInt fl T f.num).putChar fl '/').putInt fl T f.den) = true := key h2
    simp [Call.andThen, Call.noexcept, h3]
  | false =>
    cases h2 : m.hits ((s.putInt fl T f.num).putChar fl '/') with
    | true =>
      have h3 : m.hits (((s.putInt fl T f.num).putChar fl '/').putInt fl T f.den) = true := key h2
      simp [Call.andThen, Call.noexcept, h2, h3]
    | false =>
      cases h3 : m.hits (((s.putInt fl T f.num).putChar fl '/').putInt fl T f.den) <;>
        simp [Call.andThen, Call.noexcept, h2, h3]

example : writeX { bad := true } {} i32 ⟨[], some 4, 0, false, false⟩ ⟨1, 25⟩ =
      .returned ⟨"1/25".toList, some 0, 0, false, false⟩ ∧
    writeX { fail := true } {} i32 ⟨[], some 3, 0, false, false⟩ ⟨1, 25⟩ =
      .returned ⟨"1/2".toList, some 0, 0, true, false⟩ ∧
    writeX { fail := true } {} i32 ⟨[], some 1, 0, false, false⟩ ⟨1, 25⟩ = .terminated := by
  decide +kernel

/-- **C129** Exactly when a program that writes to a good stream is terminated. -/
theorem C129_terminates_iff (hs : s.good = true) :
    writeX m fl T s f = .terminated ↔
      m.bad = true ∧ ¬ s.Takes (writeF fl s.width T f).length ∨
      m.fail = true ∧ ¬ s.Takes ((put fl s.width T f.num).length + 1) := by
  have : ∀ c : Bool, (if c then Call.terminated else .returned (s.write fl T f)) = .terminated ↔
      c = true := by intro c; cases c <;> simp
  rw [C129_exceptions, this, C129_write hs]
  simp only [OMask.hits, Bool.or_eq_true, Bool.and_eq_true, Bool.not_eq_true', decide_eq_false_iff_not]

/-- **C129** A stream that is not good takes no more fractions. -/
theorem C129_each_not_good (sep : Char) (hs : s.good = false) (vs : List Raw) :
    (writeEach fl T sep s vs).text = s.text ∧ (writeEach fl T sep s vs).good = false := by
  induction vs generalizing s with
  | nil => exact ⟨rfl, hs⟩
  | cons v vs ih =>
    have h' : OStream.good { s with fail := true } = false := by simp [OStream.good]
    rw [writeEach, C129_not_good hs, OStream.putChar, OStream.insert_bad h']
    exact ih h'

example : writeEach {} i32 ' ' ⟨"1/2 ".toList, some 0, 0, true, false⟩ [⟨3, 4⟩, ⟨5, 6⟩] =
    ⟨"1/2 ".toList, some 0, 0, true, true⟩ := by decide +kernel

/-- **C129** Several fractions, each with a separator behind it: the device receives a prefix of
all of it, and the stream stays good exactly when that is everything. -/
theorem C129_each (sep : Char) (hw : s.width = 0) (hs : s.good = true) (vs : List Raw) :
    (writeEach fl T sep s vs).text =
      s.text ++ s.cut (vs.flatMap fun v => writeF fl 0 T v ++ [sep]) ∧
    ((writeEach fl T sep s vs).good = true ↔
      s.Takes (vs.flatMap fun v => writeF fl 0 T v ++ [sep]).length) := by
  induction vs generalizing s with
  | nil =>
    refine ⟨?_, iff_of_true hs fun k _ => Nat.zero_le k⟩
    unfold OStream.cut
    split <;> simp [writeEach]
  | cons v vs ih =>
    rw [writeEach, List.flatMap_cons]
    by_cases ht : s.Takes (writeF fl 0 T v ++ [sep]).length
    · rw [OStream.write_sep_good hw hs ht]
      obtain ⟨e1, e2⟩ := ih (s := s.insert (writeF fl 0 T v ++ [sep]))
        (by rw [OStream.insert_good hs]) ((OStream.insert_good_iff hs).2 ht)
      obtain ⟨c1, c2⟩ := OStream.cut_append (ds := vs.flatMap fun v => writeF fl 0 T v ++ [sep]) hs ht
      have e3 : (s.insert (writeF fl 0 T v ++ [sep])).text =
          s.text ++ s.cut (writeF fl 0 T v ++ [sep]) := by rw [OStream.insert_good hs]
      rw [e1, e2, c1, c2, e3, List.append_assoc]
      exact ⟨rfl, Iff.rfl⟩
    · obtain ⟨e1, e2⟩ := OStream.write_sep_bad hw hs ht
      obtain ⟨c1, c2⟩ := C129_each_not_good (fl := fl) (T := T) sep e1 vs
      have hl : ∀ ds : List Char, ¬ s.Takes (writeF fl 0 T v ++ [sep] ++ ds).length := fun ds h =>
        ht (h.mono (by simp))
      refine ⟨?_, by simp only [c2, Bool.false_eq_true, hl]⟩
      rw [c1, e2, OStream.cut_of_not_takes ht]

example : (writeEach {} i32 ' ' ⟨[], some 6, 0, false, false⟩ [⟨1, 2⟩, ⟨-3, 4⟩, ⟨5, 6⟩]) =
    ⟨"1/2 -3".toList, some 0, 0, true, true⟩ := by decide +kernel

/-- **C129** A text that is cut within the digits of the denominator is read back without failure,
as a fraction whose denominator lacks the last digits. -/
theorem C129_cut_reads_back {j : ℕ} (hf : f.InRange T) (hj : 10 ^ j ≤ f.den.natAbs) :
    Stream.read T ⟨(write f).take ((write f).length - j), false, false⟩ g =
      (⟨f.num, f.den.tdiv (10 ^ j)⟩, ⟨[], true, false⟩) := by
  obtain ⟨t, ht, e⟩ := showInt_drop hj
  have e' : write f = write ⟨f.num, f.den.tdiv (10 ^ j)⟩ ++ t := by simp [write, e]
  have hr : Raw.InRange T ⟨f.num, f.den.tdiv (10 ^ j)⟩ := by
    refine ⟨hf.1, ?_⟩
    have h1 : (f.den.tdiv (10 ^ j)).natAbs ≤ f.den.natAbs := by
      rw [Int.natAbs_tdiv]; exact Nat.div_le_self _ _
    have h2 : 0 ≤ f.den → 0 ≤ f.den.tdiv (10 ^ j) := fun h => Int.tdiv_nonneg h (by positivity)
    have h3 : f.den ≤ 0 → f.den.tdiv (10 ^ j) ≤ 0 := fun h => by
      have := Int.tdiv_nonneg (a := -f.den) (b := 10 ^ j) (by omega) (by positivity)
      rw [Int.neg_tdiv] at this
      omega
    have h4 := T.min_le_zero
    have h5 := T.max_ge
    have h6 := hf.2
    unfold IntTy.InRange at h6 ⊢
    simp only
    omega
  have := C48_round_trip (T := T) (g := g) (w := []) (rest := []) hr (by simp [Spaces])
    (by intro c t e; cases e)
  rw [e', List.length_append, ht, Nat.add_sub_cancel, List.take_left']
  · simpa using this
  · rfl

example : (⟨7, -1024⟩ : Raw).InRange i32 ∧ 10 ^ 2 ≤ (-1024 : ℤ).natAbs ∧
    (write ⟨7, -1024⟩).take ((write ⟨7, -1024⟩).length - 2) = "7/-10".toList := by decide +kernel

/-- **C129** (negation) Writing `1/25` where there is room for three characters leaves a text that
reads as `1/2`; and a caller that asked for an exception gets `std::terminate`. -/
theorem C129_cut_wrong :
    (⟨[], some 3, 0, false, false⟩ : OStream).write {} i32 ⟨1, 25⟩ =
      ⟨"1/2".toList, some 0, 0, true, false⟩ ∧
    Stream.read i32 ⟨"1/2".toList, false, false⟩ ⟨0, 1⟩ = (⟨1, 2⟩, ⟨[], true, false⟩) ∧
    writeX { bad := true } {} i32 ⟨[], some 3, 0, false, false⟩ ⟨1, 25⟩ = .terminated := by
  decide +kernel

end Ieme
