import Verif.Lemmas.StreamIn
import Verif.Props.StreamExcept

/-!
# C139: reading a fraction from a device that breaks down

The stream buffer delivers its text and then throws instead of reporting the end.  The theorems say
what extraction leaves in the target and in the stream, for every text, target, type, format and
mask: a number that the break cut is never stored, but the target may be half overwritten, and with
exceptions enabled the program ends.
-/

namespace Ieme

open Stream

variable {T : IntTy} {fl : Flags} {m : DMask} {s : DStream} {v : Raw} {p q w rest : List Char}
  {r : Raw × DStream}

/-! ## How the call ends -/

/-- **C139** No exception of the device or the stream leaves the operator. -/
theorem C139_never_throws : readD m fl T s v ≠ .thrown := by
  rw [readD_eq]
  split <;> simp

/-- **C139** With no exceptions enabled extraction always returns. -/
theorem C139_returns : ∃ r, readD {} fl T s v = .returned r := by
  rw [readD_eq]
  exact ⟨_, by simp [DMask.hits]; rfl⟩

/-- **C139** The program ends exactly if extraction with no exceptions enabled leaves the stream with
a state bit for which exceptions are enabled; otherwise the outcome is that with none enabled. -/
theorem C139_terminates_iff (h : readD {} fl T s v = .returned r) :
    (readD m fl T s v = .terminated ↔ (m.eof = true ∧ r.2.eof = true) ∨
      (m.fail = true ∧ r.2.fail = true) ∨ (m.bad = true ∧ r.2.bad = true)) ∧
    (readD m fl T s v ≠ .terminated → readD m fl T s v = .returned r) := by
  rw [readD_eq] at h ⊢
  simp only [DMask.hits, Bool.false_and, Bool.or_self, Bool.false_eq_true, if_false,
    Call.returned.injEq] at h
  subst h
  have hh : m.hits (readE fl T s v).2 = true ↔ (m.eof = true ∧ (readE fl T s v).2.eof = true) ∨
      (m.fail = true ∧ (readE fl T s v).2.fail = true) ∨
      (m.bad = true ∧ (readE fl T s v).2.bad = true) := by
    simp [DMask.hits, or_assoc]
  rw [← hh]
  split <;> simp_all

example : readD { bad := true } {} i32 ⟨"3/4".toList, true, false, false, false⟩ ⟨1, 2⟩ =
      .terminated ∧
    readD { fail := true } {} i32 ⟨"3/4".toList, true, false, false, false⟩ ⟨1, 2⟩ =
      .returned (⟨3, 2⟩, ⟨[], true, false, false, true⟩) ∧
    readD { fail := true } {} i32 ⟨"3/ ".toList, true, false, false, false⟩ ⟨1, 2⟩ =
      .terminated := by
  refine ⟨by decide +kernel, by decide +kernel, by decide +kernel⟩

/-- **C139** The integer extraction and `ignore` of the standard library, which the operator calls,
throw where it ends the program: a caller of them can catch the exception. -/
theorem C139_steps {old : ℤ} {c : Char} :
    (∃ n, getIntD {} fl T s old = .returned n ∧
      (getIntD m fl T s old = .thrown ↔ (m.eof = true ∧ n.2.eof = true) ∨
        (m.fail = true ∧ n.2.fail = true) ∨ (m.bad = true ∧ n.2.bad = true)) ∧
      (getIntD m fl T s old ≠ .thrown → getIntD m fl T s old = .returned n)) ∧
    ∃ n, ignoreD {} s c = .returned n ∧
      (ignoreD m s c = .thrown ↔ (m.eof = true ∧ n.2.eof = true) ∨
        (m.fail = true ∧ n.2.fail = true) ∨ (m.bad = true ∧ n.2.bad = true)) ∧
      (ignoreD m s c ≠ .thrown → ignoreD m s c = .returned n) := by
  have key : ∀ {α : Type} (a : α) (s : DStream), DMask.call {} a s = .returned (a, s) ∧
      (m.call a s = .thrown ↔ (m.eof = true ∧ s.eof = true) ∨
        (m.fail = true ∧ s.fail = true) ∨ (m.bad = true ∧ s.bad = true)) ∧
      (m.call a s ≠ .thrown → m.call a s = .returned (a, s)) := by
    intro α a s
    have hh : m.hits s = true ↔ (m.eof = true ∧ s.eof = true) ∨
        (m.fail = true ∧ s.fail = true) ∨ (m.bad = true ∧ s.bad = true) := by
      simp [DMask.hits, or_assoc]
    rw [← hh]
    refine ⟨by simp [DMask.call, DMask.hits], ?_⟩
    unfold DMask.call
    split <;> simp_all
  rw [getIntD_eq, getIntD_eq, ignoreD_eq, ignoreD_eq]
  exact ⟨⟨_, key _ _⟩, ⟨_, key _ _⟩⟩

example : getIntD { bad := true } {} i32 ⟨"34".toList, true, false, false, false⟩ 7 = .thrown ∧
    getIntD { fail := true } {} i32 ⟨"34".toList, true, false, false, false⟩ 7 =
      .returned (7, ⟨[], true, false, false, true⟩) ∧
    ignoreD { bad := true } ⟨" 3".toList, true, false, false, false⟩ '/' = .thrown ∧
    ignoreD { fail := true } ⟨" 3".toList, true, false, false, false⟩ '/' =
      .returned ((), ⟨[], true, false, false, true⟩) := by
  refine ⟨by decide +kernel, by decide +kernel, by decide +kernel, by decide +kernel⟩

/-- **C139** A device that reports the end instead of breaking down: extraction as it is modelled
without the device, with the same masks. -/
theorem C139_intact {x : IStream} {m' : Mask} {b : Bool} :
    readD ⟨m'.eof, m'.fail, b⟩ fl T ⟨x.rest, false, x.eof, x.fail, false⟩ v =
      match readX m' fl T x v with
      | .returned r => .returned (r.1, ⟨r.2.rest, false, r.2.eof, r.2.fail, false⟩)
      | .thrown => .thrown
      | .terminated => .terminated := by
  have h := readE_intact (fl := fl) (T := T) (v := v) (x := x)
  rw [readD_eq, readX_eq]
  show (if DMask.hits _ (readE fl T (ofI false x) v).2 = true then _ else
    Call.returned (readE fl T (ofI false x) v)) = _
  rw [h]
  have e : DMask.hits ⟨m'.eof, m'.fail, b⟩ (ofI false (readF fl T x v).2) =
      m'.hits (readF fl T x v).2 := by
    simp [DMask.hits, Mask.hits, ofI]
  dsimp only
  rw [e]
  by_cases hc : m'.hits (readF fl T x v).2 = true
  · rw [if_pos hc, if_pos hc]
  · rw [if_neg hc, if_neg hc]
    rfl

example : readD { eof := true } {} i32 ⟨"3/4".toList, false, false, false, false⟩ ⟨1, 2⟩ =
      .terminated ∧
    readD { bad := true } {} i32 ⟨"3/4".toList, false, false, false, false⟩ ⟨1, 2⟩ =
      .returned (⟨3, 4⟩, ⟨[], false, true, false, false⟩) := by
  refine ⟨by decide +kernel, by decide +kernel⟩

/-! ## What is left in the target and the stream -/

/-- **C139** The device matters exactly if extraction from an intact device with the same text would
reach its end.  If it would not, everything is as from the intact device. -/
theorem C139_before_break (h : (readF fl T ⟨p, false, false⟩ v).2.eof = false) :
    readD {} fl T ⟨p, true, false, false, false⟩ v =
      .returned ((readF fl T ⟨p, false, false⟩ v).1, ⟨(readF fl T ⟨p, false, false⟩ v).2.rest, true,
        false, (readF fl T ⟨p, false, false⟩ v).2.fail, false⟩) := by
  have := readE_stop (b := true) h
  rw [readD_eq]
  simp only [DMask.hits, Bool.false_and, Bool.or_self, Bool.false_eq_true, if_false]
  refine congrArg Call.returned (this.trans ?_)
  simp only [ofI, h]

/-- **C139** If it would, the stream reports it with `badbit`, the old denominator stays, and the
numerator is the old one or what an intact device that goes on in any way delivers. -/
theorem C139_at_break (h : (readF fl T ⟨p, false, false⟩ v).2.eof = true) :
    ∃ r, readD {} fl T ⟨p, true, false, false, false⟩ v = .returned r ∧
      r.2.bad = true ∧ r.2.failed = true ∧ r.2.eof = false ∧ r.2.rest = [] ∧ r.1.den = v.den ∧
      (r.1.num = v.num ∨
        ∀ q, r.1.num = (readF fl T ⟨p ++ q, false, false⟩ v).1.num) := by
  obtain ⟨f, h1, h2, h3⟩ := readE_break (x := ⟨p, false, false⟩) rfl h
  refine ⟨readE fl T (ofI true ⟨p, false, false⟩) v, ?_, ?_⟩
  · rw [readD_eq]
    simp [DMask.hits, ofI]
  · rw [h1]
    refine ⟨rfl, by simp [DStream.failed], rfl, rfl, h2, h3.imp_right ?_⟩
    rintro ⟨h4, h5⟩ q
    rw [h5]
    exact (readF_num_append (q := q) h4).symm

example : (readF {} i32 ⟨"3/4 ".toList, false, false⟩ ⟨1, 2⟩).2.eof = false ∧
    readD {} {} i32 ⟨"3/4 ".toList, true, false, false, false⟩ ⟨1, 2⟩ =
      .returned (⟨3, 4⟩, ⟨" ".toList, true, false, false, false⟩) ∧
    (readF {} i32 ⟨"3/4".toList, false, false⟩ ⟨1, 2⟩).2.eof = true ∧
    readD {} {} i32 ⟨"3/4".toList, true, false, false, false⟩ ⟨1, 2⟩ =
      .returned (⟨3, 2⟩, ⟨[], true, false, false, true⟩) ∧
    (readF {} i32 ⟨"12".toList, false, false⟩ ⟨1, 2⟩).2.eof = true ∧
    readD {} {} i32 ⟨"12".toList, true, false, false, false⟩ ⟨1, 2⟩ =
      .returned (⟨1, 2⟩, ⟨[], true, false, true, true⟩) := by
  refine ⟨by decide +kernel, by decide +kernel, by decide +kernel, by decide +kernel,
    by decide +kernel, by decide +kernel⟩

/-- **C139** `badbit` is set exactly if the end of what the device delivers is reached. -/
theorem C139_bad_iff (h : readD {} fl T ⟨p, true, false, false, false⟩ v = .returned r) :
    (r.2.bad = true ↔ (readF fl T ⟨p, false, false⟩ v).2.eof = true) ∧ r.2.eof = false := by
  by_cases he : (readF fl T ⟨p, false, false⟩ v).2.eof = true
  · obtain ⟨r', h1, h2, -, h3, -⟩ := C139_at_break he
    rw [h1] at h
    cases h
    exact ⟨by simp [h2, he], h3⟩
  · have he : (readF fl T ⟨p, false, false⟩ v).2.eof = false := by simpa using he
    rw [C139_before_break he] at h
    cases h
    simp [he]

/-- **C139** With exceptions enabled for `badbit` only, the program ends exactly in that case. -/
theorem C139_bad_terminates_iff : readD { bad := true } fl T ⟨p, true, false, false, false⟩ v =
    .terminated ↔ (readF fl T ⟨p, false, false⟩ v).2.eof = true := by
  obtain ⟨r, hr⟩ := C139_returns (fl := fl) (T := T) (s := ⟨p, true, false, false, false⟩) (v := v)
  rw [(C139_terminates_iff (m := { bad := true }) hr).1, ← (C139_bad_iff hr).1]
  simp

example : (readF {} i32 ⟨"3/4".toList, false, false⟩ ⟨1, 2⟩).2.eof = true ∧
    readD { bad := true } {} i32 ⟨"3/4".toList, true, false, false, false⟩ ⟨1, 2⟩ =
      .terminated ∧
    readD { bad := true } {} i32 ⟨"3/4,".toList, true, false, false, false⟩ ⟨1, 2⟩ =
      .returned (⟨3, 4⟩, ⟨",".toList, true, false, false, false⟩) := by
  refine ⟨by decide +kernel, by decide +kernel, by decide +kernel⟩

/-- **C139** What the device would have delivered later does not matter if the stream is not bad. -/
theorem C139_not_bad {b : Bool}
    (h : readD {} fl T ⟨p, true, false, false, false⟩ v = .returned r) (hb : r.2.bad = false) :
    readD {} fl T ⟨p ++ q, b, false, false, false⟩ v =
      .returned (r.1, ⟨r.2.rest ++ q, b, false, r.2.fail, false⟩) := by
  have he : (readF fl T ⟨p, false, false⟩ v).2.eof = false := by
    by_contra hc
    rw [(C139_bad_iff h).1.2 (by simpa using hc)] at hb
    cases hb
  rw [C139_before_break he] at h
  cases h
  have ha := readF_append (q := q) he
  have hs := readE_stop (b := b) (x := ⟨p ++ q, false, false⟩) (fl := fl) (T := T) (v := v)
    (by rw [ha])
  rw [readD_eq]
  simp only [DMask.hits, Bool.false_and, Bool.or_self, Bool.false_eq_true, if_false]
  refine congrArg Call.returned (hs.trans ?_)
  rw [ha]
  rfl

/-- **C139** No number that the break cut short is stored: each part of the target is its old value
or what a device delivers that goes on after the text in any way, and breaks down later or not.
Whatever that device stores, the old value is all that can be left instead. -/
theorem C139_nothing_cut {b : Bool} {r' : Raw × DStream}
    (h : readD {} fl T ⟨p, true, false, false, false⟩ v = .returned r)
    (h' : readD {} fl T ⟨p ++ q, b, false, false, false⟩ v = .returned r') :
    (r.1.num = v.num ∨ r.1.num = r'.1.num) ∧ (r.1.den = v.den ∨ r.1.den = r'.1.den) := by
  by_cases hb : r.2.bad = true
  · have he := (C139_bad_iff h).1.1 hb
    obtain ⟨f, -, h2, h3⟩ := readE_break (x := ⟨p, false, false⟩) rfl he
    rw [readD_eq] at h h'
    simp only [DMask.hits, Bool.false_and, Bool.or_self, Bool.false_eq_true, if_false,
      Call.returned.injEq] at h h'
    subst h h'
    refine ⟨h3.imp_right ?_, .inl h2⟩
    rintro ⟨h4, h5⟩
    refine h5.trans ?_
    have e := getIntF_append' (q := q) h4
    have := getIntE_stop (b := b) (x := ⟨p ++ q, false, false⟩) (fl := fl) (T := T) (old := v.num)
      (by rw [e])
    show _ = (getIntE fl T (ofI b ⟨p ++ q, false, false⟩) v.num).1
    rw [this, e]
  · have hb : r.2.bad = false := by simpa using hb
    rw [C139_not_bad h hb] at h'
    cases h'
    exact ⟨.inr rfl, .inr rfl⟩

example : readD {} {} i32 ⟨"12/3".toList, true, false, false, false⟩ ⟨7, 8⟩ =
      .returned (⟨12, 8⟩, ⟨[], true, false, false, true⟩) ∧
    readD {} {} i32 ⟨"12/3".toList ++ "4".toList, false, false, false, false⟩ ⟨7, 8⟩ =
      .returned (⟨12, 34⟩, ⟨[], false, true, false, false⟩) ∧
    readD {} {} i32 ⟨"12/3;".toList, true, false, false, false⟩ ⟨7, 8⟩ =
      .returned (⟨12, 3⟩, ⟨";".toList, true, false, false, false⟩) := by
  refine ⟨by decide +kernel, by decide +kernel, by decide +kernel⟩

/-- **C139, refuted for a device that reports the end** where it breaks down, as a truncated file
does: the cut number is stored, and the stream converts to `true`. -/
theorem C139_end_cuts :
    readD {} {} i32 ⟨"12/3".toList, false, false, false, false⟩ ⟨7, 8⟩ =
      .returned (⟨12, 3⟩, ⟨[], false, true, false, false⟩) ∧
    readD {} {} i32 ⟨"12/3".toList ++ "4".toList, false, false, false, false⟩ ⟨7, 8⟩ =
      .returned (⟨12, 34⟩, ⟨[], false, true, false, false⟩) := by
  refine ⟨by decide +kernel, by decide +kernel⟩

/-- **C139** Success, for a stream with the default format: the stream converts to `true` exactly if
the text starts with a fraction that the type accepts and goes on after it; then that fraction is
the value, and the rest of the text is next. -/
theorem C139_success_iff {f : Raw} {e : Bool} :
    readD {} {} T ⟨p, true, false, false, false⟩ v = .returned (f, ⟨rest, true, e, false, false⟩) ↔
      e = false ∧ rest ≠ [] ∧ ∃ n d, IsFraction p n d rest ∧ Accepted T n ∧ Accepted T d ∧
        f = ⟨received T n, received T d⟩ := by
  constructor
  · intro h
    obtain ⟨h1, h2⟩ := C139_bad_iff h
    obtain rfl : e = false := h2
    have he : (readF {} T ⟨p, false, false⟩ v).2.eof = false := by
      by_contra hc
      exact absurd (h1.2 (by simpa using hc)) (by simp)
    rw [C139_before_break he] at h
    simp only [Call.returned.injEq, Prod.mk.injEq, DStream.mk.injEq, true_and, and_true] at h
    obtain ⟨h3, h4, h5⟩ := h
    have : Stream.read T ⟨p, false, false⟩ v = (f, ⟨rest, false, false⟩) := by
      rw [← (C98_default T v v _).2]
      exact Prod.ext h3 (by
        generalize (readF {} T ⟨p, false, false⟩ v).2 = y at *
        obtain ⟨y1, y2, y3⟩ := y
        simp_all)
    obtain ⟨h6, h7⟩ := C49_success_iff.1 this
    refine ⟨rfl, ?_, h7⟩
    rintro rfl
    cases h6
  · rintro ⟨rfl, h0, h1⟩
    have hr : readF {} T ⟨p, false, false⟩ v = (f, ⟨rest, false, false⟩) := by
      rw [(C98_default T v v _).2]
      exact C49_success_iff.2 ⟨by cases rest <;> simp_all, h1⟩
    rw [C139_before_break (by rw [hr]), hr]

/-- **C139** In particular what was written reads back if anything follows it that does not go on
with the number. -/
theorem C139_round_trip {f : Raw} (hf : f.InRange T) (hw : Spaces w) (hr : NoDigitFirst rest)
    (h0 : rest ≠ []) :
    readD m {} T ⟨w ++ (write f ++ rest), true, false, false, false⟩ v =
      .returned (f, ⟨rest, true, false, false, false⟩) := by
  have he : rest.isEmpty = false := by cases rest <;> simp_all
  have h : readF {} T ⟨w ++ (write f ++ rest), false, false⟩ v = (f, ⟨rest, false, false⟩) := by
    rw [(C98_default T f v _).2, C48_round_trip hf hw hr, he]
  have h1 := C139_before_break (fl := {}) (T := T) (v := v) (p := w ++ (write f ++ rest))
    (by rw [h])
  rw [h] at h1
  have h2 := C139_terminates_iff (m := m) h1
  refine h2.2 fun hc => ?_
  have := h2.1.1 hc
  simp at this

/-- **C139, refuted.**  If nothing follows it, it is not read, although the device delivered all of
it: only the numerator is replaced, and the target holds neither its old value nor the new one. -/
theorem C139_half_read {f : Raw} (hf : f.InRange T) (hw : Spaces w) :
    readD {} {} T ⟨w ++ write f, true, false, false, false⟩ v =
      .returned (⟨f.num, v.den⟩, ⟨[], true, false, false, true⟩) := by
  have h1 : getIntF {} T ⟨w ++ write f, false, false⟩ v.num =
      (f.num, ⟨'/' :: showInt f.den, false, false⟩) := by
    rw [getIntF_default rfl rfl]
    exact getInt_numeral (T := T) (rest := '/' :: showInt f.den) hw (showInt_numeral f.num)
      (fun c t e => by obtain ⟨rfl, -⟩ := List.cons.inj e; decide) hf.1
  have h2 : ignore ⟨'/' :: showInt f.den, false, false⟩ '/' = ⟨showInt f.den, false, false⟩ := by
    simp [ignore]
  have h3 : getIntF {} T ⟨showInt f.den, false, false⟩ v.den = (f.den, ⟨[], true, false⟩) := by
    have := getInt_numeral (T := T) (w := []) (rest := []) (old := v.den) (by simp [Spaces])
      (showInt_numeral f.den) (by intro c t e; simp at e) hf.2
    rw [getIntF_default rfl rfl]
    simpa using this
  have h4 : (showInt f.den).dropWhile isSpace ≠ [] := by
    obtain ⟨-, -, -, -, -, -, k1, k2, -⟩ := (showInt_numeral f.den).split
    cases e : showInt f.den with
    | nil => exact absurd e k2
    | cons c t => simp [k1 c t e]
  have e1 := getIntE_stop (b := true) (x := ⟨w ++ write f, false, false⟩) (fl := {}) (T := T)
    (old := v.num) (by rw [h1])
  have e2 := ignoreE_stop (b := true) (x := ⟨'/' :: showInt f.den, false, false⟩) (c := '/')
    (by rw [h2])
  have e3 : getIntE {} T (ofI true ⟨showInt f.den, false, false⟩) v.den =
      (v.den, ⟨[], true, false, false, true⟩) := by
    simp [getIntE, ofI, DStream.good, h3, DStream.broken, h4]
  rw [h1] at e1
  rw [h2] at e2
  have e4 : readE {} T (ofI true ⟨w ++ write f, false, false⟩) v =
      (⟨f.num, v.den⟩, ⟨[], true, false, false, true⟩) := by
    simp only [readE, e1, e2, e3]
  rw [readD_eq]
  simp only [DMask.hits, Bool.false_and, Bool.or_self, Bool.false_eq_true, if_false]
  exact congrArg Call.returned e4

example : (⟨-3, 4⟩ : Raw).InRange i32 ∧ Spaces [' '] ∧ write ⟨-3, 4⟩ = "-3/4".toList ∧
    readD {} {} i32 ⟨" -3/4\n".toList, true, false, false, false⟩ ⟨1, 2⟩ =
      .returned (⟨-3, 4⟩, ⟨"\n".toList, true, false, false, false⟩) ∧
    readD {} {} i32 ⟨" -3/4".toList, true, false, false, false⟩ ⟨1, 2⟩ =
      .returned (⟨-3, 2⟩, ⟨[], true, false, false, true⟩) := by
  refine ⟨by decide, by simp [Spaces, whitespace], by decide +kernel, by decide +kernel,
    by decide +kernel⟩

/-! ## Reading as far as possible -/

/-- **C139** The loop `while (stream >> value)` is finite on every device. -/
theorem C139_loop_ends {b : Bool} {fuel : ℕ} (h : p.length < fuel) :
    ∃ c, readWhileD m fl T fuel ⟨p, b, false, false, false⟩ v = some c := by
  suffices H : ∀ {x : IStream}, x.rest.length < fuel → (b = true → x.eof = false) →
      ∃ c, readWhileD m fl T fuel (ofI b x) v = some c from
    H (x := ⟨p, false, false⟩) h fun _ => rfl
  clear h
  induction fuel generalizing v with
  | zero => intro x h; omega
  | succ k ih =>
    intro x h hx
    rw [readWhileD, readD_eq]
    by_cases hh : m.hits (readE fl T (ofI b x) v).2 = true
    · exact ⟨.terminated, by simp [hh]⟩
    simp only [if_neg hh]
    by_cases hf : (readE fl T (ofI b x) v).2.failed = true
    · exact ⟨_, by rw [if_pos hf]⟩
    rw [if_neg hf]
    have key : readE fl T (ofI b x) v = ((readF fl T x v).1, ofI b (readF fl T x v).2) ∧
        (b = true → (readF fl T x v).2.eof = false) := by
      cases b with
      | false => exact ⟨readE_intact, by simp⟩
      | true =>
        by_cases he : (readF fl T x v).2.eof = true
        · obtain ⟨f, h1, -⟩ := readE_break (hx rfl) he
          rw [h1] at hf
          simp [DStream.failed] at hf
        · have he : (readF fl T x v).2.eof = false := by simpa using he
          exact ⟨readE_stop he, fun _ => he⟩
    have hf' : (readF fl T x v).2.fail = false := by
      rw [key.1] at hf
      simpa [DStream.failed, ofI] using hf
    have hl := readF_length hf'
    obtain ⟨c, hc⟩ := ih (v := (readF fl T x v).1) (x := (readF fl T x v).2) (by omega) key.2
    rw [key.1, hc]
    exact ⟨_, rfl⟩

/-- **C139** The values that a loop collects before the device breaks down are the first ones that it
collects if the device goes on in any way, and all of them unless the stream is bad. -/
theorem C139_loop_prefix {b : Bool} {k k' : ℕ} {a c : List Raw × DStream}
    (h : readWhileD {} fl T k ⟨p, true, false, false, false⟩ v = some (.returned a))
    (h' : readWhileD {} fl T k' ⟨p ++ q, b, false, false, false⟩ v = some (.returned c)) :
    a.1 <+: c.1 ∧ (a.2.bad = false → a.1 = c.1) := by
  induction k generalizing p v k' a c with
  | zero => cases h
  | succ k ih =>
    cases k' with
    | zero => cases h'
    | succ k' =>
      obtain ⟨r, hr⟩ := C139_returns (fl := fl) (T := T) (s := ⟨p, true, false, false, false⟩)
        (v := v)
      rw [readWhileD, hr] at h
      dsimp only at h
      by_cases hb : r.2.bad = true
      · have hf : r.2.failed = true := by simp [DStream.failed, hb]
        rw [if_pos hf] at h
        cases h
        exact ⟨List.nil_prefix, fun hc => by rw [hb] at hc; cases hc⟩
      · have hb : r.2.bad = false := by simpa using hb
        have hr' := C139_not_bad (q := q) (b := b) hr hb
        have hs : r.2 = ⟨r.2.rest, true, false, r.2.fail, false⟩ := by
          have he : (readF fl T ⟨p, false, false⟩ v).2.eof = false := by
            by_contra hc
            rw [(C139_bad_iff hr).1.2 (by simpa using hc)] at hb
            cases hb
          rw [C139_before_break he] at hr
          cases hr
          rfl
        rw [readWhileD, hr'] at h'
        dsimp only at h'
        by_cases hf : r.2.fail = true
        · rw [if_pos (by simp [DStream.failed, hf])] at h h'
          cases h; cases h'
          exact ⟨List.prefix_rfl, fun _ => rfl⟩
        · have hf : r.2.fail = false := by simpa using hf
          rw [if_neg (by simp [DStream.failed, hf, hb])] at h
          rw [if_neg (by simp [DStream.failed, hf])] at h'
          rw [hs, hf] at h
          rw [hf] at h'
          obtain ⟨x, hx, hx'⟩ := Option.map_eq_some_iff.1 h
          obtain ⟨y, hy, hy'⟩ := Option.map_eq_some_iff.1 h'
          cases x with
          | returned x =>
            cases y with
            | returned y =>
              obtain ⟨i1, i2⟩ := ih hx hy
              cases hx'; cases hy'
              exact ⟨List.cons_prefix_cons.2 ⟨rfl, i1⟩, fun hc => by rw [i2 hc]⟩
            | _ => cases hy'
          | _ => cases hx'

example : readWhileD {} {} i32 9 ⟨"1/2 3/4".toList, true, false, false, false⟩ ⟨0, 1⟩ =
      some (.returned ([⟨1, 2⟩], ⟨[], true, false, false, true⟩)) ∧
    readWhileD {} {} i32 9 ⟨"1/2 3/4".toList ++ "5 6/7".toList, false, false, false, false⟩ ⟨0, 1⟩ =
      some (.returned ([⟨1, 2⟩, ⟨3, 45⟩, ⟨6, 7⟩], ⟨[], false, true, true, false⟩)) ∧
    readWhileD {} {} i32 9 ⟨"1/2 x".toList, true, false, false, false⟩ ⟨0, 1⟩ =
      some (.returned ([⟨1, 2⟩], ⟨"x".toList, true, false, true, false⟩)) := by
  refine ⟨by decide +kernel, by decide +kernel, by decide +kernel⟩

/-- **C139, refuted for a device that reports the end** where it breaks down: the loop collects the
cut fraction as its last value, and `badbit` stays clear. -/
theorem C139_loop_end_cuts :
    readWhileD {} {} i32 9 ⟨"1/2 3/4".toList, false, false, false, false⟩ ⟨0, 1⟩ =
      some (.returned ([⟨1, 2⟩, ⟨3, 4⟩], ⟨[], false, true, true, false⟩)) ∧
    readWhileD {} {} i32 9 ⟨"1/2 3/4".toList ++ "5".toList, false, false, false, false⟩ ⟨0, 1⟩ =
      some (.returned ([⟨1, 2⟩, ⟨3, 45⟩], ⟨[], false, true, true, false⟩)) := by
  refine ⟨by decide +kernel, by decide +kernel⟩

end Ieme
