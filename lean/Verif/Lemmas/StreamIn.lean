import Verif.Lemmas.StreamExcept
import Verif.Model.StreamIn

/-!
# Lemmas about input from a device that can break down
-/

namespace Ieme.Stream

variable {T : IntTy} {fl : Flags} {m : DMask} {s : DStream} {v : Raw} {old : ℤ} {p q : List Char}

/-- The effect of `getIntD`. -/
def getIntE (fl : Flags) (T : IntTy) (s : DStream) (old : ℤ) : ℤ × DStream :=
  if s.good then
    if s.breaks && (getIntF fl T ⟨s.rest, false, false⟩ old).2.eof then
      (old, s.broken (fl.skipws && (s.rest.dropWhile isSpace).isEmpty))
    else ((getIntF fl T ⟨s.rest, false, false⟩ old).1,
      { s with rest := (getIntF fl T ⟨s.rest, false, false⟩ old).2.rest,
               eof := (getIntF fl T ⟨s.rest, false, false⟩ old).2.eof,
               fail := (getIntF fl T ⟨s.rest, false, false⟩ old).2.fail })
  else (old, { s with fail := true })

/-- The effect of `ignoreD`. -/
def ignoreE (s : DStream) (delim : Char) : DStream :=
  if s.good then
    if s.breaks && (ignore ⟨s.rest, false, false⟩ delim).eof then s.broken false
    else { s with rest := (ignore ⟨s.rest, false, false⟩ delim).rest,
                  eof := (ignore ⟨s.rest, false, false⟩ delim).eof,
                  fail := (ignore ⟨s.rest, false, false⟩ delim).fail }
  else { s with fail := true }

/-- The effect of `readD`. -/
def readE (fl : Flags) (T : IntTy) (s : DStream) (v : Raw) : Raw × DStream :=
  let n := getIntE fl T s v.num
  let d := getIntE fl T (ignoreE n.2 '/') v.den
  (⟨n.1, d.1⟩, d.2)

theorem getIntD_eq : getIntD m fl T s old = m.call (getIntE fl T s old).1 (getIntE fl T s old).2 := by
  unfold getIntD getIntE
  dsimp only
  split <;> (try split) <;> rfl

theorem ignoreD_eq {c : Char} : ignoreD m s c = m.call () (ignoreE s c) := by
  unfold ignoreD ignoreE
  dsimp only
  split <;> (try split) <;> rfl

/-- State bits stay set. -/
def Keeps (s s' : DStream) : Prop :=
  (s.eof = true → s'.eof = true) ∧ (s.fail = true → s'.fail = true) ∧ (s.bad = true → s'.bad = true)

theorem good_iff : s.good = true ↔ s.eof = false ∧ s.fail = false ∧ s.bad = false := by
  simp [DStream.good, and_assoc]

theorem getIntE_keeps : Keeps s (getIntE fl T s old).2 := by
  unfold getIntE
  split
  · rename_i h
    obtain ⟨h1, h2, h3⟩ := good_iff.1 h
    refine ⟨?_, ?_, ?_⟩ <;> simp [h1, h2, h3]
  · exact ⟨id, fun _ => rfl, id⟩

theorem ignoreE_keeps {c : Char} : Keeps s (ignoreE s c) := by
  unfold ignoreE
  split
  · rename_i h
    obtain ⟨h1, h2, h3⟩ := good_iff.1 h
    refine ⟨?_, ?_, ?_⟩ <;> simp [h1, h2, h3]
  · exact ⟨id, fun _ => rfl, id⟩

theorem DMask.hits_mono {s s' : DStream} (h : Keeps s s') (hh : m.hits s = true) :
    m.hits s' = true := by
  obtain ⟨h1, h2, h3⟩ := h
  simp only [DMask.hits, Bool.or_eq_true, Bool.and_eq_true] at hh ⊢
  tauto

/-- Extraction in one piece: state bits stay set, so only the final state counts. -/
theorem readD_eq : readD m fl T s v =
    if m.hits (readE fl T s v).2 then .terminated else .returned (readE fl T s v) := by
  simp only [readD, getIntD_eq, ignoreD_eq, DMask.call, readE]
  by_cases h1 : m.hits (getIntE fl T s v.num).2 = true
  · have h3 := DMask.hits_mono (getIntE_keeps (fl := fl) (T := T) (old := v.den))
      (DMask.hits_mono (ignoreE_keeps (c := '/')) h1)
    simp [h1, h3, Call.andThen, Call.noexcept]
  · by_cases h2 : m.hits (ignoreE (getIntE fl T s v.num).2 '/') = true
    · have h3 := DMask.hits_mono (getIntE_keeps (fl := fl) (T := T) (old := v.den)) h2
      simp [h1, h2, h3, Call.andThen, Call.noexcept]
    · by_cases h3 : m.hits (getIntE fl T (ignoreE (getIntE fl T s v.num).2 '/') v.den).2 = true <;>
        simp [h1, h2, h3, Call.andThen, Call.noexcept]

/-! ### More text -/

theorem while_append {f : Char → Bool} {a b : List Char} (h : a.dropWhile f ≠ []) :
    (a ++ b).takeWhile f = a.takeWhile f ∧ (a ++ b).dropWhile f = a.dropWhile f ++ b := by
  induction a with
  | nil => simp at h
  | cons c t ih =>
    by_cases hc : f c = true
    · rw [List.dropWhile_cons_of_pos hc] at h
      obtain ⟨h1, h2⟩ := ih h
      simp [hc, h1, h2]
    · simp [hc]

theorem splitSign_append {a b : List Char} (h : a ≠ []) :
    splitSign (a ++ b) = ((splitSign a).1, (splitSign a).2 ++ b) := by
  cases a with
  | nil => exact absurd rfl h
  | cons c t =>
    unfold splitSign
    split
    · rename_i heq
      simp only [List.cons_append, List.cons.injEq] at heq
      obtain ⟨rfl, rfl⟩ := heq
      rfl
    · rename_i heq
      simp only [List.cons_append, List.cons.injEq] at heq
      obtain ⟨rfl, rfl⟩ := heq
      rfl
    · rename_i h1 h2
      split
      · rename_i heq
        simp only [List.cons.injEq] at heq
        obtain ⟨rfl, rfl⟩ := heq
        exact (h1 _ rfl).elim
      · rename_i heq
        simp only [List.cons.injEq] at heq
        obtain ⟨rfl, rfl⟩ := heq
        exact (h2 _ rfl).elim
      · rfl

theorem splitBase_append {base : Base} {a b : List Char}
    (h : (splitBase base a).2.dropWhile (isDigitIn (splitBase base a).1) ≠ []) :
    splitBase base (a ++ b) = ((splitBase base a).1, (splitBase base a).2 ++ b) := by
  have hd8 : isDigitIn 8 '0' = true := by decide
  have hd16 : isDigitIn 16 '0' = true := by decide
  match a with
  | [] => cases base <;> simp [splitBase] at h
  | [c] =>
    by_cases hc : c = '0'
    · subst hc
      cases base <;> simp [splitBase, List.dropWhile, hd8, hd16] at h ⊢
    · cases base <;> simp [splitBase, hc]
  | c :: d :: t =>
    by_cases hc : c = '0'
    · subst hc
      by_cases h1 : d = 'x'
      · subst h1; cases base <;> rfl
      by_cases h2 : d = 'X'
      · subst h2; cases base <;> rfl
      cases base <;> simp [splitBase, h1, h2]
    · cases base <;> simp [splitBase, hc]

/-- An extraction that does not reach the end of the text does the same with more text. -/
theorem getIntF_append (h : (getIntF fl T ⟨p, false, false⟩ old).2.eof = false) :
    getIntF fl T ⟨p ++ q, false, false⟩ old = ((getIntF fl T ⟨p, false, false⟩ old).1,
      ⟨(getIntF fl T ⟨p, false, false⟩ old).2.rest ++ q, false,
        (getIntF fl T ⟨p, false, false⟩ old).2.fail⟩) := by
  have key : ∀ {r : List Char}, (let body := (splitBase fl.base (splitSign r).2).2
      body.dropWhile (isDigitIn (splitBase fl.base (splitSign r).2).1)) ≠ [] →
      splitSign (r ++ q) = ((splitSign r).1, (splitSign r).2 ++ q) ∧
      splitBase fl.base ((splitSign r).2 ++ q) = ((splitBase fl.base (splitSign r).2).1,
        (splitBase fl.base (splitSign r).2).2 ++ q) := by
    intro r hr
    refine ⟨splitSign_append ?_, splitBase_append hr⟩
    rintro rfl
    apply hr
    cases fl.base <;> rfl
  simp only [getIntF, Bool.or_self, Bool.false_eq_true, if_false] at h ⊢
  by_cases hs : fl.skipws = true
  · simp only [hs, if_true, Bool.true_and] at h ⊢
    by_cases he : p.dropWhile isSpace = []
    · simp [he] at h
    · obtain ⟨-, hd⟩ := while_append (b := q) he
      have he' : (p.dropWhile isSpace).isEmpty = false := by simpa using he
      have he2 : (p.dropWhile isSpace ++ q).isEmpty = false := by simp [he]
      rw [hd]
      simp only [he', he2, Bool.false_eq_true, if_false] at h ⊢
      generalize p.dropWhile isSpace = r at *
      have hr : (splitBase fl.base (splitSign r).2).2.dropWhile
          (isDigitIn (splitBase fl.base (splitSign r).2).1) ≠ [] := by
        intro e
        split at h <;> simp [e] at h
      obtain ⟨k1, k2⟩ := key hr
      rw [k1, k2]
      dsimp only
      obtain ⟨k3, k4⟩ := while_append (b := q) hr
      rw [k3, k4]
      split <;> simp [hr]
  · simp only [hs, if_false, Bool.false_and, Bool.false_eq_true] at h ⊢
    have hr : (splitBase fl.base (splitSign p).2).2.dropWhile
        (isDigitIn (splitBase fl.base (splitSign p).2).1) ≠ [] := by
      intro e
      split at h <;> simp [e] at h
    obtain ⟨k1, k2⟩ := key hr
    rw [k1, k2]
    dsimp only
    obtain ⟨k3, k4⟩ := while_append (b := q) hr
    rw [k3, k4]
    split <;> simp [hr]

theorem ignore_append {c : Char} (h : (ignore ⟨p, false, false⟩ c).eof = false) :
    ignore ⟨p ++ q, false, false⟩ c = ⟨(ignore ⟨p, false, false⟩ c).rest ++ q, false,
      (ignore ⟨p, false, false⟩ c).fail⟩ := by
  simp only [ignore, Bool.or_self, Bool.false_eq_true, if_false] at h ⊢
  have hr : p.dropWhile (fun x => decide (x ≠ c)) ≠ [] := by
    intro e
    rw [e] at h
    simp at h
  rw [(while_append (b := q) hr).2]
  cases e : p.dropWhile (fun x => decide (x ≠ c)) with
  | nil => exact absurd e hr
  | cons a t => rfl

/-! ### The three steps -/

/-- A stream in the state that `x` reached, on a device that breaks down or not. -/
def ofI (b : Bool) (x : IStream) : DStream := ⟨x.rest, b, x.eof, x.fail, false⟩

theorem getIntE_intact {x : IStream} :
    getIntE fl T (ofI false x) old =
      ((getIntF fl T x old).1, ofI false (getIntF fl T x old).2) := by
  obtain ⟨r, e, f⟩ := x
  cases e <;> cases f <;> simp [getIntE, ofI, DStream.good, getIntF]

theorem ignoreE_intact {x : IStream} {c : Char} :
    ignoreE (ofI false x) c = ofI false (ignore x c) := by
  obtain ⟨r, e, f⟩ := x
  cases e <;> cases f <;> simp [ignoreE, ofI, DStream.good, ignore]

/-- A device that reports the end: the model of extraction without it. -/
theorem readE_intact {x : IStream} :
    readE fl T (ofI false x) v = ((readF fl T x v).1, ofI false (readF fl T x v).2) := by
  simp only [readE, readF, getIntE_intact, ignoreE_intact]

theorem getIntE_stop {b : Bool} {x : IStream} (h : (getIntF fl T x old).2.eof = false) :
    getIntE fl T (ofI b x) old = ((getIntF fl T x old).1, ofI b (getIntF fl T x old).2) := by
  obtain ⟨r, e, f⟩ := x
  cases e <;> cases f <;> simp_all [getIntE, ofI, DStream.good, getIntF]

theorem ignoreE_stop {b : Bool} {x : IStream} {c : Char} (h : (ignore x c).eof = false) :
    ignoreE (ofI b x) c = ofI b (ignore x c) := by
  obtain ⟨r, e, f⟩ := x
  cases e <;> cases f <;> simp_all [ignoreE, ofI, DStream.good, ignore]

theorem getIntE_break {x : IStream} (hx : x.eof = false) (h : (getIntF fl T x old).2.eof = true) :
    ∃ f, getIntE fl T (ofI true x) old = (old, ⟨[], true, false, f, true⟩) := by
  obtain ⟨r, e, f⟩ := x
  obtain rfl : e = false := hx
  cases f
  · exact ⟨_, by simp [getIntE, ofI, DStream.good, h, DStream.broken]; rfl⟩
  · simp [getIntF] at h

theorem ignoreE_break {x : IStream} {c : Char} (hx : x.eof = false) (h : (ignore x c).eof = true) :
    ignoreE (ofI true x) c = ⟨[], true, false, false, true⟩ := by
  obtain ⟨r, e, f⟩ := x
  obtain rfl : e = false := hx
  cases f
  · simp [ignoreE, ofI, DStream.good, h, DStream.broken]
  · simp [ignore] at h

theorem getIntE_bad {e f b : Bool} {r : List Char} :
    getIntE fl T ⟨r, b, e, f, true⟩ old = (old, ⟨r, b, e, true, true⟩) := by
  simp [getIntE, DStream.good]

theorem ignoreE_bad {e f b : Bool} {r : List Char} {c : Char} :
    ignoreE ⟨r, b, e, f, true⟩ c = ⟨r, b, e, true, true⟩ := by
  simp [ignoreE, DStream.good]

theorem getIntF_eof {x : IStream} (h : x.eof = true) : (getIntF fl T x old).2.eof = true := by
  obtain ⟨r, e, f⟩ := x
  simp_all [getIntF]

theorem ignore_eof {x : IStream} {c : Char} (h : x.eof = true) : (ignore x c).eof = true := by
  obtain ⟨r, e, f⟩ := x
  simp_all [ignore]

/-- The end of the text is not reached: the device does not matter. -/
theorem readE_stop {b : Bool} {x : IStream} (h : (readF fl T x v).2.eof = false) :
    readE fl T (ofI b x) v = ((readF fl T x v).1, ofI b (readF fl T x v).2) := by
  simp only [readF] at h
  have h2 : (ignore (getIntF fl T x v.num).2 '/').eof = false := by
    by_contra hc
    simp [getIntF_eof (by simpa using hc)] at h
  have h1 : (getIntF fl T x v.num).2.eof = false := by
    by_contra hc
    simp [ignore_eof (by simpa using hc)] at h2
  simp only [readE, readF, getIntE_stop h1, ignoreE_stop h2, getIntE_stop h]

/-- The end of the text is reached: the device breaks down. -/
theorem readE_break {x : IStream} (hx : x.eof = false) (h : (readF fl T x v).2.eof = true) :
    ∃ f, (readE fl T (ofI true x) v).2 = ⟨[], true, false, f, true⟩ ∧
      (readE fl T (ofI true x) v).1.den = v.den ∧
      ((readE fl T (ofI true x) v).1.num = v.num ∨
        (getIntF fl T x v.num).2.eof = false ∧
        (readE fl T (ofI true x) v).1.num = (getIntF fl T x v.num).1) := by
  simp only [readF] at h
  by_cases h1 : (getIntF fl T x v.num).2.eof = true
  · obtain ⟨f, hf⟩ := getIntE_break hx h1
    exact ⟨true, by simp [readE, hf, ignoreE_bad, getIntE_bad]⟩
  have h1 : (getIntF fl T x v.num).2.eof = false := by simpa using h1
  by_cases h2 : (ignore (getIntF fl T x v.num).2 '/').eof = true
  · refine ⟨true, ?_⟩
    simp [readE, getIntE_stop h1, ignoreE_break h1 h2, getIntE_bad, h1]
  have h2 : (ignore (getIntF fl T x v.num).2 '/').eof = false := by simpa using h2
  obtain ⟨f, hf⟩ := getIntE_break h2 h
  exact ⟨f, by simp [readE, getIntE_stop h1, ignoreE_stop h2, hf, h1]⟩

theorem getIntF_append' {x : IStream} (h : (getIntF fl T x old).2.eof = false) :
    getIntF fl T ⟨x.rest ++ q, x.eof, x.fail⟩ old = ((getIntF fl T x old).1,
      ⟨(getIntF fl T x old).2.rest ++ q, false, (getIntF fl T x old).2.fail⟩) := by
  obtain ⟨r, e, f⟩ := x
  cases e <;> cases f
  · exact getIntF_append h
  all_goals simp_all [getIntF]

theorem ignore_append' {x : IStream} {c : Char} (h : (ignore x c).eof = false) :
    ignore ⟨x.rest ++ q, x.eof, x.fail⟩ c =
      ⟨(ignore x c).rest ++ q, false, (ignore x c).fail⟩ := by
  obtain ⟨r, e, f⟩ := x
  cases e <;> cases f
  · exact ignore_append h
  all_goals simp_all [ignore]

/-- Extraction that stops before the end of the text does not depend on what comes later. -/
theorem readF_append {x : IStream} (h : (readF fl T x v).2.eof = false) :
    readF fl T ⟨x.rest ++ q, x.eof, x.fail⟩ v = ((readF fl T x v).1,
      ⟨(readF fl T x v).2.rest ++ q, false, (readF fl T x v).2.fail⟩) := by
  simp only [readF] at h
  have h2 : (ignore (getIntF fl T x v.num).2 '/').eof = false := by
    by_contra hc
    simp [getIntF_eof (by simpa using hc)] at h
  have h1 : (getIntF fl T x v.num).2.eof = false := by
    by_contra hc
    simp [ignore_eof (by simpa using hc)] at h2
  have e1 := getIntF_append' (q := q) h1
  have e2 := ignore_append' (q := q) h2
  have e3 := getIntF_append' (q := q) h
  rw [h1] at e2
  rw [h2] at e3
  simp only [readF, e1, e2, e3]

theorem readF_num_append {x : IStream} (h : (getIntF fl T x v.num).2.eof = false) :
    (readF fl T ⟨x.rest ++ q, x.eof, x.fail⟩ v).1.num = (getIntF fl T x v.num).1 := by
  simp only [readF, getIntF_append' h]

end Ieme.Stream
