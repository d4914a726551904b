import Verif.Model.ReadLoop
import Verif.Spec.ReadLoop
import Verif.Lemmas.StreamRead
import Verif.Lemmas.Numeric

/-!
# Lemmas about programs that read a text of fractions to its end
-/

namespace Ieme.Stream

variable {fl : Flags} {T : IntTy} {text rest : List Char} {g : Raw} {xs : List Raw}

theorem readLoop_fail {s : IStream} (h : (readF fl T s g).2.fail = true) :
    readLoop fl T s g = ([], readF fl T s g) := by
  rw [readLoop, dif_neg (by simp [h])]

theorem readLoop_ok {s : IStream} (h : (readF fl T s g).2.fail = false) :
    readLoop fl T s g = ((readF fl T s g).1 ::
      (readLoop fl T (readF fl T s g).2 (readF fl T s g).1).1,
      (readLoop fl T (readF fl T s g).2 (readF fl T s g).1).2) := by
  rw [readLoop, dif_pos h]

theorem readF_bad {s : IStream} (h : s.eof = true ∨ s.fail = true) :
    readF fl T s g = (g, { s with fail := true }) := by
  have h' : (s.eof || s.fail) = true := by simpa using h
  simp [readF, getIntF, ignore, h']

theorem readLoop_bad {s : IStream} (h : s.eof = true ∨ s.fail = true) :
    readLoop fl T s g = ([], g, { s with fail := true }) := by
  rw [readLoop_fail (by rw [readF_bad h]), readF_bad h]

theorem readLoop_record {n d : ℤ} (h : IsFractionF fl text n d rest) (hn : Accepted T n)
    (hd : Accepted T d) :
    readLoop fl T ⟨text, false, false⟩ g =
      (⟨received T n, received T d⟩ ::
        (readLoop fl T ⟨rest, rest.isEmpty, false⟩ ⟨received T n, received T d⟩).1,
        (readLoop fl T ⟨rest, rest.isEmpty, false⟩ ⟨received T n, received T d⟩).2) := by
  have e := readF_isFraction (g := g) h hn hd
  rw [readLoop_ok (by rw [e]), e]

theorem readF_noRecord (h : NoRecord fl T text) :
    (readF fl T ⟨text, false, false⟩ g).2.fail = true := by
  rcases readF_cases fl T text g with ⟨n, d, rest, h1, h2, h3, -⟩ | ⟨-, hf⟩
  · exact absurd ⟨h2, h3⟩ (h n d rest h1)
  · exact hf

theorem readLoop_noRecord (h : NoRecord fl T text) :
    readLoop fl T ⟨text, false, false⟩ g = ([], readF fl T ⟨text, false, false⟩ g) :=
  readLoop_fail (readF_noRecord h)

theorem LeadingIntF.ne_nil {n : ℤ} (h : LeadingIntF fl text n rest) : text ≠ [] := by
  obtain ⟨w, sign, pre, ds, r, rfl, -, -, -, -, h0, -⟩ := h
  simp [h0]

theorem noRecord_nil : NoRecord fl T [] := by
  rintro n d rest ⟨junk, t, h, -⟩
  exact absurd rfl h.ne_nil

/-- Where the values end does not depend on whether the end has been noticed. -/
theorem readLoop_values (rest : List Char) (g : Raw) :
    (readLoop fl T ⟨rest, rest.isEmpty, false⟩ g).1 = (readLoop fl T ⟨rest, false, false⟩ g).1 := by
  cases rest with
  | nil => rw [readLoop_bad (by simp), readLoop_noRecord noRecord_nil]
  | cons c l => rfl

theorem records_loop (h : Records fl T text xs rest) (hr : NoRecord fl T rest) (g : Raw) :
    (readLoop fl T ⟨text, false, false⟩ g).1 = xs := by
  induction h generalizing g with
  | none => rw [readLoop_noRecord hr]
  | more h1 h2 h3 _ ih => rw [readLoop_record h1 h2 h3, readLoop_values, ih hr]

theorem IsFractionF.length {n d : ℤ} (h : IsFractionF fl text n d rest) :
    rest.length + 3 ≤ text.length := by
  obtain ⟨junk, t, h1, -, h2⟩ := h
  have key : ∀ {text rest : List Char} {n : ℤ}, LeadingIntF fl text n rest →
      rest.length + 1 ≤ text.length := by
    rintro text rest n ⟨w, sign, pre, ds, r, rfl, -, -, -, -, h0, -⟩
    have := List.length_pos_iff.2 h0
    simp only [List.length_append]
    omega
  have k1 := key h1
  have k2 := key h2
  simp only [List.length_append, List.length_cons] at k1
  omega

theorem Records.length (h : Records fl T text xs rest) :
    rest.length + 3 * xs.length ≤ text.length := by
  induction h with
  | none => simp
  | more h1 _ _ _ ih =>
    have := h1.length
    simp only [List.length_cons]
    omega

theorem exists_records (fl : Flags) (T : IntTy) (text : List Char) :
    ∃ xs rest, Records fl T text xs rest ∧ NoRecord fl T rest := by
  induction hl : text.length using Nat.strong_induction_on generalizing text with
  | _ k ih =>
    by_cases h : NoRecord fl T text
    · exact ⟨[], text, .none, h⟩
    · simp only [NoRecord, not_forall, not_not] at h
      obtain ⟨n, d, rest, h1, h2, h3⟩ := h
      obtain ⟨xs, r, k1, k2⟩ := ih rest.length (by have := h1.length; omega) rest rfl
      exact ⟨_, r, .more h1 h2 h3 k1, k2⟩

theorem received_inRange (n : ℤ) : T.InRange (received T n) := by
  have h1 := T.min_le_zero
  have h2 := T.max_ge
  unfold received
  split
  · constructor <;> omega
  · split
    · rename_i hs _
      have hs : T.signed = false := by simpa using hs
      have hm : T.min = 0 := by rw [IntTy.min, if_neg (by simp [hs])]
      have hM : T.max = 2 ^ T.bits - 1 := by
        rw [IntTy.max, if_neg (by simp [hs])]; push_cast; rfl
      have h3 := Int.emod_nonneg n (b := 2 ^ T.bits) (by positivity)
      have h4 := Int.emod_lt_of_pos n (b := 2 ^ T.bits) (by positivity)
      constructor <;> omega
    · constructor <;> omega

theorem Records.inRange (h : Records fl T text xs rest) : ∀ x ∈ xs, x.InRange T := by
  induction h with
  | none => simp
  | more _ _ _ _ ih =>
    rintro x (_ | ⟨_, hx⟩)
    · exact ⟨received_inRange _, received_inRange _⟩
    · exact ih x hx

theorem readLoop_fails (s : IStream) (g : Raw) : (readLoop fl T s g).2.2.fail = true := by
  induction hl : s.rest.length using Nat.strong_induction_on generalizing s g with
  | _ k ih =>
    by_cases h : (readF fl T s g).2.fail = false
    · rw [readLoop_ok h]
      exact ih _ (by rw [← hl]; exact readF_length h) _ _ rfl
    · rw [readLoop_fail (by simpa using h)]
      simpa using h

theorem sumLoop_eq (o : Ops) (s : IStream) (g sum : Raw) :
    sumLoop fl T o s g sum = (do
      let r ← Std.accumulate T o .plus sum (readLoop fl T s g).1
      return (r, (readLoop fl T s g).2)) := by
  induction hl : s.rest.length using Nat.strong_induction_on generalizing s g sum with
  | _ k ih =>
    by_cases h : (readF fl T s g).2.fail = false
    · rw [readLoop_ok h, sumLoop, dif_pos h, Std.accumulate, bind_assoc]
      rw [Fraction.assignF, if_pos rfl]
      refine congrArg _ (funext fun sum' => ?_)
      exact ih _ (by rw [← hl]; exact readF_length h) (readF fl T s g).2 (readF fl T s g).1 sum' rfl
    · rw [readLoop_fail (by simpa using h), sumLoop, dif_neg h]
      rfl

theorem reduceLoop_iff (mode : ReduceMode) (sep : List Char) (s : IStream) (g : Raw)
    {t : List Char} :
    reduceLoop fl T mode sep s g ⇓ t ↔
      ∃ ys, List.Forall₂ (fun x y => x.reduce T mode ⇓ y) (readLoop fl T s g).1 ys ∧
        t = ys.flatMap fun v => write v ++ sep := by
  induction hl : s.rest.length using Nat.strong_induction_on generalizing s g t with
  | _ k ih =>
    by_cases h : (readF fl T s g).2.fail = false
    · rw [readLoop_ok h, reduceLoop, dif_pos h]
      have ih := fun t => ih _ (by rw [← hl]; exact readF_length h) (readF fl T s g).2
        (readF fl T s g).1 (t := t) rfl
      constructor
      · intro e
        obtain ⟨y, hy, e⟩ := Res.bind_eq_clean.1 e
        obtain ⟨t', ht, e⟩ := Res.bind_eq_clean.1 e
        obtain ⟨ys, hs, rfl⟩ := (ih t').1 ht
        refine ⟨y :: ys, .cons hy hs, ?_⟩
        have := (Res.pure_eq_ok.1 e).1
        simp [← this]
      · rintro ⟨_, hs, rfl⟩
        cases hs with
        | cons hy hs =>
          rename_i y ys
          refine Res.bind_eq_clean.2 ⟨y, hy, Res.bind_eq_clean.2 ⟨_, (ih _).2 ⟨ys, hs, rfl⟩, ?_⟩⟩
          simp
    · rw [readLoop_fail (by simpa using h), reduceLoop, dif_neg h]
      constructor
      · intro e
        exact ⟨[], .nil, by have := (Res.pure_eq_ok.1 e).1; simp [← this]⟩
      · rintro ⟨ys, hs, rfl⟩
        cases hs
        rfl

theorem copyLoop_eq (sep : List Char) (s : IStream) (g : Raw) :
    copyLoop fl T sep s g = (readLoop fl T s g).1.flatMap fun v => write v ++ sep := by
  induction hl : s.rest.length using Nat.strong_induction_on generalizing s g with
  | _ k ih =>
    by_cases h : (readF fl T s g).2.fail = false
    · rw [readLoop_ok h, copyLoop, dif_pos h]
      have := ih _ (by rw [← hl]; exact readF_length h) (readF fl T s g).2 (readF fl T s g).1 rfl
      simp [this]
    · rw [readLoop_fail (by simpa using h), copyLoop, dif_neg h]
      rfl

/-! ## The end of the text -/

theorem getInt_eof (T : IntTy) (text : List Char) (old : ℤ) :
    (getInt T ⟨text, false, false⟩ old).2.eof = true ↔ IntEnd text := by
  by_cases hsp : Spaces text
  · simp only [getInt, Bool.or_self, spaces_iff.1 hsp, List.isEmpty_nil, if_true]
    exact iff_of_true rfl (.inl hsp)
  have hne : text.dropWhile isSpace ≠ [] := fun h => hsp (spaces_iff.2 h)
  have he : (text.dropWhile isSpace).isEmpty = false := by
    rw [List.isEmpty_eq_false_iff]; exact hne
  have e1 : text = text.takeWhile isSpace ++ text.dropWhile isSpace :=
    (List.takeWhile_append_dropWhile).symm
  by_cases hd : (splitSign (text.dropWhile isSpace)).2.takeWhile isDigit = []
  · have e : (getInt T ⟨text, false, false⟩ old).2.eof =
        (splitSign (text.dropWhile isSpace)).2.isEmpty := by
      have := List.takeWhile_append_dropWhile (p := isDigit)
        (l := (splitSign (text.dropWhile isSpace)).2)
      rw [hd, List.nil_append] at this
      simp only [getInt, Bool.or_self, he, hd, List.isEmpty_nil, if_true]
      simp [this]
    rw [e, List.isEmpty_iff]
    constructor
    · intro h
      right; left
      have hw : Spaces (text.takeWhile isSpace) := fun c hc => mem_whitespace.2 (takeWhile_all c hc)
      rcases splitSign_spec (text.dropWhile isSpace) with ⟨t, h1, h2⟩ | ⟨t, h1, h2⟩ | h1
      · rw [h2] at h
        rw [show t = [] from h] at h1
        exact ⟨_, '-', by rw [← h1]; exact e1, hw, .inr rfl⟩
      · rw [h2] at h
        rw [show t = [] from h] at h1
        exact ⟨_, '+', by rw [← h1]; exact e1, hw, .inl rfl⟩
      · exact absurd (by simpa [h1] using h) hne
    · rintro (h | ⟨w, c, rfl, hw, hc⟩ | ⟨n, h⟩)
      · exact absurd h hsp
      · rw [dropWhile_append_of hw.isSpace (by
          intro c' t e; obtain ⟨rfl, -⟩ := List.cons.inj e
          rcases hc with rfl | rfl <;> decide)]
        rcases hc with rfl | rfl <;> rfl
      · obtain ⟨neg, ds, h1, h2, h3, -⟩ := h.split
        rw [h2, h3] at hd
        exact absurd hd h1
  · obtain ⟨n, hn⟩ := leading_of_digits hd
    rw [getInt_leading hn]
    constructor
    · intro h
      rw [List.isEmpty_iff] at h
      rw [h] at hn
      exact .inr (.inr ⟨n, hn⟩)
    · rintro (h | ⟨w, c, rfl, hw, hc⟩ | ⟨m, h⟩)
      · exact absurd h hsp
      · rw [dropWhile_append_of hw.isSpace (by
          intro c' t e; obtain ⟨rfl, -⟩ := List.cons.inj e
          rcases hc with rfl | rfl <;> decide)] at hd
        rcases hc with rfl | rfl <;> exact absurd rfl hd
      · have := getInt_leading (T := T) (old := old) h
        rw [getInt_leading hn] at this
        have := congrArg (·.2.eof) this
        simpa using this

theorem read_eof (hr : (read T ⟨text, false, false⟩ g).2.fail = true) :
    (read T ⟨text, false, false⟩ g).2.eof = true ↔ UsedUp T text := by
  rcases getInt_cases T text g.num with ⟨n, t, hn, ha, e⟩ | ⟨hn, hf⟩
  · rcases ignore_cases (rest := t) with ⟨junk, u, rfl, hj, ei⟩ | ⟨hs, he⟩
    · have e' : (read T ⟨text, false, false⟩ g).2 = (getInt T ⟨u, false, false⟩ g.den).2 := by
        simp only [read, e, ei]
      rw [e', getInt_eof]
      constructor
      · exact fun h => .inr (.inr ⟨n, junk, u, hn, ha, hj, h⟩)
      · rintro (h | ⟨m, r, h1, -, h2⟩ | ⟨m, junk', u', h1, -, h2, h3⟩)
        · rw [← getInt_eof T text g.num, e] at h
          simp at h
        · have := getInt_leading (T := T) (old := g.num) h1
          rw [getInt_leading hn] at this
          have := congrArg (·.2.rest) this
          simp only at this
          exact absurd (by rw [← this]; simp) h2
        · have := getInt_leading (T := T) (old := g.num) h1
          rw [getInt_leading hn] at this
          have := congrArg (·.2.rest) this
          simp only at this
          have k1 := ignore_slash (rest := u) (b := false) hj rfl
          have k2 := ignore_slash (rest := u') (b := false) h2 rfl
          rw [this, k2] at k1
          have := congrArg (·.rest) k1
          simp only at this
          rwa [← this]
    · have e' : (read T ⟨text, false, false⟩ g).2.eof = true := by
        simp only [read, e]
        generalize ignore ⟨t, t.isEmpty, false⟩ '/' = s at he
        simp [getInt, he]
      exact iff_of_true e' (.inr (.inl ⟨n, t, hn, ha, hs⟩))
  · have e' : (read T ⟨text, false, false⟩ g).2.eof =
        (getInt T ⟨text, false, false⟩ g.num).2.eof := by
      simp only [read]
      generalize getInt T ⟨text, false, false⟩ g.num = r at hf
      have e1 : ignore r.2 '/' = { r.2 with fail := true } := by simp [ignore, hf]
      rw [e1]
      simp [getInt]
    rw [e', getInt_eof]
    constructor
    · exact fun h => .inl h
    · have key : ∀ {m : ℤ} {r : List Char}, LeadingInt text m r → ¬ Accepted T m := by
        intro m r h ha
        rw [getInt_leading h] at hf
        simp [ha] at hf
      rintro (h | ⟨m, r, h1, h2, -⟩ | ⟨m, junk, u, h1, h2, -⟩)
      · exact h
      · exact absurd h2 (key h1)
      · exact absurd h2 (key h1)

end Ieme.Stream
