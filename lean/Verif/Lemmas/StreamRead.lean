import Verif.Spec.StreamRead
import Verif.Lemmas.StreamFmt
import Verif.Lemmas.StreamExact

/-!
# Everything extraction with formatting flags can do
-/

namespace Ieme.Stream

open IntTy

variable {T : IntTy} {fl : Flags} {n v old : ℤ} {r : ℕ} {c : Char} {text rest pre body : List Char}

theorem mem_radixDigits (hr : r = 8 ∨ r = 10 ∨ r = 16) :
    c ∈ radixDigits r ↔ isDigitIn r c = true := by
  constructor
  · intro h
    rcases hr with rfl | rfl | rfl
    · have : ∀ x ∈ radixDigits 8, isDigitIn 8 x = true := by decide
      exact this c h
    · have : ∀ x ∈ radixDigits 10, isDigitIn 10 x = true := by decide
      exact this c h
    · have : ∀ x ∈ radixDigits 16, isDigitIn 16 x = true := by decide
      exact this c h
  · intro h
    have hx := hexDigits_of_isDigitIn hr h
    rcases hr with rfl | rfl | rfl
    · have : ∀ x ∈ Lit.hexDigits, isDigitIn 8 x = true → x ∈ radixDigits 8 := by decide
      exact this c hx h
    · have : ∀ x ∈ Lit.hexDigits, isDigitIn 10 x = true → x ∈ radixDigits 10 := by decide
      exact this c hx h
    · exact hx

theorem not_mem_radixDigits (hr : r = 8 ∨ r = 10 ∨ r = 16) :
    c ∉ radixDigits r ↔ isDigitIn r c = false := by
  rw [mem_radixDigits hr, Bool.not_eq_true]

theorem Flags.Reads.radix (h : fl.Reads pre body r) : r = 8 ∨ r = 10 ∨ r = 16 := by
  cases h <;> simp

theorem Flags.Reads.pre_cases (h : fl.Reads pre body r) : pre = [] ∨ HexMark pre := by
  cases h <;> simp_all

theorem Flags.Reads.splitBase (h : fl.Reads pre body r) :
    splitBase fl.base (pre ++ body) = (r, body) := by
  cases h with
  | dec h => rw [h]; rfl
  | oct h => rw [h]; rfl
  | mark h hm => rcases h with h | h <;> rcases hm with rfl | rfl <;> rw [h] <;> rfl
  | hex h hu =>
    rw [h, List.nil_append, Stream.splitBase.eq_def]
    simp only
    split
    · exact absurd rfl (hu ['0', 'x'] _ (.inl rfl))
    · exact absurd rfl (hu ['0', 'X'] _ (.inr rfl))
    · rfl
  | zero h hu =>
    rw [h, List.nil_append, Stream.splitBase.eq_def]
    simp only
    split
    · rename_i t e
      exact absurd e (hu ['0', 'x'] t (.inl rfl))
    · rename_i t e
      exact absurd e (hu ['0', 'X'] t (.inr rfl))
    · rfl
    · rename_i hz
      exact absurd rfl (hz _)
  | other h hu =>
    rw [h, List.nil_append, Stream.splitBase.eq_def]
    simp only
    split
    · exact absurd rfl (hu _)
    · exact absurd rfl (hu _)
    · exact absurd rfl (hu _)
    · rfl

theorem splitBase_reads (fl : Flags) (l : List Char) : ∃ pre,
    l = pre ++ (splitBase fl.base l).2 ∧
      fl.Reads pre (splitBase fl.base l).2 (splitBase fl.base l).1 := by
  have unm : ∀ {l : List Char}, (∀ t, l = '0' :: 'x' :: t → False) →
      (∀ t, l = '0' :: 'X' :: t → False) → Unmarked l := by
    rintro l h1 h2 p t (rfl | rfl) e
    · exact h1 t e
    · exact h2 t e
  have cases4 : fl.base = .dec ∨ fl.base = .oct ∨ fl.base = .hex ∨ fl.base = .unset := by
    cases fl.base <;> simp
  rcases cases4 with h | h | h | h
  · rw [h]; exact ⟨[], rfl, .dec h⟩
  · rw [h]; exact ⟨[], rfl, .oct h⟩
  · rw [h, splitBase.eq_def]
    simp only
    split
    · exact ⟨['0', 'x'], rfl, .mark (.inl h) (.inl rfl)⟩
    · exact ⟨['0', 'X'], rfl, .mark (.inl h) (.inr rfl)⟩
    · rename_i h1 h2
      exact ⟨[], rfl, .hex h (unm (fun t e => h1 t e) (fun t e => h2 t e))⟩
  · rw [h, splitBase.eq_def]
    simp only
    split
    · exact ⟨['0', 'x'], rfl, .mark (.inr h) (.inl rfl)⟩
    · exact ⟨['0', 'X'], rfl, .mark (.inr h) (.inr rfl)⟩
    · rename_i h1 h2
      refine ⟨[], rfl, .zero h (unm (fun t e => ?_) (fun t e => ?_))⟩
      · obtain ⟨-, rfl⟩ := List.cons.inj e; exact h1 _ rfl
      · obtain ⟨-, rfl⟩ := List.cons.inj e; exact h2 _ rfl
    · rename_i h1
      exact ⟨[], rfl, .other h fun t e => h1 t e⟩

/-- The text that is looked at. -/
def skipped (fl : Flags) (text : List Char) : List Char :=
  if fl.skipws = true then text.dropWhile isSpace else text

theorem LeadingIntF.split (h : LeadingIntF fl text n rest) : ∃ neg r ds, ds ≠ [] ∧
    skipped fl text ≠ [] ∧ (splitSign (skipped fl text)).1 = neg ∧
    splitBase fl.base (splitSign (skipped fl text)).2 = (r, ds ++ rest) ∧
    (ds ++ rest).takeWhile (isDigitIn r) = ds ∧ (ds ++ rest).dropWhile (isDigitIn r) = rest ∧
    n = (if neg then -(valueIn r ds : ℤ) else valueIn r ds) := by
  obtain ⟨w, sign, pre, ds, r, rfl, hw, hs, hsg, hrd, h0, h1, h2, hn⟩ := h
  have hr := hrd.radix
  have d1 : ∀ c ∈ ds, isDigitIn r c = true := fun c hc => (mem_radixDigits hr).1 (h1 c hc)
  have d2 : ∀ c t, rest = c :: t → isDigitIn r c = false :=
    fun c t e => (not_mem_radixDigits hr).1 (h2 c t e)
  have hx : ∀ c ∈ ds, c ∈ Lit.hexDigits := fun c hc => hexDigits_of_isDigitIn hr (d1 c hc)
  -- the first character behind the sign
  have hfirst : ∃ x l, pre ++ (ds ++ rest) = x :: l ∧ isDigitIn 16 x = true := by
    rcases hrd.pre_cases with rfl | rfl | rfl
    · obtain ⟨x, l, rfl⟩ := List.exists_cons_of_ne_nil h0
      exact ⟨x, l ++ rest, rfl, (mem_radixDigits (.inr (.inr rfl))).1 (hx x (by simp))⟩
    · exact ⟨'0', _, rfl, by decide⟩
    · exact ⟨'0', _, rfl, by decide⟩
  obtain ⟨x, l, hxl, hxd⟩ := hfirst
  obtain ⟨f1, f2, f3, -⟩ := isDigitIn_facts (.inr (.inr rfl)) hxd
  have hsk : skipped fl (w ++ (sign ++ (pre ++ (ds ++ rest)))) = sign ++ (pre ++ (ds ++ rest)) := by
    have e : (w ++ (sign ++ (pre ++ (ds ++ rest)))).dropWhile isSpace =
        sign ++ (pre ++ (ds ++ rest)) := by
      refine dropWhile_append_of hw.isSpace fun c t e => ?_
      rw [hxl] at e
      rcases hsg with rfl | rfl | rfl <;> obtain ⟨rfl, -⟩ := List.cons.inj e
      · exact f1
      · decide
      · decide
    rw [skipped]
    rcases hs with hs | rfl
    · rw [if_pos hs, e]
    · rw [e]; split <;> rfl
  rw [hsk]
  have hsn : splitSign (pre ++ (ds ++ rest)) = (false, pre ++ (ds ++ rest)) := by
    refine splitSign_none fun c t e => ?_
    rw [hxl] at e
    obtain ⟨rfl, -⟩ := List.cons.inj e
    exact ⟨f2, f3⟩
  have hspl : splitSign (sign ++ (pre ++ (ds ++ rest))) =
      (decide (sign = ['-']), pre ++ (ds ++ rest)) := by
    rcases hsg with rfl | rfl | rfl
    · exact hsn
    · rfl
    · rfl
  rw [hspl]
  refine ⟨_, r, ds, h0, ?_, rfl, hrd.splitBase, takeWhile_append_of d1 d2,
    dropWhile_append_of d1 d2, ?_⟩
  · rw [hxl]; rcases hsg with rfl | rfl | rfl <;> simp
  · rw [hn, ← valueIn_eq hx]; simp

theorem getIntF_eq (fl : Flags) (T : IntTy) (text : List Char) (old : ℤ) :
    getIntF fl T ⟨text, false, false⟩ old =
      if fl.skipws && (skipped fl text).isEmpty then (old, ⟨[], true, true⟩)
      else
        let sb := splitBase fl.base (splitSign (skipped fl text)).2
        let ds := sb.2.takeWhile (isDigitIn sb.1)
        let after := sb.2.dropWhile (isDigitIn sb.1)
        if ds.isEmpty then (0, ⟨after, after.isEmpty, true⟩)
        else
          let v := store T (splitSign (skipped fl text)).1 (valueIn sb.1 ds)
          (v.1, ⟨after, after.isEmpty, v.2⟩) := rfl

theorem getIntF_leading (h : LeadingIntF fl text n rest) :
    getIntF fl T ⟨text, false, false⟩ old =
      (received T n, ⟨rest, rest.isEmpty, !decide (Accepted T n)⟩) := by
  obtain ⟨neg, r, ds, h0, h1, h2, h3, h4, h5, h6⟩ := h.split
  have he : (skipped fl text).isEmpty = false := by rw [List.isEmpty_eq_false_iff]; exact h1
  have hds : ds.isEmpty = false := by rw [List.isEmpty_eq_false_iff]; exact h0
  rw [getIntF_eq]
  simp only [he, Bool.and_false, h2, h3, h4, h5, hds, store_eq]
  subst h6
  rfl

theorem leadingF_of_digits (fl : Flags) (text : List Char)
    (h : (splitBase fl.base (splitSign (skipped fl text)).2).2.takeWhile
      (isDigitIn (splitBase fl.base (splitSign (skipped fl text)).2).1) ≠ []) :
    ∃ n rest, LeadingIntF fl text n rest := by
  have e1 : ∃ w, text = w ++ skipped fl text ∧ Spaces w ∧ (fl.skipws = true ∨ w = []) := by
    by_cases hs : fl.skipws = true
    · refine ⟨text.takeWhile isSpace, ?_, fun c hc => mem_whitespace.2 (takeWhile_all c hc),
        .inl hs⟩
      rw [skipped, if_pos hs, List.takeWhile_append_dropWhile]
    · exact ⟨[], by rw [skipped, if_neg hs]; rfl, by simp [Spaces], .inr rfl⟩
  obtain ⟨w, e1, hw, hws⟩ := e1
  have e2 : ∃ sign, skipped fl text = sign ++ (splitSign (skipped fl text)).2 ∧
      (sign = [] ∨ sign = ['+'] ∨ sign = ['-']) := by
    rcases splitSign_spec (skipped fl text) with ⟨t, e, e'⟩ | ⟨t, e, e'⟩ | e'
    · exact ⟨['-'], by rw [e']; exact e, by simp⟩
    · exact ⟨['+'], by rw [e']; exact e, by simp⟩
    · exact ⟨[], by rw [e']; rfl, by simp⟩
  obtain ⟨sign, e2, hsg⟩ := e2
  obtain ⟨pre, e3, hrd⟩ := splitBase_reads fl (splitSign (skipped fl text)).2
  generalize splitBase fl.base (splitSign (skipped fl text)).2 = sb at *
  have e4 : sb.2 = sb.2.takeWhile (isDigitIn sb.1) ++ sb.2.dropWhile (isDigitIn sb.1) :=
    List.takeWhile_append_dropWhile.symm
  refine ⟨_, sb.2.dropWhile (isDigitIn sb.1), w, sign, pre, sb.2.takeWhile (isDigitIn sb.1), sb.1,
    ?_, hw, hws, hsg, ?_, h, fun c hc => (mem_radixDigits hrd.radix).2 (takeWhile_all c hc),
    fun c t e => (not_mem_radixDigits hrd.radix).2 (dropWhile_head c t e), rfl⟩
  · rw [← e4, ← e3, ← e2, ← e1]
  · rw [← e4]; exact hrd

/-- All that extraction from a good stream can do. -/
theorem getIntF_cases (fl : Flags) (T : IntTy) (text : List Char) (old : ℤ) :
    (∃ n rest, LeadingIntF fl text n rest ∧ Accepted T n ∧
      getIntF fl T ⟨text, false, false⟩ old = (received T n, ⟨rest, rest.isEmpty, false⟩)) ∨
    (IntFailureF fl T old text (getIntF fl T ⟨text, false, false⟩ old).1 ∧
      (getIntF fl T ⟨text, false, false⟩ old).2.fail = true) := by
  by_cases hsp : fl.skipws = true ∧ Spaces text
  · right
    have e : getIntF fl T ⟨text, false, false⟩ old = (old, ⟨[], true, true⟩) := by
      rw [getIntF_eq, skipped, if_pos hsp.1, spaces_iff.1 hsp.2, hsp.1]
      rfl
    rw [e]
    exact ⟨.blank hsp.1 hsp.2, rfl⟩
  by_cases hd : (splitBase fl.base (splitSign (skipped fl text)).2).2.takeWhile
      (isDigitIn (splitBase fl.base (splitSign (skipped fl text)).2).1) = []
  · right
    have he : (fl.skipws && (skipped fl text).isEmpty) = false := by
      by_cases hs : fl.skipws = true
      · rw [hs, Bool.true_and, List.isEmpty_eq_false_iff, skipped, if_pos hs]
        exact fun h => hsp ⟨hs, spaces_iff.2 h⟩
      · simp [hs]
    have e : (getIntF fl T ⟨text, false, false⟩ old).1 = 0 ∧
        (getIntF fl T ⟨text, false, false⟩ old).2.fail = true := by
      rw [getIntF_eq, he]
      simp only [hd, List.isEmpty_nil, if_true]
      exact ⟨rfl, rfl⟩
    rw [e.1]
    refine ⟨.noInt hsp fun n rest h => ?_, e.2⟩
    obtain ⟨neg, r, ds, h1, -, -, h3, h4, -⟩ := h.split
    rw [h3] at hd
    exact h1 (h4.symm.trans hd)
  · obtain ⟨n, rest, hn⟩ := leadingF_of_digits fl text hd
    have e := getIntF_leading (T := T) (old := old) hn
    by_cases ha : Accepted T n
    · left
      refine ⟨n, _, hn, ha, ?_⟩
      rw [e]; simp [ha]
    · right
      rw [e]
      exact ⟨.outOfRange hn ha, by simp [ha]⟩

/-- All that extraction of a fraction from a good stream can do. -/
theorem readF_cases (fl : Flags) (T : IntTy) (text : List Char) (g : Raw) :
    (∃ n d rest, IsFractionF fl text n d rest ∧ Accepted T n ∧ Accepted T d ∧
      readF fl T ⟨text, false, false⟩ g =
        (⟨received T n, received T d⟩, ⟨rest, rest.isEmpty, false⟩)) ∨
    (FractionFailureF fl T g.num g.den text (readF fl T ⟨text, false, false⟩ g).1.num
        (readF fl T ⟨text, false, false⟩ g).1.den ∧
      (readF fl T ⟨text, false, false⟩ g).2.fail = true) := by
  rcases getIntF_cases fl T text g.num with ⟨n, t, hn, ha, e⟩ | ⟨hn, hf⟩
  · rcases ignore_cases (rest := t) with ⟨junk, u, rfl, hj, ei⟩ | ⟨hs, he⟩
    · rcases getIntF_cases fl T u g.den with ⟨d, rest, hd, hda, e'⟩ | ⟨hd, hf⟩
      · left
        refine ⟨n, d, rest, ⟨junk, u, hn, hj, hd⟩, ha, hda, ?_⟩
        simp only [readF, e, ei, e']
      · right
        simp only [readF, e, ei]
        exact ⟨.denominator hn ha hj hd, hf⟩
    · right
      simp only [readF, e]
      generalize ignore ⟨t, t.isEmpty, false⟩ '/' = s at he
      have : getIntF fl T s g.den = (g.den, { s with fail := true }) := by simp [getIntF, he]
      rw [this]
      exact ⟨.slash hn ha hs, rfl⟩
  · right
    simp only [readF]
    generalize getIntF fl T ⟨text, false, false⟩ g.num = r at hn hf
    have e1 : ignore r.2 '/' = { r.2 with fail := true } := by simp [ignore, hf]
    rw [e1]
    have : getIntF fl T { r.2 with fail := true } g.den = (g.den, { r.2 with fail := true }) := by
      simp [getIntF]
    rw [this]
    exact ⟨.numerator hn, rfl⟩

theorem readF_isFraction {d : ℤ} {g : Raw} (h : IsFractionF fl text n d rest) (hn : Accepted T n)
    (hd : Accepted T d) :
    readF fl T ⟨text, false, false⟩ g =
      (⟨received T n, received T d⟩, ⟨rest, rest.isEmpty, false⟩) := by
  obtain ⟨junk, t, h1, h2, h3⟩ := h
  have e1 := getIntF_leading (T := T) (old := g.num) h1
  have e2 : ignore ⟨junk ++ '/' :: t, (junk ++ '/' :: t).isEmpty, false⟩ '/' = ⟨t, false, false⟩ :=
    ignore_slash h2 (by cases junk <;> rfl)
  simp only [hn, decide_true, Bool.not_true] at e1
  simp only [readF, e1, e2, getIntF_leading (T := T) (old := g.den) h3, hd, decide_true,
    Bool.not_true]

theorem getIntF_failure (h : IntFailureF fl T old text v) :
    (getIntF fl T ⟨text, false, false⟩ old).1 = v ∧
    (getIntF fl T ⟨text, false, false⟩ old).2.fail = true := by
  rcases h with ⟨hk, h⟩ | ⟨h1, h2⟩ | ⟨h1, h2⟩
  · rw [getIntF_eq, skipped, if_pos hk, spaces_iff.1 h, hk]
    exact ⟨rfl, rfl⟩
  · rcases getIntF_cases fl T text old with ⟨n, rest, h, -, -⟩ | ⟨hg, hf⟩
    · exact absurd h (h2 n rest)
    · refine ⟨?_, hf⟩
      generalize (getIntF fl T ⟨text, false, false⟩ old).1 = u at hg
      rcases hg with ⟨hk, h⟩ | ⟨-, -⟩ | ⟨h, -⟩
      · exact absurd ⟨hk, h⟩ h1
      · rfl
      · exact absurd h (h2 _ _)
  · rw [getIntF_leading h1]
    exact ⟨rfl, by simp [h2]⟩

theorem readF_failure {d : ℤ} {g : Raw} (h : FractionFailureF fl T g.num g.den text n d) :
    (readF fl T ⟨text, false, false⟩ g).1 = ⟨n, d⟩ ∧
    (readF fl T ⟨text, false, false⟩ g).2.fail = true := by
  rcases h with h | ⟨h1, h2, h3⟩ | ⟨h1, h2, h3, h4⟩
  · obtain ⟨h1, h2⟩ := getIntF_failure h
    simp only [readF]
    generalize getIntF fl T ⟨text, false, false⟩ g.num = r at h1 h2
    have e1 : ignore r.2 '/' = { r.2 with fail := true } := by simp [ignore, h2]
    have e2 : getIntF fl T { r.2 with fail := true } g.den = (g.den, { r.2 with fail := true }) := by
      simp [getIntF]
    rw [e1, e2]
    exact ⟨by rw [h1], rfl⟩
  · have e1 := getIntF_leading (T := T) (old := g.num) h1
    simp only [h2, decide_true, Bool.not_true] at e1
    simp only [readF, e1]
    rcases ignore_cases (rest := ‹List Char›) with ⟨junk, u, rfl, -, -⟩ | ⟨-, he⟩
    · simp at h3
    · generalize ignore ⟨_, _, false⟩ '/' = s at he
      have : getIntF fl T s g.den = (g.den, { s with fail := true }) := by simp [getIntF, he]
      rw [this]
      exact ⟨rfl, rfl⟩
  · rename_i n' junk rest'
    have e1 := getIntF_leading (T := T) (old := g.num) h1
    simp only [h2, decide_true, Bool.not_true] at e1
    have e2 : ignore ⟨junk ++ '/' :: rest', (junk ++ '/' :: rest').isEmpty, false⟩ '/' =
        ⟨rest', false, false⟩ := ignore_slash h3 (by cases junk <;> rfl)
    obtain ⟨h5, h6⟩ := getIntF_failure h4
    simp only [readF, e1, e2]
    exact ⟨by rw [h5], h6⟩

theorem LeadingIntF.unique {m : ℤ} {rest' : List Char} (h : LeadingIntF fl text n rest)
    (h' : LeadingIntF fl text m rest') : n = m ∧ rest = rest' := by
  obtain ⟨neg, r, ds, h0, h1, h2, h3, h4, h5, h6⟩ := h.split
  obtain ⟨neg', r', ds', k0, k1, k2, k3, k4, k5, k6⟩ := h'.split
  obtain rfl := h2.symm.trans k2
  obtain ⟨rfl, e⟩ := Prod.mk.inj (h3.symm.trans k3)
  have e1 : ds = ds' := by rw [← h4, e, k4]
  have e2 : rest = rest' := by rw [← h5, e, k5]
  subst e1 e2
  exact ⟨by rw [h6, k6], rfl⟩

end Ieme.Stream
