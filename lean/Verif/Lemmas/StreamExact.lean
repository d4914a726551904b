import Verif.Lemmas.Stream

/-!
# Everything integer extraction can do
-/

namespace Ieme.Stream

open IntTy

variable {T : IntTy} {n v old : ℤ} {text rest : List Char}

instance (T : IntTy) (n : ℤ) : Decidable (Accepted T n) := by unfold Accepted; infer_instance

theorem store_eq (neg : Bool) (m : ℕ) :
    store T neg m = (received T (if neg then -(m : ℤ) else m),
      !decide (Accepted T (if neg then -(m : ℤ) else m))) := by
  have h1 := T.min_le_zero
  have h2 := T.max_ge
  have hn : ((if neg = true then -(m : ℤ) else m).natAbs : ℤ) = m := by split <;> simp
  simp only [store, received, Accepted]
  by_cases hs : T.signed = true
  · simp only [if_pos hs, IntTy.InRange]
    generalize (if neg = true then -(m : ℤ) else m) = v
    by_cases h3 : v < T.min
    · rw [if_pos h3]
      have : ¬ (T.min ≤ v ∧ v ≤ T.max) := by omega
      simp only [this, decide_false, Bool.not_false, Prod.mk.injEq, and_true]
      omega
    · rw [if_neg h3]
      by_cases h4 : T.max < v
      · rw [if_pos h4]
        have : ¬ (T.min ≤ v ∧ v ≤ T.max) := by omega
        simp only [this, decide_false, Bool.not_false, Prod.mk.injEq, and_true]
        omega
      · rw [if_neg h4]
        have : T.min ≤ v ∧ v ≤ T.max := by omega
        simp only [this, and_self, decide_true, Bool.not_true, Prod.mk.injEq, and_true]
        omega
  · simp only [if_neg hs, hn]
    by_cases h3 : T.max < (m : ℤ)
    · have : ¬ ((m : ℤ) ≤ T.max) := by omega
      simp [h3, this]
    · have : (m : ℤ) ≤ T.max := by omega
      simp [h3, this, IntTy.wrap, hs]

theorem dropWhile_nil_iff {p : Char → Bool} {l : List Char} :
    l.dropWhile p = [] ↔ ∀ c ∈ l, p c = true := by
  constructor
  · intro h c hc
    rw [← List.takeWhile_append_dropWhile (p := p) (l := l), h, List.append_nil] at hc
    exact takeWhile_all c hc
  · intro h
    have := dropWhile_append_of (b := []) h (by simp)
    rwa [List.append_nil] at this

theorem LeadingInt.split (h : LeadingInt text n rest) : ∃ neg ds, ds ≠ [] ∧
    splitSign (text.dropWhile isSpace) = (neg, ds ++ rest) ∧
    (ds ++ rest).takeWhile isDigit = ds ∧ (ds ++ rest).dropWhile isDigit = rest ∧
    n = (if neg then -(decimal ds : ℤ) else decimal ds) ∧ text.dropWhile isSpace ≠ [] := by
  obtain ⟨w, a, rfl, hw, ha, hr⟩ := h
  obtain ⟨neg, ds, h1, h2, h3, h4, h5, h6, -⟩ := ha.split
  have hd : (w ++ (a ++ rest)).dropWhile isSpace = a ++ rest := by
    refine dropWhile_append_of hw.isSpace fun c t e => ?_
    cases a with
    | nil => exact absurd rfl h6
    | cons x l =>
      obtain ⟨rfl, -⟩ := List.cons.inj e
      exact h5 x l rfl
  rw [hd]
  refine ⟨neg, ds, h1, h3 rest, takeWhile_append_of h2 hr.isDigit,
    dropWhile_append_of h2 hr.isDigit, h4, ?_⟩
  intro e
  exact h6 (List.append_eq_nil_iff.1 e).1

theorem getInt_leading (h : LeadingInt text n rest) :
    getInt T ⟨text, false, false⟩ old =
      (received T n, ⟨rest, rest.isEmpty, !decide (Accepted T n)⟩) := by
  obtain ⟨neg, ds, h1, h2, h3, h4, h5, h6⟩ := h.split
  have he : (text.dropWhile isSpace).isEmpty = false := by
    rw [List.isEmpty_eq_false_iff]; exact h6
  have hds : ds.isEmpty = false := by rw [List.isEmpty_eq_false_iff]; exact h1
  simp only [getInt, Bool.or_self, he, h2, h3, h4, hds, store_eq]
  subst h5
  rfl

theorem leading_of_digits (h : (splitSign (text.dropWhile isSpace)).2.takeWhile isDigit ≠ []) :
    ∃ n, LeadingInt text n ((splitSign (text.dropWhile isSpace)).2.dropWhile isDigit) := by
  generalize hr : text.dropWhile isSpace = r at *
  have e1 : text = text.takeWhile isSpace ++ r := by
    rw [← hr, List.takeWhile_append_dropWhile]
  have e2 : (splitSign r).2 = (splitSign r).2.takeWhile isDigit ++ (splitSign r).2.dropWhile isDigit :=
    List.takeWhile_append_dropWhile.symm
  have hnd : NoDigitFirst ((splitSign r).2.dropWhile isDigit) := fun c t e =>
    not_mem_decDigits.2 (dropWhile_head c t e)
  have hsp : Spaces (text.takeWhile isSpace) := fun c hc => mem_whitespace.2 (takeWhile_all c hc)
  have hdg : ∀ {l : List Char}, ∀ c ∈ l.takeWhile isDigit, c ∈ Lit.decDigits :=
    fun c hc => mem_decDigits.2 (takeWhile_all c hc)
  rcases splitSign_spec r with ⟨t, e, e'⟩ | ⟨t, e, e'⟩ | e'
  · refine ⟨_, text.takeWhile isSpace, '-' :: (splitSign r).2.takeWhile isDigit, ?_, hsp,
      .minus h hdg, hnd⟩
    rw [List.cons_append, ← e2]
    conv_lhs => rw [e1, e]
    rw [e']
  · refine ⟨_, text.takeWhile isSpace, '+' :: (splitSign r).2.takeWhile isDigit, ?_, hsp,
      .plus h hdg, hnd⟩
    rw [List.cons_append, ← e2]
    conv_lhs => rw [e1, e]
    rw [e']
  · refine ⟨_, text.takeWhile isSpace, (splitSign r).2.takeWhile isDigit, ?_, hsp,
      .bare h hdg, hnd⟩
    rw [← e2]
    conv_lhs => rw [e1]
    rw [e']

theorem spaces_iff : Spaces text ↔ text.dropWhile isSpace = [] := by
  rw [dropWhile_nil_iff]
  exact ⟨fun h => h.isSpace, fun h c hc => mem_whitespace.2 (h c hc)⟩

/-- All that extraction from a good stream can do. -/
theorem getInt_cases (T : IntTy) (text : List Char) (old : ℤ) :
    (∃ n rest, LeadingInt text n rest ∧ Accepted T n ∧
      getInt T ⟨text, false, false⟩ old = (received T n, ⟨rest, rest.isEmpty, false⟩)) ∨
    (IntFailure T old text (getInt T ⟨text, false, false⟩ old).1 ∧
      (getInt T ⟨text, false, false⟩ old).2.fail = true) := by
  by_cases hsp : Spaces text
  · right
    have e : getInt T ⟨text, false, false⟩ old = (old, ⟨[], true, true⟩) := by
      simp only [getInt, Bool.or_self, spaces_iff.1 hsp, List.isEmpty_nil, if_true]
      rfl
    rw [e]
    exact ⟨.blank hsp, rfl⟩
  by_cases hd : (splitSign (text.dropWhile isSpace)).2.takeWhile isDigit = []
  · right
    have he : (text.dropWhile isSpace).isEmpty = false := by
      rw [List.isEmpty_eq_false_iff]; exact fun h => hsp (spaces_iff.2 h)
    have e : (getInt T ⟨text, false, false⟩ old).1 = 0 ∧
        (getInt T ⟨text, false, false⟩ old).2.fail = true := by
      simp only [getInt, Bool.or_self, he, hd, List.isEmpty_nil, if_true]
      exact ⟨rfl, rfl⟩
    rw [e.1]
    refine ⟨.noInt hsp fun n rest h => ?_, e.2⟩
    obtain ⟨neg, ds, h1, h2, h3, -⟩ := h.split
    rw [h2, h3] at hd
    exact h1 hd
  · obtain ⟨n, hn⟩ := leading_of_digits hd
    have e := getInt_leading (T := T) (old := old) hn
    by_cases ha : Accepted T n
    · left
      refine ⟨n, _, hn, ha, ?_⟩
      rw [e]; simp [ha]
    · right
      rw [e]
      exact ⟨.outOfRange hn ha, by simp [ha]⟩

theorem ignore_cases {rest : List Char} :
    (∃ junk t, rest = junk ++ '/' :: t ∧ '/' ∉ junk ∧
      ignore ⟨rest, rest.isEmpty, false⟩ '/' = ⟨t, false, false⟩) ∨
    ('/' ∉ rest ∧ ((ignore ⟨rest, rest.isEmpty, false⟩ '/').eof = true)) := by
  by_cases hm : '/' ∈ rest
  · left
    obtain ⟨junk, t, rfl, hj⟩ := List.eq_append_cons_of_mem hm
    refine ⟨junk, t, rfl, hj, ignore_slash hj ?_⟩
    cases junk <;> rfl
  · right
    refine ⟨hm, ?_⟩
    cases rest with
    | nil => rfl
    | cons c l =>
      have : (c :: l).dropWhile (· ≠ '/') = [] := by
        rw [dropWhile_nil_iff]
        intro x hx
        have : x ≠ '/' := fun e => hm (e ▸ hx)
        simpa using this
      simp only [ignore, List.isEmpty_cons, Bool.or_self, this]
      rfl

theorem isFraction_iff {n d : ℤ} : IsFraction text n d rest ↔
    ∃ junk t, LeadingInt text n (junk ++ '/' :: t) ∧ '/' ∉ junk ∧ LeadingInt t d rest := by
  have key : ∀ {junk t : List Char},
      NoDigitFirst (junk ++ ['/']) ↔ NoDigitFirst (junk ++ '/' :: t) := by
    intro junk t
    cases junk with
    | nil => simp [NoDigitFirst]
    | cons c l => simp [NoDigitFirst]
  constructor
  · rintro ⟨w, a, junk, w', b, rfl, h1, h2, h3, h4, h5, h6, h7⟩
    exact ⟨junk, _, ⟨w, a, rfl, h1, h2, key.1 h4⟩, h3, ⟨w', b, rfl, h5, h6, h7⟩⟩
  · rintro ⟨junk, t, ⟨w, a, rfl, h1, h2, h4⟩, h3, ⟨w', b, rfl, h5, h6, h7⟩⟩
    exact ⟨w, a, junk, w', b, rfl, h1, h2, h3, key.2 h4, h5, h6, h7⟩

/-- All that extraction of a fraction from a good stream can do. -/
theorem read_cases (T : IntTy) (text : List Char) (g : Raw) :
    (∃ n d rest, IsFraction text n d rest ∧ Accepted T n ∧ Accepted T d ∧
      read T ⟨text, false, false⟩ g = (⟨received T n, received T d⟩, ⟨rest, rest.isEmpty, false⟩)) ∨
    (FractionFailure T g.num g.den text (read T ⟨text, false, false⟩ g).1.num
        (read T ⟨text, false, false⟩ g).1.den ∧
      (read T ⟨text, false, false⟩ g).2.fail = true) := by
  rcases getInt_cases T text g.num with ⟨n, t, hn, ha, e⟩ | ⟨hn, hf⟩
  · rcases ignore_cases (rest := t) with ⟨junk, u, rfl, hj, ei⟩ | ⟨hs, he⟩
    · rcases getInt_cases T u g.den with ⟨d, rest, hd, hda, e'⟩ | ⟨hd, hf⟩
      · left
        refine ⟨n, d, rest, isFraction_iff.2 ⟨junk, u, hn, hj, hd⟩, ha, hda, ?_⟩
        simp only [read, e, ei, e']
      · right
        simp only [read, e, ei]
        exact ⟨.denominator hn ha hj hd, hf⟩
    · right
      simp only [read, e]
      generalize ignore ⟨t, t.isEmpty, false⟩ '/' = s at he
      have : getInt T s g.den = (g.den, { s with fail := true }) := by simp [getInt, he]
      rw [this]
      exact ⟨.slash hn ha hs, rfl⟩
  · right
    simp only [read]
    generalize getInt T ⟨text, false, false⟩ g.num = r at hn hf
    have e1 : ignore r.2 '/' = { r.2 with fail := true } := by simp [ignore, hf]
    rw [e1]
    have : getInt T { r.2 with fail := true } g.den = (g.den, { r.2 with fail := true }) := by
      simp [getInt]
    rw [this]
    exact ⟨.numerator hn, rfl⟩

theorem read_isFraction {n d : ℤ} {g : Raw} (h : IsFraction text n d rest) (hn : Accepted T n)
    (hd : Accepted T d) :
    read T ⟨text, false, false⟩ g =
      (⟨received T n, received T d⟩, ⟨rest, rest.isEmpty, false⟩) := by
  obtain ⟨junk, t, h1, h2, h3⟩ := isFraction_iff.1 h
  have e1 := getInt_leading (T := T) (old := g.num) h1
  have e2 : ignore ⟨junk ++ '/' :: t, (junk ++ '/' :: t).isEmpty, false⟩ '/' = ⟨t, false, false⟩ :=
    ignore_slash h2 (by cases junk <;> rfl)
  simp only [hn, decide_true, Bool.not_true] at e1
  simp only [read, e1, e2, getInt_leading (T := T) (old := g.den) h3, hd, decide_true,
    Bool.not_true]

theorem getInt_failure (h : IntFailure T old text v) :
    (getInt T ⟨text, false, false⟩ old).1 = v ∧
    (getInt T ⟨text, false, false⟩ old).2.fail = true := by
  rcases h with h | ⟨h1, h2⟩ | ⟨h1, h2⟩
  · simp only [getInt, Bool.or_self, spaces_iff.1 h, List.isEmpty_nil, if_true]
    exact ⟨rfl, rfl⟩
  · rcases getInt_cases T text old with ⟨n, rest, h, -, -⟩ | ⟨hg, hf⟩
    · exact absurd h (h2 n rest)
    · refine ⟨?_, hf⟩
      generalize (getInt T ⟨text, false, false⟩ old).1 = u at hg
      rcases hg with h | ⟨-, -⟩ | ⟨h, -⟩
      · exact absurd h h1
      · rfl
      · exact absurd h (h2 _ _)
  · rw [getInt_leading h1]
    exact ⟨rfl, by simp [h2]⟩

theorem read_failure {n d : ℤ} {g : Raw} (h : FractionFailure T g.num g.den text n d) :
    (read T ⟨text, false, false⟩ g).1 = ⟨n, d⟩ ∧ (read T ⟨text, false, false⟩ g).2.fail = true := by
  rcases h with h | ⟨h1, h2, h3⟩ | ⟨h1, h2, h3, h4⟩
  · obtain ⟨h1, h2⟩ := getInt_failure h
    simp only [read]
    generalize getInt T ⟨text, false, false⟩ g.num = r at h1 h2
    have e1 : ignore r.2 '/' = { r.2 with fail := true } := by simp [ignore, h2]
    have e2 : getInt T { r.2 with fail := true } g.den = (g.den, { r.2 with fail := true }) := by
      simp [getInt]
    rw [e1, e2]
    exact ⟨by rw [h1], rfl⟩
  · have e1 := getInt_leading (T := T) (old := g.num) h1
    simp only [h2, decide_true, Bool.not_true] at e1
    simp only [read, e1]
    rcases ignore_cases (rest := ‹List Char›) with ⟨junk, u, rfl, -, -⟩ | ⟨-, he⟩
    · simp at h3
    · generalize ignore ⟨_, _, false⟩ '/' = s at he
      have : getInt T s g.den = (g.den, { s with fail := true }) := by simp [getInt, he]
      rw [this]
      exact ⟨rfl, rfl⟩
  · rename_i n' junk rest'
    have e1 := getInt_leading (T := T) (old := g.num) h1
    simp only [h2, decide_true, Bool.not_true] at e1
    have e2 : ignore ⟨junk ++ '/' :: rest', (junk ++ '/' :: rest').isEmpty, false⟩ '/' =
        ⟨rest', false, false⟩ := ignore_slash h3 (by cases junk <;> rfl)
    obtain ⟨h5, h6⟩ := getInt_failure h4
    simp only [read, e1, e2]
    exact ⟨by rw [h5], h6⟩

end Ieme.Stream
