import Verif.Spec.Stream
import Verif.Model.Stream
import Verif.Lemmas.Machine
import Mathlib.Tactic.IntervalCases

/-!
# Lemmas about stream input and output
-/

namespace Ieme.Stream

open IntTy

variable {T : IntTy} {c : Char} {ds : List Char} {n d : ℤ}

theorem space_not_digit (h : isDigit c = true) : isSpace c = false := by
  simp only [isDigit, isSpace, decide_eq_true_eq, decide_eq_false_iff_not] at *
  rintro (rfl | h')
  · revert h; decide
  · omega

/-! ## The characters of the specification and those of the model -/

theorem char_of_toNat {k : ℕ} (h : c.toNat = k) : c = Char.ofNat k := by
  rw [← h, Char.ofNat_toNat]

theorem mem_whitespace : c ∈ whitespace ↔ isSpace c = true := by
  constructor
  · intro h
    simp only [whitespace, List.mem_cons, List.not_mem_nil, or_false] at h
    rcases h with rfl | rfl | rfl | rfl | rfl | rfl <;> decide
  · intro h
    simp only [isSpace, decide_eq_true_eq] at h
    rcases h with rfl | ⟨h1, h2⟩
    · decide
    · generalize hk : c.toNat = k at h1 h2
      rw [char_of_toNat hk]
      interval_cases k <;> decide

theorem mem_decDigits : c ∈ Lit.decDigits ↔ isDigit c = true := by
  constructor
  · intro h
    simp only [Lit.decDigits, List.mem_cons, List.not_mem_nil, or_false] at h
    rcases h with rfl | rfl | rfl | rfl | rfl | rfl | rfl | rfl | rfl | rfl <;> decide
  · intro h
    simp only [isDigit, decide_eq_true_eq] at h
    obtain ⟨h1, h2⟩ := h
    generalize hk : c.toNat = k at h1 h2
    rw [char_of_toNat hk]
    interval_cases k <;> decide

theorem not_mem_decDigits : c ∉ Lit.decDigits ↔ isDigit c = false := by
  rw [mem_decDigits, Bool.not_eq_true]

theorem digitValue_eq (h : isDigit c = true) :
    Lit.digitValue c = c.toNat - 48 ∧ c ≠ '\'' := by
  simp only [isDigit, decide_eq_true_eq] at h
  obtain ⟨h1, h2⟩ := h
  generalize hk : c.toNat = k at h1 h2
  rw [char_of_toNat hk]
  interval_cases k <;> decide

theorem decimal_eq (h : ∀ c ∈ ds, isDigit c = true) : decimal ds = Lit.seqValue 10 ds := by
  unfold decimal Lit.seqValue Lit.digits
  rw [List.filter_eq_self.2 fun c hc => by simpa using (digitValue_eq (h c hc)).2]
  generalize 0 = v
  induction ds generalizing v with
  | nil => rfl
  | cons c ds ih =>
    rw [List.foldl_cons, List.foldl_cons, (digitValue_eq (h c (by simp))).1,
      Nat.mul_comm v 10]
    exact ih (fun c hc => h c (by simp [hc])) _

theorem Spaces.isSpace {w : List Char} (h : Spaces w) : ∀ c ∈ w, isSpace c = true :=
  fun c hc => mem_whitespace.1 (h c hc)

theorem NoDigitFirst.isDigit {l : List Char} (h : NoDigitFirst l) :
    ∀ c t, l = c :: t → isDigit c = false :=
  fun c t e => not_mem_decDigits.1 (h c t e)

theorem sign_not_space : isSpace '-' = false ∧ isSpace '+' = false := by decide

theorem sign_not_digit : isDigit '-' = false ∧ isDigit '+' = false ∧ isDigit '/' = false := by
  decide

theorem dropWhile_append_of {p : Char → Bool} {a b : List Char} (ha : ∀ c ∈ a, p c = true)
    (hb : ∀ c t, b = c :: t → p c = false) : (a ++ b).dropWhile p = b := by
  induction a with
  | nil =>
    cases b with
    | nil => rfl
    | cons c t => simp [hb c t rfl]
  | cons c a ih =>
    simp only [List.cons_append, List.dropWhile_cons, ha c (by simp), if_true]
    exact ih fun x hx => ha x (by simp [hx])

theorem takeWhile_append_of {p : Char → Bool} {a b : List Char} (ha : ∀ c ∈ a, p c = true)
    (hb : ∀ c t, b = c :: t → p c = false) : (a ++ b).takeWhile p = a := by
  induction a with
  | nil =>
    cases b with
    | nil => rfl
    | cons c t => simp [hb c t rfl]
  | cons c a ih =>
    simp only [List.cons_append, List.takeWhile_cons, ha c (by simp), if_true]
    rw [ih fun x hx => ha x (by simp [hx])]

/-- Where a `dropWhile` stops. -/
theorem dropWhile_head {p : Char → Bool} {l : List Char} (c : Char) (t : List Char)
    (h : l.dropWhile p = c :: t) : p c = false := by
  induction l with
  | nil => cases h
  | cons a l ih =>
    rw [List.dropWhile_cons] at h
    split at h
    · exact ih h
    · rename_i hp
      obtain ⟨rfl, -⟩ := List.cons.inj h
      simpa using hp

theorem takeWhile_all {p : Char → Bool} {l : List Char} : ∀ c ∈ l.takeWhile p, p c = true := by
  induction l with
  | nil => simp
  | cons a l ih =>
    rw [List.takeWhile_cons]
    split
    · intro c hc
      rcases List.mem_cons.1 hc with rfl | hc
      · assumption
      · exact ih c hc
    · simp

/-! ## Reading -/

/-- The sign and the digits of a numeral. -/
theorem Numeral.split {a : List Char} (h : Numeral a n) : ∃ neg ds, ds ≠ [] ∧
    (∀ c ∈ ds, isDigit c = true) ∧ (∀ t, splitSign (a ++ t) = (neg, ds ++ t)) ∧
    n = (if neg then -(decimal ds : ℤ) else decimal ds) ∧
    (∀ c t, a = c :: t → isSpace c = false) ∧ a ≠ [] ∧ (neg = true → '-' ∈ a) := by
  have key : ∀ {ds : List Char}, (∀ c ∈ ds, c ∈ Lit.decDigits) → ∀ c ∈ ds, isDigit c = true :=
    fun h c hc => mem_decDigits.1 (h c hc)
  cases h with
  | bare h0 h1 =>
    replace h1 := key h1
    rw [← decimal_eq h1]
    refine ⟨false, a, h0, h1, fun t => ?_, rfl, fun c t e => ?_, h0, by simp⟩
    · cases a with
      | nil => exact absurd rfl h0
      | cons c l =>
        have hc := h1 c (by simp)
        rw [List.cons_append, splitSign.eq_def]
        split
        · rename_i e
          obtain ⟨rfl, -⟩ := List.cons.inj e
          exact absurd hc (by decide)
        · rename_i e
          obtain ⟨rfl, -⟩ := List.cons.inj e
          exact absurd hc (by decide)
        · rfl
    · exact space_not_digit (h1 c (by simp [e]))
  | plus h0 h1 =>
    replace h1 := key h1
    rw [← decimal_eq h1]
    refine ⟨false, _, h0, h1, fun t => rfl, rfl, fun c t e => ?_, by simp, by simp⟩
    obtain ⟨rfl, -⟩ := List.cons.inj e
    decide
  | minus h0 h1 =>
    replace h1 := key h1
    rw [← decimal_eq h1]
    refine ⟨true, _, h0, h1, fun t => rfl, rfl, fun c t e => ?_, by simp, by simp⟩
    obtain ⟨rfl, -⟩ := List.cons.inj e
    decide

theorem splitSign_spec (r : List Char) : (∃ t, r = '-' :: t ∧ splitSign r = (true, t)) ∨
    (∃ t, r = '+' :: t ∧ splitSign r = (false, t)) ∨ splitSign r = (false, r) := by
  rw [splitSign.eq_def]
  split
  · exact .inl ⟨_, rfl, rfl⟩
  · exact .inr (.inl ⟨_, rfl, rfl⟩)
  · exact .inr (.inr rfl)

/-- What is stored, when the number is accepted. -/
theorem store_ok (neg : Bool) (m : ℕ) (hu : T.signed = true ∨ neg = false)
    (h : (store T neg m).2 = false) :
    (store T neg m).1 = (if neg then -(m : ℤ) else m) ∧
      T.InRange (if neg then -(m : ℤ) else m) := by
  by_cases hs : T.signed = true
  · simp only [store, if_pos hs] at h ⊢
    generalize (if neg then -(m : ℤ) else m) = v at *
    by_cases h1 : v < T.min
    · rw [if_pos h1] at h; cases h
    by_cases h2 : T.max < v
    · rw [if_neg h1, if_pos h2] at h; cases h
    rw [if_neg h1, if_neg h2]
    exact ⟨rfl, by omega, by omega⟩
  · simp only [store, if_neg hs] at h ⊢
    by_cases h1 : T.max < (m : ℤ)
    · rw [if_pos h1] at h; cases h
    rw [if_neg h1]
    obtain rfl := hu.resolve_left hs
    have hr : T.InRange (m : ℤ) := by
      have := T.min_le_zero
      constructor <;> omega
    exact ⟨wrap_of_inRange hr, hr⟩

theorem store_inRange (neg : Bool) (m : ℕ)
    (h : T.InRange (if neg then -(m : ℤ) else m)) :
    store T neg m = ((if neg then -(m : ℤ) else m), false) := by
  obtain ⟨h1, h2⟩ := id h
  simp only [store]
  split
  · rw [if_neg (by omega), if_neg (by omega)]
  · rename_i hs
    have h0 : T.min = 0 := by rw [IntTy.min, if_neg hs]
    have hm : ¬ T.max < (m : ℤ) := by
      have := T.max_ge
      cases neg
      · simpa using h2
      · simp only [if_true] at h1; omega
    rw [if_neg hm, wrap_of_inRange h]

/-- Reading a numeral that fits. -/
theorem getInt_numeral {w a rest : List Char} {old : ℤ} (hw : Spaces w) (ha : Numeral a n)
    (hr : NoDigitFirst rest) (hn : T.InRange n) :
    getInt T ⟨w ++ (a ++ rest), false, false⟩ old = (n, ⟨rest, rest.isEmpty, false⟩) := by
  obtain ⟨neg, ds, h1, h2, h3, h4, h5, h6, -⟩ := ha.split
  have hd : (w ++ (a ++ rest)).dropWhile isSpace = a ++ rest := by
    refine dropWhile_append_of hw.isSpace fun c t e => ?_
    cases a with
    | nil => exact absurd rfl h6
    | cons x l =>
      obtain ⟨rfl, -⟩ := List.cons.inj e
      exact h5 x l rfl
  have he : (a ++ rest).isEmpty = false := by
    cases a with
    | nil => exact absurd rfl h6
    | cons x l => rfl
  have hds : ds.isEmpty = false := by
    cases ds with
    | nil => exact absurd rfl h1
    | cons x l => rfl
  simp only [getInt, Bool.or_self, hd, he, h3, takeWhile_append_of h2 hr.isDigit,
    dropWhile_append_of h2 hr.isDigit, hds]
  subst h4
  rw [store_inRange neg _ hn]
  rfl

/-- A successful reading has read a numeral that fits. -/
theorem getInt_ok {s s' : IStream} {old v : ℤ} (h : getInt T s old = (v, s'))
    (hf : s'.fail = false) (hu : T.signed = true ∨ '-' ∉ s.rest) :
    s.eof = false ∧ s.fail = false ∧ ∃ w a, s.rest = w ++ (a ++ s'.rest) ∧ Spaces w ∧
      Numeral a v ∧ NoDigitFirst s'.rest ∧ T.InRange v ∧ s'.eof = s'.rest.isEmpty := by
  unfold getInt at h
  split at h
  · obtain ⟨-, rfl⟩ := Prod.mk.inj h
    cases hf
  rename_i hs
  have hs' : s.eof = false ∧ s.fail = false := by
    cases h1 : s.eof <;> cases h2 : s.fail <;> simp_all
  refine ⟨hs'.1, hs'.2, ?_⟩
  simp only at h
  split at h
  · obtain ⟨-, rfl⟩ := Prod.mk.inj h
    cases hf
  split at h
  · obtain ⟨-, rfl⟩ := Prod.mk.inj h
    cases hf
  rename_i h1 h2
  obtain ⟨hv, rfl⟩ := Prod.mk.inj h
  simp only at hf ⊢
  generalize hr : s.rest.dropWhile isSpace = r at *
  have e1 : s.rest = s.rest.takeWhile isSpace ++ r := by
    rw [← hr, List.takeWhile_append_dropWhile]
  have e2 : (splitSign r).2 = (splitSign r).2.takeWhile isDigit ++ (splitSign r).2.dropWhile isDigit :=
    List.takeWhile_append_dropWhile.symm
  have h2' : (splitSign r).2.takeWhile isDigit ≠ [] := by simpa using h2
  have hneg : (splitSign r).1 = true → '-' ∈ s.rest := by
    intro hn
    rcases splitSign_spec r with ⟨t, e, e'⟩ | ⟨t, e, e'⟩ | e'
    · rw [e1, e]; simp
    · rw [e'] at hn; cases hn
    · rw [e'] at hn; cases hn
  have hu' : T.signed = true ∨ (splitSign r).1 = false := by
    rcases hu with h | h
    · exact .inl h
    · right
      by_contra hc
      exact h (hneg (by simpa using hc))
  obtain ⟨k1, k2⟩ := store_ok _ _ hu' hf
  rw [k1] at hv
  rw [hv] at k2
  refine ⟨s.rest.takeWhile isSpace, ?_⟩
  have hnd : NoDigitFirst ((splitSign r).2.dropWhile isDigit) := fun c t e =>
    not_mem_decDigits.2 (dropWhile_head c t e)
  have hsp : Spaces (s.rest.takeWhile isSpace) := fun c hc => mem_whitespace.2 (takeWhile_all c hc)
  have hdg : ∀ {l : List Char}, ∀ c ∈ l.takeWhile isDigit, c ∈ Lit.decDigits :=
    fun c hc => mem_decDigits.2 (takeWhile_all c hc)
  rcases splitSign_spec r with ⟨t, e, e'⟩ | ⟨t, e, e'⟩ | e'
  · refine ⟨'-' :: (splitSign r).2.takeWhile isDigit, ?_, hsp, ?_, hnd, k2, trivial⟩
    · rw [List.cons_append, ← e2]
      conv_lhs => rw [e1, e]
      rw [e']
    · rw [← hv, e', decimal_eq takeWhile_all]
      rw [e'] at h2'
      exact .minus h2' hdg
  · refine ⟨'+' :: (splitSign r).2.takeWhile isDigit, ?_, hsp, ?_, hnd, k2, trivial⟩
    · rw [List.cons_append, ← e2]
      conv_lhs => rw [e1, e]
      rw [e']
    · rw [← hv, e', decimal_eq takeWhile_all]
      rw [e'] at h2'
      exact .plus h2' hdg
  · refine ⟨(splitSign r).2.takeWhile isDigit, ?_, hsp, ?_, hnd, k2, trivial⟩
    · rw [← e2]
      conv_lhs => rw [e1]
      rw [e']
    · rw [← hv, e', decimal_eq takeWhile_all]
      rw [e'] at h2'
      exact .bare h2' hdg

theorem ignore_slash {junk rest : List Char} (h : '/' ∉ junk) {b : Bool} (hb : b = false) :
    ignore ⟨junk ++ '/' :: rest, b, false⟩ '/' = ⟨rest, false, false⟩ := by
  subst hb
  have : (junk ++ '/' :: rest).dropWhile (· ≠ '/') = '/' :: rest := by
    refine dropWhile_append_of (p := (· ≠ '/')) (fun c hc => ?_) fun c t e => ?_
    · have : c ≠ '/' := fun e => h (e ▸ hc)
      simpa using this
    · obtain ⟨rfl, -⟩ := List.cons.inj e
      decide
  simp only [ignore, Bool.or_self, this]
  rfl

theorem ignore_good {s : IStream} (he : (ignore s '/').eof = false)
    (hf : (ignore s '/').fail = false) : s.eof = false ∧ s.fail = false ∧
      ∃ junk, s.rest = junk ++ '/' :: (ignore s '/').rest ∧ '/' ∉ junk := by
  unfold ignore at he hf ⊢
  split at hf
  · cases hf
  rename_i hs
  rw [if_neg hs] at he ⊢
  have hs' : s.eof = false ∧ s.fail = false := by
    cases h1 : s.eof <;> cases h2 : s.fail <;> simp_all
  refine ⟨hs'.1, hs'.2, s.rest.takeWhile (· ≠ '/'), ?_, fun h => ?_⟩
  · split at he
    · cases he
    rename_i c t e
    have hc := dropWhile_head _ _ e
    have hc' : c = '/' := by simpa using hc
    subst hc'
    rw [← e]
    exact List.takeWhile_append_dropWhile.symm
  · have := takeWhile_all _ h
    simp at this

/-! ## Writing -/

theorem ofNat_digit {k : ℕ} (h : k < 10) :
    isDigit (Char.ofNat (48 + k)) = true ∧ (Char.ofNat (48 + k)).toNat - 48 = k := by
  interval_cases k <;> decide

theorem decimal_append (a : List Char) (c : Char) :
    decimal (a ++ [c]) = 10 * decimal a + (c.toNat - 48) := by
  simp [decimal, List.foldl_append]

theorem digits_spec (n : ℕ) : digits n ≠ [] ∧ (∀ c ∈ digits n, isDigit c = true) ∧
    decimal (digits n) = n := by
  induction n using Nat.strong_induction_on with
  | _ n ih =>
    rw [digits]
    split
    · rename_i h
      obtain ⟨h1, h2⟩ := ofNat_digit h
      refine ⟨by simp, fun c hc => ?_, ?_⟩
      · rw [List.mem_singleton.1 hc]; exact h1
      · show 10 * 0 + _ = n
        rw [h2]; omega
    · rename_i h
      obtain ⟨i1, i2, i3⟩ := ih (n / 10) (by omega)
      obtain ⟨h1, h2⟩ := ofNat_digit (k := n % 10) (by omega)
      refine ⟨by simp, fun c hc => ?_, ?_⟩
      · rcases List.mem_append.1 hc with h' | h'
        · exact i2 c h'
        · rw [List.mem_singleton.1 h']; exact h1
      · rw [decimal_append, i3, h2]; omega

theorem showInt_numeral (v : ℤ) : Numeral (showInt v) v := by
  obtain ⟨h1, h2, h3⟩ := digits_spec v.natAbs
  have h2' : ∀ c ∈ digits v.natAbs, c ∈ Lit.decDigits := fun c hc => mem_decDigits.2 (h2 c hc)
  rw [decimal_eq h2] at h3
  unfold showInt
  split
  · have := Numeral.minus h1 h2'
    rw [h3] at this
    rwa [show -(v.natAbs : ℤ) = v by omega] at this
  · have := Numeral.bare h1 h2'
    rw [h3] at this
    rwa [show (v.natAbs : ℤ) = v by omega] at this

/-- What is stored is a value of the type. -/
theorem stored_inRange (neg : Bool) (m : ℕ) : T.InRange (store T neg m).1 := by
  have h1 := T.min_le_zero
  have h2 := T.max_ge
  unfold store
  dsimp only
  split
  · generalize (if neg = true then -(m : ℤ) else m) = v
    unfold IntTy.InRange
    split
    · exact ⟨le_refl _, by omega⟩
    · split
      · exact ⟨by omega, le_refl _⟩
      · constructor <;> omega
  · split
    · exact ⟨by omega, le_refl _⟩
    · exact T.wrap_inRange _

theorem getInt_inRange {s : IStream} {old : ℤ} (h : T.InRange old) :
    T.InRange (getInt T s old).1 := by
  have h0 : T.InRange 0 := by
    have h1 := T.min_le_zero
    have h2 := T.max_ge
    constructor <;> omega
  unfold getInt
  split
  · exact h
  · dsimp only
    split
    · exact h
    · split
      · exact h0
      · exact stored_inRange _ _

end Ieme.Stream
