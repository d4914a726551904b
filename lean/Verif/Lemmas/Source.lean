import Verif.Spec.Source
import Verif.Lemmas.Parse

/-!
# Lemmas about program text
-/

namespace Ieme.Source

open Overload Lit

/-! ### Literals -/

theorem DigitSeq.cons {D s : List Char} {d : Char} (hd : d ∈ D) (h : DigitSeq D s) :
    DigitSeq D (d :: s) ∧ DigitSeq D (d :: '\'' :: s) := by
  induction h with
  | digit h => exact ⟨.snoc (.digit hd) h, .sep (.digit hd) h⟩
  | snoc _ h ih => exact ⟨.snoc ih.1 h, .snoc ih.2 h⟩
  | sep _ h ih => exact ⟨.sep ih.1 h, .sep ih.2 h⟩

theorem digitSeq_append {ok : Char → Bool} {s : List Char} {d : Char} (h : digitSeq ok s = true)
    (hd : ok d = true) : digitSeq ok (s ++ [d]) = true ∧ digitSeq ok (s ++ ['\'', d]) = true := by
  induction s using digitSeq.induct with
  | case1 => cases h
  | case2 c => simp_all [digitSeq]
  | case3 c e t ih1 ih2 =>
    simp only [digitSeq, Bool.and_eq_true, Bool.or_eq_true, List.cons_append] at h ⊢
    rcases h with ⟨h0, h1 | ⟨h1, h2⟩⟩
    · exact ⟨⟨h0, .inl (ih1 h1).1⟩, ⟨h0, .inl (ih1 h1).2⟩⟩
    · exact ⟨⟨h0, .inr ⟨h1, (ih2 h2).1⟩⟩, ⟨h0, .inr ⟨h1, (ih2 h2).2⟩⟩⟩

theorem digitSeq_iff {ok : Char → Bool} {D s : List Char} (hD : ∀ c, ok c = true ↔ c ∈ D) :
    digitSeq ok s = true ↔ DigitSeq D s := by
  constructor
  · intro h
    induction s using digitSeq.induct with
    | case1 => cases h
    | case2 c => exact .digit ((hD c).1 h)
    | case3 c e t ih1 ih2 =>
      simp only [digitSeq, Bool.and_eq_true, Bool.or_eq_true, decide_eq_true_eq] at h
      rcases h with ⟨h0, h1 | ⟨rfl, h2⟩⟩
      · exact (DigitSeq.cons ((hD c).1 h0) (ih1 h1)).1
      · exact (DigitSeq.cons ((hD c).1 h0) (ih2 h2)).2
  · intro h
    induction h with
    | digit h => exact (hD _).2 h
    | snoc _ h ih => exact (digitSeq_append ih ((hD _).2 h)).1
    | sep _ h ih => exact (digitSeq_append ih ((hD _).2 h)).2

theorem isDigit_iff (c : Char) : isDigit c = true ↔ c ∈ decDigits := by
  simp only [isDigit, Bool.and_eq_true, decide_eq_true_eq, mem_decDigits, char_le_iff,
    Char.reduceToNat]

theorem isHex_iff (c : Char) : isHex c = true ↔ c ∈ hexDigits := by
  rw [mem_hexDigits, ← mem_decDigits, ← isDigit_iff]
  simp only [isHex, Bool.or_eq_true, Bool.and_eq_true, decide_eq_true_eq, char_le_iff,
    Char.reduceToNat, or_assoc]

theorem isOct_iff (c : Char) : isOct c = true ↔ c ∈ octDigits := by
  simp only [isOct, octDigits, Bool.and_eq_true, decide_eq_true_eq, char_le_iff,
    List.mem_cons, List.not_mem_nil, or_false, char_eq_iff]
  simp only [Char.reduceToNat]
  omega

theorem isBin_iff (c : Char) : isBin c = true ↔ c ∈ ['0', '1'] := by
  simp [isBin]

theorem digit_eq {c : Char} (h : c ∈ hexDigits) : digit c = digitValue c ∧ c ≠ '\'' := by
  simp only [hexDigits, decDigits, List.cons_append, List.nil_append, List.mem_cons,
    List.not_mem_nil, or_false] at h
  rcases h with rfl | rfl | rfl | rfl | rfl | rfl | rfl | rfl | rfl | rfl | rfl | rfl | rfl | rfl |
    rfl | rfl | rfl | rfl | rfl | rfl | rfl | rfl <;> decide

theorem number_eq {D s : List Char} {b : ℕ} (hD : ∀ c ∈ D, c ∈ hexDigits) (h : DigitSeq D s) :
    number b s = seqValue b s := by
  have key : ∀ (l : List Char) (v : ℕ), (∀ c ∈ l, c ∈ hexDigits ∨ c = '\'') →
      l.foldl (fun v c => if c = '\'' then v else v * b + digit c) v =
        (digits l).foldl (fun v d => v * b + digitValue d) v := by
    intro l
    induction l with
    | nil => intro v _; rfl
    | cons c l ih =>
      intro v hl
      rcases hl c (by simp) with hc | rfl
      · obtain ⟨h1, h2⟩ := digit_eq hc
        have e : digits (c :: l) = c :: digits l := by simp [digits, h2]
        rw [e, List.foldl_cons, List.foldl_cons, if_neg h2, h1]
        exact ih _ fun d hd => hl d (by simp [hd])
      · have e : digits ('\'' :: l) = digits l := by simp [digits]
        rw [e, List.foldl_cons, if_pos rfl]
        exact ih _ fun d hd => hl d (by simp [hd])
  exact key s 0 fun c hc => (Parse.digitSeq_mem h c hc).imp_left (hD c)

theorem intValue_iff {s : List Char} {n : ℕ} {d : Bool} :
    intValue s = some (n, d) ↔ IntLit s n d := by
  have hdec : ∀ c ∈ decDigits, c ∈ hexDigits := by decide
  have hoct : ∀ c ∈ octDigits, c ∈ hexDigits := by decide
  have hbin : ∀ c ∈ ['0', '1'], c ∈ hexDigits := by decide
  constructor
  · intro h
    unfold intValue at h
    split at h
    · split at h
      · rename_i hd
        have hd := (digitSeq_iff isHex_iff).1 hd
        cases h
        rw [number_eq (fun _ h => h) hd]
        exact .hex (by simp) hd
      · cases h
    · split at h
      · rename_i hd
        have hd := (digitSeq_iff isHex_iff).1 hd
        cases h
        rw [number_eq (fun _ h => h) hd]
        exact .hex (by simp) hd
      · cases h
    · split at h
      · rename_i hd
        have hd := (digitSeq_iff isBin_iff).1 hd
        cases h
        rw [number_eq hbin hd]
        exact .bin (by simp) hd
      · cases h
    · split at h
      · rename_i hd
        have hd := (digitSeq_iff isBin_iff).1 hd
        cases h
        rw [number_eq hbin hd]
        exact .bin (by simp) hd
      · cases h
    · split at h
      · rename_i hd
        have hd := (digitSeq_iff isOct_iff).1 hd
        cases h
        rw [number_eq hoct hd]
        exact .oct hd rfl
      · cases h
    · rename_i h0
      split at h
      · rename_i hd
        have hd := (digitSeq_iff isDigit_iff).1 hd
        cases h
        rw [number_eq hdec hd]
        refine .dec hd fun hc => ?_
        cases s with
        | nil => cases hc
        | cons c t =>
          obtain rfl := Option.some.inj hc
          exact h0 t rfl
      · cases h
  · intro h
    cases h with
    | dec hd h0 =>
      have := (digitSeq_iff isDigit_iff).2 hd
      rw [← number_eq hdec hd]
      unfold intValue
      split
      any_goals simp at h0
      rw [if_pos this]
    | oct hd h0 =>
      have h1 := (digitSeq_iff isOct_iff).2 hd
      rw [← number_eq hoct hd]
      have hm := Parse.digitSeq_mem hd
      unfold intValue
      split
      · exact absurd (hm 'x' (by simp)) (by decide)
      · exact absurd (hm 'X' (by simp)) (by decide)
      · exact absurd (hm 'b' (by simp)) (by decide)
      · exact absurd (hm 'B' (by simp)) (by decide)
      · rw [if_pos h1]
      · rename_i h2
        cases s with
        | nil => cases h0
        | cons c t =>
          obtain rfl := Option.some.inj h0
          exact absurd rfl (h2 t)
    | hex hc hd =>
      have h1 := (digitSeq_iff isHex_iff).2 hd
      rw [← number_eq (fun _ h => h) hd]
      simp only [List.mem_cons, List.not_mem_nil, or_false] at hc
      rcases hc with rfl | rfl <;> simp [intValue, h1]
    | bin hc hd =>
      have h1 := (digitSeq_iff isBin_iff).2 hd
      rw [← number_eq hbin hd]
      simp only [List.mem_cons, List.not_mem_nil, or_false] at hc
      rcases hc with rfl | rfl <;> simp [intValue, h1]

theorem intType_iff {n : ℕ} {d u l : Bool} {T : IntTy} : intType n d u l = some T ↔
    (suffixTypes d u l).find? (fun T => decide (T.InRange n)) = some T := by
  have hr : ∀ T : IntTy, T.min ≤ 0 → (decide (T.InRange n) = decide ((n : ℤ) ≤ T.max)) := by
    intro T h
    rw [decide_eq_decide]
    exact ⟨fun h => h.2, fun h' => ⟨by omega, h'⟩⟩
  have r1 := hr i32 (by decide)
  have r2 := hr u32 (by decide)
  have r3 := hr i64 (by decide)
  have r4 := hr u64 (by decide)
  by_cases h1 : (n : ℤ) ≤ i32.max <;> by_cases h2 : (n : ℤ) ≤ u32.max <;>
    by_cases h3 : (n : ℤ) ≤ i64.max <;> by_cases h4 : (n : ℤ) ≤ u64.max <;> cases d <;> cases u <;>
    cases l <;>
    simp [intType, suffixTypes, literalTypes, List.find?, r1, r2, r3, r4, h1, h2, h3, h4]

theorem isU_iff {c : Char} : isU c = true ↔ [c] ∈ unsignedSuffixes := by
  simp [isU, unsignedSuffixes]

theorem isL_iff {c : Char} : isL c = true ↔ c = 'l' ∨ c = 'L' := by
  simp [isL]

theorem longPart_iff {s : List Char} {b : Bool} :
    longPart s = some b ↔ (s = [] ∧ b = false) ∨ (s ∈ longSuffixes ∧ b = true) := by
  match s with
  | [] => cases b <;> decide
  | [a] =>
    by_cases h : isL a
    · simp only [longPart, h, if_true]
      rw [isL_iff] at h
      rcases h with rfl | rfl <;> cases b <;> decide
    · simp only [longPart, h]
      rw [isL_iff] at h
      simp only [longSuffixes]
      have h1 : a ≠ 'l' := fun e => h (.inl e)
      have h2 : a ≠ 'L' := fun e => h (.inr e)
      simp [h1, h2]
  | [a, c] =>
    by_cases h : isL a
    · by_cases hc : a = c
      · subst hc
        simp only [longPart, h]
        rw [isL_iff] at h
        rcases h with rfl | rfl <;> cases b <;> decide
      · simp only [longPart, h, hc]
        simp [longSuffixes]
        rintro (⟨rfl, rfl⟩ | ⟨rfl, rfl⟩) <;> simp at hc
    · simp only [longPart, h]
      rw [isL_iff] at h
      have h1 : a ≠ 'l' := fun e => h (.inl e)
      have h2 : a ≠ 'L' := fun e => h (.inr e)
      simp [longSuffixes, h1, h2]
  | a :: c :: e :: t => simp [longPart, longSuffixes]

theorem suffix_iff {s : List Char} {u l : Bool} :
    suffix s = some (u, l) ↔ (s = [] ∧ u = false ∧ l = false) ∨ IntSuffix s u l := by
  have hl : ∀ b ∈ longSuffixes, b ≠ [] ∧ ∀ c ∈ b, isU c = false := by decide
  have hu : ∀ a ∈ unsignedSuffixes, ∃ c, a = [c] ∧ isU c = true := by
    intro a ha
    simp only [unsignedSuffixes, List.mem_cons, List.not_mem_nil, or_false] at ha
    rcases ha with rfl | rfl <;> exact ⟨_, rfl, by decide⟩
  constructor
  · intro h
    unfold suffix at h
    split at h
    · cases h; exact .inl ⟨rfl, rfl, rfl⟩
    · rename_i c t
      right
      split at h
      · rename_i hc
        obtain ⟨b, h1, h2⟩ := Option.map_eq_some_iff.1 h
        cases h2
        rcases longPart_iff.1 h1 with ⟨rfl, rfl⟩ | ⟨h2, rfl⟩
        · exact .u (isU_iff.1 hc)
        · exact .ul (a := [c]) (isU_iff.1 hc) h2
      · rename_i hc
        split at h
        · rename_i hd
          obtain ⟨b, h1, h2⟩ := Option.map_eq_some_iff.1 h
          cases h2
          have hne : c :: t ≠ [] := by simp
          rw [List.getLast?_eq_some_getLast hne, Option.getD_some] at hd
          have e := List.dropLast_append_getLast hne
          rcases longPart_iff.1 h1 with ⟨h2, rfl⟩ | ⟨h2, rfl⟩
          · rw [h2] at e
            have e1 := (List.cons.inj e).1
            rw [e1] at hd
            exact absurd hd hc
          · rw [← e]
            exact .lu (isU_iff.1 hd) h2
        · obtain ⟨b, h1, h2⟩ := Option.map_eq_some_iff.1 h
          cases h2
          rcases longPart_iff.1 h1 with ⟨h2, rfl⟩ | ⟨h2, rfl⟩
          · cases h2
          · exact .l h2
  · rintro (⟨rfl, rfl, rfl⟩ | h)
    · rfl
    · cases h with
      | u h =>
        obtain ⟨c, rfl, hc⟩ := hu _ h
        simp [suffix, hc, longPart]
      | ul h h' =>
        obtain ⟨c, rfl, hc⟩ := hu _ h
        simp [suffix, hc, longPart_iff, h']
      | l h =>
        have key : ∀ b ∈ longSuffixes, suffix b = some (false, true) := by decide
        exact key _ h
      | @lu a b h h' =>
        have key : ∀ a ∈ unsignedSuffixes, ∀ b ∈ longSuffixes,
            suffix (b ++ a) = some (true, true) := by decide
        exact key a h b h'

theorem before_append {a b : List Char} : before b (a ++ b) = some a := by
  simp [before]

theorem before_eq_some {a b s : List Char} (h : before b s = some a) : s = a ++ b := by
  unfold before at h
  split at h
  · rename_i hs
    obtain ⟨t, rfl⟩ := hs
    simpa using h
  · cases h

theorem intLit_mem {s : List Char} {n : ℕ} {d : Bool} (h : IntLit s n d) : '_' ∉ s := by
  have key : ∀ {D t : List Char}, '_' ∉ D → DigitSeq D t → '_' ∉ t := fun hD h hc => by
    rcases Parse.digitSeq_mem h _ hc with h | h
    · exact hD h
    · cases h
  cases h with
  | dec h _ => exact key (by decide) h
  | oct h _ => exact key (by decide) h
  | hex hc h =>
    simp only [List.mem_cons, List.not_mem_nil, or_false] at hc
    rcases hc with rfl | rfl <;> simpa using key (by decide) h
  | bin hc h =>
    simp only [List.mem_cons, List.not_mem_nil, or_false] at hc
    rcases hc with rfl | rfl <;> simpa using key (by decide) h

theorem before_eq_none {b s : List Char} : before b s = none ↔ ¬ b <:+ s := by
  unfold before
  split <;> simp_all

theorem digitSeq_last {D t : List Char} (h : DigitSeq D t) : ∃ p c, t = p ++ [c] ∧ c ∈ D := by
  cases h with
  | digit h => exact ⟨[], _, rfl, h⟩
  | snoc _ h => exact ⟨_, _, rfl, h⟩
  | @sep s d _ h => exact ⟨s ++ ['\''], d, by simp, h⟩

theorem intLit_last {s : List Char} {n : ℕ} {d : Bool} (h : IntLit s n d) :
    ∃ p c, s = p ++ [c] ∧ (isU c || isL c) = false := by
  cases h with
  | dec h _ =>
    obtain ⟨p, c, e, hc⟩ := digitSeq_last h
    exact ⟨p, c, e, (by decide : ∀ c ∈ decDigits, (isU c || isL c) = false) c hc⟩
  | oct h _ =>
    obtain ⟨p, c, e, hc⟩ := digitSeq_last h
    exact ⟨p, c, e, (by decide : ∀ c ∈ octDigits, (isU c || isL c) = false) c hc⟩
  | @hex x _ _ h =>
    obtain ⟨p, c, e, hc⟩ := digitSeq_last h
    exact ⟨'0' :: x :: p, c, by rw [e]; rfl, (by decide : ∀ c ∈ hexDigits, (isU c || isL c) = false) c hc⟩
  | @bin x _ _ h =>
    obtain ⟨p, c, e, hc⟩ := digitSeq_last h
    exact ⟨'0' :: x :: p, c, by rw [e]; rfl, (by decide : ∀ c ∈ ['0', '1'], (isU c || isL c) = false) c hc⟩

theorem intSuffix_mem {t : List Char} {u l : Bool} (h : IntSuffix t u l) :
    ∀ c ∈ t, (isU c || isL c) = true := by
  have hu : ∀ a ∈ unsignedSuffixes, ∀ c ∈ a, (isU c || isL c) = true := by decide
  have hl : ∀ a ∈ longSuffixes, ∀ c ∈ a, (isU c || isL c) = true := by decide
  cases h with
  | u h => exact hu _ h
  | l h => exact hl _ h
  | ul h h' => exact fun c hc => (List.mem_append.1 hc).elim (hu _ h c) (hl _ h' c)
  | lu h h' => exact fun c hc => (List.mem_append.1 hc).elim (hl _ h' c) (hu _ h c)

theorem splitSuffix_append {s t : List Char} {n : ℕ} {d : Bool} (h : IntLit s n d)
    (ht : ∀ c ∈ t, (isU c || isL c) = true) : splitSuffix (s ++ t) = (s, t) := by
  obtain ⟨p, c, rfl, hc⟩ := intLit_last h
  have hr : ∀ c ∈ t.reverse, (isU c || isL c) = true := fun c hc => ht c (by simpa using hc)
  unfold splitSuffix
  rw [List.reverse_append, List.dropWhile_append_of_pos hr, List.takeWhile_append_of_pos hr,
    List.reverse_append]
  simp [hc]

theorem splitSuffix_eq (s : List Char) : (splitSuffix s).1 ++ (splitSuffix s).2 = s := by
  rw [splitSuffix, ← List.reverse_append, List.takeWhile_append_dropWhile, List.reverse_reverse]

theorem literal_iff {x : List Char} {e : Src} : literal x = some e ↔ IsLiteral x e := by
  have hu : ∀ n : ℕ, u64.InRange n ↔ (n : ℤ) ≤ u64.max := fun n =>
    ⟨fun h => h.2, fun h => ⟨by show (0 : ℤ) ≤ n; omega, h⟩⟩
  have hint : ∀ {s t : List Char} {n : ℕ} {d u l : Bool} {T : IntTy}, IntLit s n d →
      (t = [] ∧ u = false ∧ l = false) ∨ IntSuffix t u l →
      (suffixTypes d u l).find? (fun T => decide (T.InRange n)) = some T →
      literal (s ++ t) = some (.int T n) := by
    intro s t n d u l T h1 h2 h3
    have hm : '_' ∉ s ++ t := by
      rw [List.mem_append, not_or]
      refine ⟨intLit_mem h1, fun hc => ?_⟩
      rcases h2 with ⟨rfl, -, -⟩ | h2
      · cases hc
      · exact absurd (intSuffix_mem h2 _ hc) (by decide)
    have e1 : before "_fr".toList (s ++ t) = none := before_eq_none.2 fun hc =>
      hm (hc.subset (by decide))
    have e2 : before "_dec".toList (s ++ t) = none := before_eq_none.2 fun hc =>
      hm (hc.subset (by decide))
    have e3 : splitSuffix (s ++ t) = (s, t) := splitSuffix_append h1 <| by
      rcases h2 with ⟨rfl, -, -⟩ | h2
      · simp
      · exact intSuffix_mem h2
    unfold literal
    rw [e1, e2]
    simp [intLiteral, e3, intValue_iff.2 h1, suffix_iff.2 h2, intType_iff.2 h3]
  constructor
  · intro h
    unfold literal at h
    split at h
    · rename_i s hs
      rw [before_eq_some hs]
      obtain ⟨⟨n, d⟩, h1, h2⟩ := Option.bind_eq_some_iff.1 h
      split at h2
      · rename_i hn
        cases h2
        exact .fr (intValue_iff.1 h1) ((hu _).2 hn)
      · cases h2
    · split at h
      · rename_i s hs
        rw [before_eq_some hs]
        cases h
        exact .dec
      · obtain ⟨⟨u, l⟩, h0, h⟩ := Option.bind_eq_some_iff.1 h
        obtain ⟨⟨n, d⟩, h1, h2⟩ := Option.bind_eq_some_iff.1 h
        obtain ⟨T, h3, rfl⟩ := Option.map_eq_some_iff.1 h2
        rw [← splitSuffix_eq x]
        rcases suffix_iff.1 h0 with ⟨h4, rfl, rfl⟩ | h4
        · rw [h4, List.append_nil]
          exact .int (intValue_iff.1 h1) (intType_iff.1 h3)
        · exact .suffixed (intValue_iff.1 h1) h4 (intType_iff.1 h3)
  · intro h
    cases h with
    | int h1 h2 =>
      simpa using hint (t := []) h1 (.inl ⟨rfl, rfl, rfl⟩) h2
    | suffixed h1 h2 h3 => exact hint h1 (.inr h2) h3
    | @fr s n d h1 h2 =>
      have e1 : before "_fr".toList (s ++ ['_', 'f', 'r']) = some s := before_append
      unfold literal
      rw [e1]
      simp [intValue_iff.2 h1, (hu _).1 h2]
    | @dec s =>
      have e1 : before "_fr".toList (s ++ ['_', 'd', 'e', 'c']) = none := by
        refine before_eq_none.2 fun ⟨t, ht⟩ => ?_
        have := congrArg List.getLast? ht
        simp at this
      have e2 : before "_dec".toList (s ++ ['_', 'd', 'e', 'c']) = some s := before_append
      unfold literal
      rw [e1, e2]

/-! ### Tokens -/

theorem isIdent_iff (c : Char) : isIdent c = true ↔ c ∈ decDigits ++ nondigits := by
  have : c ∈ nondigits ↔ (97 ≤ c.toNat ∧ c.toNat ≤ 122) ∨ (65 ≤ c.toNat ∧ c.toNat ≤ 90) ∨
      c.toNat = 95 := by
    constructor
    · have key : ∀ c ∈ nondigits, (97 ≤ c.toNat ∧ c.toNat ≤ 122) ∨
          (65 ≤ c.toNat ∧ c.toNat ≤ 90) ∨ c.toNat = 95 := by decide +kernel
      exact key c
    · intro h
      have key : ∀ k < 123, (97 ≤ k ∧ k ≤ 122) ∨ (65 ≤ k ∧ k ≤ 90) ∨ k = 95 →
          Char.ofNat k ∈ nondigits := by decide +kernel
      have := key c.toNat (by omega) h
      rwa [Char.ofNat_toNat] at this
  rw [List.mem_append, this, ← isDigit_iff]
  simp only [isIdent, Bool.or_eq_true, Bool.and_eq_true, decide_eq_true_eq, char_le_iff,
    Char.reduceToNat, or_assoc, char_eq_iff]

theorem isBlank_iff (c : Char) : isBlank c = true ↔ c ∈ blanks := by
  simp [isBlank, blanks, or_assoc]

theorem symbol_iff {c : Char} {k : Tok} : symbol c = some k ↔ (c, k) ∈ symbols := by
  constructor
  · intro h
    unfold symbol at h
    repeat' split at h
    all_goals first
      | cases h; done
      | (rename_i hc; subst hc; cases h; simp [symbols])
  · intro h
    simp only [symbols, List.mem_cons, Prod.mk.injEq, List.not_mem_nil, or_false] at h
    rcases h with ⟨rfl, rfl⟩ | ⟨rfl, rfl⟩ | ⟨rfl, rfl⟩ | ⟨rfl, rfl⟩ | ⟨rfl, rfl⟩ | ⟨rfl, rfl⟩ |
      ⟨rfl, rfl⟩ <;> rfl

theorem isLonger_iff {c d : Char} : isLonger c d = true ↔ [c, d] ∈ longerTokens := by
  simp only [isLonger, longerTokens, Bool.or_eq_true, Bool.and_eq_true, decide_eq_true_eq,
    List.mem_cons, List.cons.injEq, and_true, List.not_mem_nil, or_false, and_or_left, or_assoc]

theorem isPair_iff {c d : Char} : isPair c d = true ↔
    (c ∈ ['e', 'E', 'p', 'P'] ∧ d ∈ ['+', '-']) ∨ (c = '\'' ∧ d ∈ decDigits ++ nondigits) := by
  simp only [isPair, Bool.or_eq_true, Bool.and_eq_true, decide_eq_true_eq, isIdent_iff,
    List.mem_cons, List.not_mem_nil, or_false, or_assoc]

theorem numTail_append_eq (t : List Char) : (numTail t).1 ++ (numTail t).2 = t := by
  induction t using numTail.induct <;> simp_all [numTail]

/-- The continuation is the whole text. -/
def Full (t : List Char) : Prop := numTail t = (t, [])

theorem Full.pair {c d : Char} {t : List Char} (hp : isPair c d = true) :
    Full (c :: d :: t) ↔ Full t := by
  simp [Full, numTail, hp, Prod.ext_iff]

theorem Full.single {c d : Char} {t : List Char} (hp : ¬ isPair c d = true) :
    Full (c :: d :: t) ↔ (isIdent c || c = '.') = true ∧ Full (d :: t) := by
  by_cases h : (isIdent c || c = '.') = true
  · simp [Full, numTail, hp, h, Prod.ext_iff]
  · simp [Full, numTail, hp, h]

theorem Full.one {c : Char} : Full [c] ↔ (isIdent c || c = '.') = true := by
  by_cases h : (isIdent c || c = '.') = true <;> simp [Full, numTail, h]

/-- The text does not start with a sign. -/
def NoSign (u : List Char) : Prop := ∀ d t, u = d :: t → d ∉ ['+', '-']

theorem Full.append {s u : List Char} (h : Full s) (hu : Full u) (hs : NoSign u) : Full (s ++ u) := by
  induction s using numTail.induct with
  | case1 => exact hu
  | case2 c hc =>
    cases u with
    | nil => exact h
    | cons d t =>
      refine (Full.single ?_).2 ⟨hc, hu⟩
      rw [isPair_iff]
      rintro (⟨-, hd⟩ | ⟨rfl, -⟩)
      · exact hs d t rfl hd
      · revert hc; decide
  | case3 c hc => exact absurd (Full.one.1 h) hc
  | case4 c d t hp ih => exact (Full.pair hp).2 (ih ((Full.pair hp).1 h))
  | case5 c d t hp hc ih =>
    have := (Full.single hp).1 h
    exact (Full.single hp).2 ⟨hc, ih this.2⟩
  | case6 c d t hp hc => exact absurd ((Full.single hp).1 h).1 hc

theorem startsNum_append {c : Char} {t u : List Char} (h : startsNum c t = true) :
    startsNum c (t ++ u) = true := by
  cases t with
  | nil => simp_all [startsNum]
  | cons d t => exact h

theorem ppNumber_full {x : List Char} (h : PPNumber x) :
    ∃ c t, x = c :: t ∧ startsNum c t = true ∧ Full t := by
  have hi : ∀ {d}, d ∈ decDigits ++ nondigits → d ∉ ['+', '-'] := by
    intro d hd hc
    revert hd
    simp only [List.mem_cons, List.not_mem_nil, or_false] at hc
    rcases hc with rfl | rfl <;> decide
  induction h with
  | @digit d h => exact ⟨d, [], rfl, by simp [startsNum, (isDigit_iff d).2 h], rfl⟩
  | @point d h =>
    have := (isDigit_iff d).2 h
    refine ⟨'.', [d], rfl, by simp [startsNum, this], Full.one.2 (by simp [isIdent, this])⟩
  | @ident s d _ hd ih =>
    obtain ⟨c, t, rfl, h1, h2⟩ := ih
    refine ⟨c, t ++ [d], rfl, startsNum_append h1, h2.append (Full.one.2 ?_) ?_⟩
    · simp [(isIdent_iff d).2 hd]
    · rintro e u he
      obtain ⟨rfl, -⟩ := List.cons.inj he
      exact hi hd
  | @sep s d _ hd ih =>
    obtain ⟨c, t, rfl, h1, h2⟩ := ih
    refine ⟨c, t ++ ['\'', d], rfl, startsNum_append h1,
      h2.append ((Full.pair (isPair_iff.2 (.inr ⟨rfl, hd⟩))).2 rfl) ?_⟩
    rintro e u he
    obtain ⟨rfl, -⟩ := List.cons.inj he
    decide
  | @sign s e d _ he hd ih =>
    obtain ⟨c, t, rfl, h1, h2⟩ := ih
    refine ⟨c, t ++ [e, d], rfl, startsNum_append h1,
      h2.append ((Full.pair (isPair_iff.2 (.inl ⟨he, hd⟩))).2 rfl) ?_⟩
    rintro e' u he'
    obtain ⟨rfl, -⟩ := List.cons.inj he'
    simp only [List.mem_cons, List.not_mem_nil, or_false] at he
    rcases he with rfl | rfl | rfl | rfl <;> decide
  | dot _ ih =>
    obtain ⟨c, t, rfl, h1, h2⟩ := ih
    refine ⟨c, t ++ ['.'], rfl, startsNum_append h1, h2.append (Full.one.2 (by simp)) ?_⟩
    rintro e u he
    obtain ⟨rfl, -⟩ := List.cons.inj he
    decide

theorem PPNumber.tail {s t : List Char} (h : PPNumber s) : PPNumber (s ++ (numTail t).1) := by
  have one : ∀ {s c}, PPNumber s → (isIdent c || c = '.') = true → PPNumber (s ++ [c]) := by
    intro s c h hc
    simp only [Bool.or_eq_true, decide_eq_true_eq] at hc
    rcases hc with hc | rfl
    · exact .ident h ((isIdent_iff c).1 hc)
    · exact .dot h
  induction t using numTail.induct generalizing s with
  | case1 => simpa [numTail] using h
  | case2 c hc => simpa [numTail, hc] using one h hc
  | case3 c hc => simpa [numTail, hc] using h
  | case4 c d t hp ih =>
    have h2 : PPNumber (s ++ [c, d]) := by
      rcases isPair_iff.1 hp with ⟨hc, hd⟩ | ⟨rfl, hd⟩
      · exact .sign h hc hd
      · exact .sep h hd
    simpa [numTail, hp] using ih h2
  | case5 c d t hp hc ih => simpa [numTail, hp, hc] using ih (one h hc)
  | case6 c d t hp hc => simpa [numTail, hp, hc] using h

theorem PPNumber.start {c : Char} {t : List Char} (h : startsNum c t = true) :
    PPNumber (c :: (numTail t).1) := by
  simp only [startsNum, Bool.or_eq_true, Bool.and_eq_true, decide_eq_true_eq] at h
  rcases h with h | ⟨rfl, h⟩
  · exact PPNumber.tail (.digit ((isDigit_iff c).1 h))
  · cases t with
    | nil => cases h
    | cons d t =>
      have h : isDigit d = true := h
      have hd := (isDigit_iff d).1 h
      have hnp : ∀ e, ¬ isPair d e = true := by
        intro e
        rw [isPair_iff]
        rintro (⟨hc, -⟩ | ⟨rfl, -⟩)
        · revert hd
          simp only [List.mem_cons, List.not_mem_nil, or_false] at hc
          rcases hc with rfl | rfl | rfl | rfl <;> decide
        · revert hd; decide
      have e : (numTail (d :: t)).1 = d :: (numTail t).1 := by
        cases t with
        | nil => simp [numTail, isIdent, h]
        | cons e t => simp [numTail, hnp e, isIdent, h]
      rw [e]
      exact PPNumber.tail (.point hd)

theorem numTail_longest {b z : List Char} (h : Full b) :
    b.length ≤ (numTail (b ++ z)).1.length := by
  induction b using numTail.induct with
  | case1 => simp
  | case2 c hc =>
    cases z with
    | nil => simp [numTail, hc]
    | cons d t =>
      simp only [List.cons_append, List.nil_append, numTail]
      by_cases hp : isPair c d = true <;> simp [hp, hc]
  | case3 c hc => exact absurd (Full.one.1 h) hc
  | case4 c d t hp ih =>
    have := ih ((Full.pair hp).1 h)
    simp only [List.cons_append, numTail, hp, if_true, List.length_cons]
    omega
  | case5 c d t hp hc ih =>
    have := ih ((Full.single hp).1 h).2
    simp only [List.cons_append, numTail, hp, hc, if_true, List.length_cons] at this ⊢
    simp only [Bool.false_eq_true, if_false, List.length_cons]
    omega
  | case6 c d t hp hc => exact absurd ((Full.single hp).1 h).1 hc

/-- A number that can not be continued is read whole. -/
theorem numTail_maximal {c : Char} {x t : List Char} (hs : startsNum c x = true) (hx : Full x)
    (h : ∀ y z, t = y ++ z → y ≠ [] → ¬ PPNumber (c :: x ++ y)) : numTail (x ++ t) = (x, t) := by
  have h1 := numTail_append_eq (x ++ t)
  have h2 := numTail_longest (z := t) hx
  have h3 : PPNumber (c :: (numTail (x ++ t)).1) := PPNumber.start (startsNum_append hs)
  obtain ⟨y, hy⟩ : ∃ y, (numTail (x ++ t)).1 = x ++ y := by
    have p1 : x <+: x ++ t := List.prefix_append _ _
    have p2 : (numTail (x ++ t)).1 <+: x ++ t := ⟨_, h1⟩
    obtain ⟨y, hy⟩ := List.prefix_of_prefix_length_le p1 p2 h2
    exact ⟨y, hy.symm⟩
  rw [hy, List.append_assoc, List.append_cancel_left_eq] at h1
  rw [hy] at h3
  by_cases h0 : y = []
  · subst h0
    rw [List.append_nil] at hy
    exact Prod.ext hy h1
  · exact absurd h3 (h y _ h1.symm h0)

theorem blank_not_start {c : Char} {t : List Char} (h : startsNum c t = true) :
    isBlank c = false := by
  by_contra hc
  have hc : isBlank c = true := by simpa using hc
  rw [isBlank_iff] at hc
  simp only [blanks, List.mem_cons, List.not_mem_nil, or_false] at hc
  rcases hc with rfl | rfl | rfl | rfl | rfl <;> simp [startsNum, isDigit] at h

theorem symbol_not_start {c : Char} {k : Tok} {t : List Char} (h : (c, k) ∈ symbols) :
    isBlank c = false ∧ startsNum c t = false := by
  simp only [symbols, List.mem_cons, Prod.mk.injEq, List.not_mem_nil, or_false] at h
  rcases h with ⟨rfl, -⟩ | ⟨rfl, -⟩ | ⟨rfl, -⟩ | ⟨rfl, -⟩ | ⟨rfl, -⟩ | ⟨rfl, -⟩ | ⟨rfl, -⟩ <;>
    simp [isBlank, startsNum, isDigit]

theorem lexFrom_cons {n : ℕ} {c : Char} {t : List Char} : lexFrom (n + 1) (c :: t) =
    if isBlank c then lexFrom n t
    else if startsNum c t then (lexFrom n (numTail t).2).map (Tok.num (c :: (numTail t).1) :: ·)
    else
      match symbol c with
      | none => none
      | some k =>
        if isGlued c t then none else (lexFrom n t).map (k :: ·) := rfl

theorem lexFrom_of {text : List Char} {ts : List Tok} (h : Lexes text ts) {n : ℕ}
    (hn : text.length < n) : lexFrom n text = some ts := by
  induction h generalizing n with
  | nil =>
    obtain ⟨k, rfl⟩ : ∃ k, n = k + 1 := ⟨n - 1, by simp at hn; omega⟩
    rfl
  | @blank c t ts hc _ ih =>
    obtain ⟨k, rfl⟩ : ∃ k, n = k + 1 := ⟨n - 1, by simp at hn; omega⟩
    rw [lexFrom_cons, if_pos ((isBlank_iff c).2 hc)]
    exact ih (by simp at hn; omega)
  | @num x t ts hx hm _ ih =>
    obtain ⟨k, rfl⟩ : ∃ k, n = k + 1 := ⟨n - 1, by omega⟩
    obtain ⟨c, u, rfl, h1, h2⟩ := ppNumber_full hx
    rw [List.cons_append, lexFrom_cons, if_neg (by simp [blank_not_start h1]),
      if_pos (startsNum_append h1), numTail_maximal h1 h2 hm, ih (by simp at hn; omega)]
    rfl
  | @symbol c k t ts hc hm _ ih =>
    obtain ⟨m, rfl⟩ : ∃ m, n = m + 1 := ⟨n - 1, by simp at hn; omega⟩
    obtain ⟨h1, h2⟩ := symbol_not_start (t := t) hc
    rw [lexFrom_cons, if_neg (by simp [h1]), if_neg (by simp [h2]), symbol_iff.2 hc]
    dsimp only
    rw [if_neg, ih (by simp at hn; omega)]
    · rfl
    · cases t with
      | nil => simp [isGlued]
      | cons d u =>
        intro hc
        exact hm d u rfl (isLonger_iff.1 hc)

theorem lexes_of {text : List Char} {ts : List Tok} {n : ℕ} (h : lexFrom n text = some ts) :
    Lexes text ts := by
  induction n generalizing text ts with
  | zero => cases h
  | succ n ih =>
    cases text with
    | nil => cases h; exact .nil
    | cons c t =>
      rw [lexFrom_cons] at h
      split at h
      · rename_i hb
        exact .blank ((isBlank_iff c).1 hb) (ih h)
      · split at h
        · rename_i hs
          obtain ⟨u, hu, rfl⟩ := Option.map_eq_some_iff.1 h
          have e := numTail_append_eq t
          have hpp := PPNumber.start hs
          have := Lexes.num (x := c :: (numTail t).1) (t := (numTail t).2) hpp (fun y z hy h0 hc => by
            obtain ⟨c', t', e1, h1, h2⟩ := ppNumber_full hc
            obtain ⟨rfl, rfl⟩ := List.cons.inj e1
            have h3 := numTail_longest (z := z) (b := (numTail t).1 ++ y) h2
            rw [List.append_assoc, ← hy, e] at h3
            rw [List.length_append] at h3
            exact h0 (List.length_eq_zero_iff.1 (by omega))) (ih hu)
          rw [List.cons_append, e] at this
          exact this
        · split at h
          · cases h
          · rename_i k hk
            by_cases hl : isGlued c t = true
            · rw [if_pos hl] at h
              cases h
            · rw [if_neg hl] at h
              obtain ⟨u, hu, rfl⟩ := Option.map_eq_some_iff.1 h
              refine .symbol (symbol_iff.1 hk) ?_ (ih hu)
              rintro d u rfl hc
              exact hl (isLonger_iff.2 hc)

/-- The lexer finds exactly the tokens. -/
theorem lex_iff {text : List Char} {ts : List Tok} : lex text = some ts ↔ Lexes text ts :=
  ⟨lexes_of, fun h => lexFrom_of h (Nat.lt_succ_self _)⟩

/-- A character that can not continue the number. -/
theorem numTail_stop {x u : List Char} {s : Char} (hx : Full x) (h1 : (isIdent s || s = '.') = false)
    (h2 : s ≠ '\'') (h3 : s ∈ ['+', '-'] → ∀ c ∈ x.getLast?, c ∉ ['e', 'E', 'p', 'P']) :
    numTail (x ++ s :: u) = (x, s :: u) := by
  have hp : ∀ d, isPair s d = false := by
    intro d
    by_contra hc
    have hc : isPair s d = true := by simpa using hc
    rcases isPair_iff.1 hc with ⟨hc, -⟩ | ⟨hc, -⟩
    · simp only [List.mem_cons, List.not_mem_nil, or_false] at hc
      rcases hc with rfl | rfl | rfl | rfl <;> revert h1 <;> decide
    · exact h2 hc
  have h1' : ¬ (isIdent s || s = '.') = true := by simp [h1]
  induction x using numTail.induct with
  | case1 =>
    cases u with
    | nil => simp only [List.nil_append, numTail, if_neg h1']
    | cons d u => simp only [List.nil_append, numTail, hp, if_neg h1', Bool.false_eq_true, if_false]
  | case2 c hc =>
    have hnp : isPair c s = false := by
      by_contra hcp
      have hcp : isPair c s = true := by simpa using hcp
      rcases isPair_iff.1 hcp with ⟨hc1, hc2⟩ | ⟨-, hc2⟩
      · exact h3 hc2 c (by simp) hc1
      · rw [← isIdent_iff] at hc2
        simp [hc2] at h1
    have e : numTail (s :: u) = ([], s :: u) := by
      cases u with
      | nil => simp only [numTail, if_neg h1']
      | cons d u => simp only [numTail, hp, if_neg h1', Bool.false_eq_true, if_false]
    simp only [List.cons_append, List.nil_append, numTail, hnp, hc, e, Bool.false_eq_true, if_false,
      if_true]
  | case3 c hc => exact absurd (Full.one.1 hx) hc
  | case4 c d t hq ih =>
    have := ih ((Full.pair hq).1 hx) (fun h c hc => h3 h c (by
      cases t with
      | nil => simp at hc
      | cons e t => simpa [List.getLast?_cons_cons] using hc))
    simp only [List.cons_append, numTail, hq, if_true, this]
  | case5 c d t hq hc ih =>
    have := ih ((Full.single hq).1 hx).2 (fun h c hc => h3 h c (by
      rw [List.getLast?_cons_cons]; exact hc))
    simp only [List.cons_append] at this
    simp only [List.cons_append, numTail, hq, hc, if_true, Bool.false_eq_true, if_false, this]
  | case6 c d t hq hc => exact absurd ((Full.single hq).1 hx).1 hc

theorem not_ppNumber_of_stop {x u : List Char} {s : Char} (hx : PPNumber x)
    (h1 : (isIdent s || s = '.') = false) (h2 : s ≠ '\'')
    (h3 : s ∈ ['+', '-'] → ∀ c ∈ x.getLast?, c ∉ ['e', 'E', 'p', 'P']) {y z : List Char}
    (hy : s :: u = y ++ z) (h0 : y ≠ []) : ¬ PPNumber (x ++ y) := by
  intro hc
  obtain ⟨c, t, rfl, k1, k2⟩ := ppNumber_full hx
  obtain ⟨c', t', e, k3, k4⟩ := ppNumber_full hc
  obtain ⟨rfl, rfl⟩ := List.cons.inj e
  have l := numTail_longest (b := t ++ y) (z := z) k4
  rw [List.append_assoc, ← hy, numTail_stop k2 h1 h2] at l
  · rw [List.length_append] at l
    have l : t.length + y.length ≤ t.length := l
    exact h0 (List.length_eq_zero_iff.1 (by omega))
  · intro h d hd
    refine h3 h d ?_
    cases t with
    | nil => simp at hd
    | cons a t => rw [List.getLast?_cons_cons]; exact hd

theorem Tok.text_ne (k : Tok) (h : ∀ x, k = .num x → PPNumber x) : k.text ≠ [] := by
  cases k with
  | num x =>
    obtain ⟨c, t, rfl, -⟩ := ppNumber_full (h x rfl)
    simp [Tok.text]
  | _ => simp [Tok.text]

theorem Lexes.blanks {w t : List Char} {ts : List Tok} (hw : ∀ c ∈ w, c ∈ blanks) (h : Lexes t ts) :
    Lexes (w ++ t) ts := by
  induction w with
  | nil => exact h
  | cons c w ih => exact .blank (hw c (by simp)) (ih fun d hd => hw d (by simp [hd]))

theorem blank_stop {s : Char} (h : s ∈ blanks) : (isIdent s || s = '.') = false ∧ s ≠ '\'' ∧
    s ∉ ['+', '-'] ∧ ∀ c, [c, s] ∉ longerTokens := by
  simp only [Source.blanks, List.mem_cons, List.not_mem_nil, or_false] at h
  rcases h with rfl | rfl | rfl | rfl | rfl <;>
    exact ⟨by decide, by decide, by decide, by simp [longerTokens]⟩

/-- Tokens that are laid out are found again. -/
theorem lexes_of_laid {ts : List Tok} {text : List Char} (h : Laid ts text) : Lexes text ts := by
  induction h with
  | nil => exact .nil
  | @cons k ts w text hw ha hp hl ih =>
    have hrest : Lexes (w ++ text) ts := ih.blanks hw
    -- the first character of the rest
    have first : ∀ d u, w ++ text = d :: u → d ∈ blanks ∨
        (w = [] ∧ ∃ k' ts' t', ts = k' :: ts' ∧ Apart k k' ∧ (∀ x, k' = .num x → PPNumber x) ∧
          text = k'.text ++ t') := by
      intro d u e
      cases w with
      | cons c w =>
        obtain ⟨rfl, -⟩ := List.cons.inj e
        exact .inl (hw c (by simp))
      | nil =>
        right
        refine ⟨rfl, ?_⟩
        cases hl with
        | nil => cases e
        | @cons k' ts' w' text' _ _ hp' _ =>
          exact ⟨k', ts', w' ++ text', rfl, ha rfl k' (by simp), hp', by simp⟩
    rw [List.append_assoc]
    cases k with
    | num x =>
      refine .num (hp x rfl) (fun y z hy h0 => ?_) hrest
      cases e : w ++ text with
      | nil => rw [e] at hy; simp_all
      | cons d u =>
        rw [e] at hy
        rcases first d u e with hd | ⟨rfl, k', ts', t', rfl, hk, -, rfl⟩
        · obtain ⟨b1, b2, b3, -⟩ := blank_stop hd
          exact not_ppNumber_of_stop (hp x rfl) b1 b2 (fun h => absurd h b3) hy h0
        · cases k' with
          | num y => exact hk.elim
          | plus =>
            obtain ⟨rfl, -⟩ := List.cons.inj e
            exact not_ppNumber_of_stop (hp x rfl) (by decide) (by decide) (fun _ => hk) hy h0
          | minus =>
            obtain ⟨rfl, -⟩ := List.cons.inj e
            exact not_ppNumber_of_stop (hp x rfl) (by decide) (by decide) (fun _ => hk) hy h0
          | _ =>
            obtain ⟨rfl, -⟩ := List.cons.inj e
            exact not_ppNumber_of_stop (hp x rfl) (by decide) (by decide)
              (fun h => absurd h (by decide)) hy h0
    | _ =>
      refine .symbol (by simp [symbols]) (fun d u e => ?_) hrest
      rcases first d u e with hd | ⟨rfl, k', ts', t', rfl, hk, hp', rfl⟩
      · exact (blank_stop hd).2.2.2 _
      · cases k' with
        | num y =>
          obtain ⟨c, t, rfl, h1, -⟩ := ppNumber_full (hp' y rfl)
          obtain ⟨rfl, -⟩ := List.cons.inj e
          intro hc
          simp only [longerTokens, List.mem_cons, List.cons.injEq, and_true, List.not_mem_nil,
            or_false] at hc
          simp only [startsNum, Bool.or_eq_true, Bool.and_eq_true, decide_eq_true_eq] at h1
          rcases h1 with h1 | ⟨rfl, -⟩
          · rw [isDigit_iff] at h1
            simp only [decDigits, List.mem_cons, List.not_mem_nil, or_false] at h1
            rcases h1 with rfl | rfl | rfl | rfl | rfl | rfl | rfl | rfl | rfl | rfl <;>
              simp at hc
          · simp at hc
        | _ =>
          obtain ⟨rfl, -⟩ := List.cons.inj e
          exact hk

/-! ### Grammar -/

/-- Nothing on top of the stack takes an operand at once. -/
def Open : List Frame → Prop
  | .pos :: _ => False
  | .neg :: _ => False
  | .mul _ _ :: _ => False
  | _ => True

/-- No addition is on top either. -/
def Bottom : List Frame → Prop
  | [] => True
  | .par :: _ => True
  | _ => False

theorem settle_open {st : List Frame} (h : Open st) (e : Src) : settle st e = (st, e) := by
  cases st with
  | nil => rfl
  | cons f st => cases f <;> first | rfl | exact h.elim

theorem close_bottom {st : List Frame} (h : Bottom st) (e : Src) : close st e = (st, e) := by
  cases st with
  | nil => rfl
  | cons f st => cases f <;> first | rfl | exact h.elim

theorem Bottom.open {st : List Frame} (h : Bottom st) : Open st := by
  cases st with
  | nil => trivial
  | cons f st => cases f <;> trivial

/-- Reading behind an operand that waiting signs and multiplications take. -/
def after (st : List Frame) (e : Src) (ts : List Tok) : Option Src :=
  operator (settle st e).1 (settle st e).2 ts

theorem after_open {st : List Frame} (h : Open st) {e : Src} {ts : List Tok} :
    after st e ts = operator st e ts := by rw [after, settle_open h]

theorem mulOp_iff {k : Tok} {op : ArithOp} : mulOp k = some op ↔ (k, op) ∈ multiplicative := by
  cases k <;> cases op <;> simp [mulOp, multiplicative]

theorem addOp_iff {k : Tok} {op : ArithOp} : addOp k = some op ↔ (k, op) ∈ additive := by
  cases k <;> cases op <;> simp [addOp, additive]

theorem operator_mul {st : List Frame} {e : Src} {k : Tok} {op : ArithOp} {ts : List Tok}
    (h : (k, op) ∈ multiplicative) : operator st e (k :: ts) = operand (.mul op e :: st) ts := by
  rw [← mulOp_iff] at h
  cases k <;> cases h <;> simp [operator, mulOp]

theorem operator_add {st : List Frame} {e : Src} {k : Tok} {op : ArithOp} {ts : List Tok}
    (h : (k, op) ∈ additive) : operator st e (k :: ts) =
      operand (.add op (close st e).2 :: (close st e).1) ts := by
  rw [← addOp_iff] at h
  cases k <;> cases h <;> simp [operator, mulOp, addOp]

/-- What may follow an additive expression. -/
def Stops : List Tok → Prop
  | [] => True
  | t :: _ => mulOp t = none

theorem operator_close {st : List Frame} {op : ArithOp} {l r : Src} {ts : List Tok} (h : Bottom st)
    (hs : Stops ts) : operator (.add op l :: st) r ts = operator st (.bin op l r) ts := by
  have h1 : close (.add op l :: st) r = (st, .bin op l r) := rfl
  have h2 := close_bottom h (.bin op l r)
  cases ts with
  | nil => simp only [operator, h1, h2]
  | cons t ts =>
    cases t <;> simp_all [operator, Stops, mulOp, addOp]

/-- What reading an additive, multiplicative or unary expression comes to. -/
def AReads (e : Src) (ts : List Tok) : Prop := ∀ st rest, Bottom st → Stops rest →
  operand st (ts ++ rest) = operator st e rest
@[inherit_doc AReads] def MReads (e : Src) (ts : List Tok) : Prop := ∀ st rest, Open st →
  operand st (ts ++ rest) = operator st e rest
@[inherit_doc AReads] def UReads (e : Src) (ts : List Tok) : Prop := ∀ st rest,
  operand st (ts ++ rest) = after st e rest

theorem additive_reads {e : Src} {ts : List Tok} (h : Additive e ts) : AReads e ts := by
  refine Additive.rec (motive_1 := fun e ts _ => AReads e ts) (motive_2 := fun e ts _ => MReads e ts)
    (motive_3 := fun e ts _ => UReads e ts) ?_ ?_ ?_ ?_ ?_ ?_ ?_ ?_ h
  · intro e ts _ ih st rest hb _
    exact ih st rest hb.open
  · intro k op l r a b hk _ _ il ir st rest hb hs
    have hk' : Stops (k :: (b ++ rest)) := by
      rw [← addOp_iff] at hk
      cases k <;> first | rfl | cases hk
    rw [List.append_assoc, List.cons_append, il st _ hb hk', operator_add hk, close_bottom hb,
      ir (.add op l :: st) _ trivial]
    exact operator_close hb hs
  · intro e ts _ ih st rest hb
    rw [ih, after_open hb]
  · intro k op l r a b hk _ _ il ir st rest hb
    rw [List.append_assoc, List.cons_append, il st _ hb, operator_mul hk, ir, after, settle, ← after,
      after_open hb]
  · intro x e hx st rest
    rw [List.cons_append, operand, literal_iff.2 hx]
    rfl
  · intro e ts _ ih st rest
    rw [List.cons_append, operand, ih]
    rfl
  · intro e ts _ ih st rest
    rw [List.cons_append, operand, ih]
    rfl
  · intro e ts _ ih st rest
    rw [List.append_assoc, List.cons_append, operand, List.singleton_append,
      ih (.par :: st) (.rpar :: rest) trivial rfl, operator]
    rfl

theorem operand_of_additive {e : Src} {ts : List Tok} (h : Additive e ts) :
    operand [] ts = some e := by
  have := additive_reads h [] [] trivial trivial
  rw [List.append_nil] at this
  rw [this, operator]
  rfl

/-- The tokens that were read before a stack arose. -/
inductive Ctx : List Frame → List Tok → Prop
  | nil : Ctx [] []
  | par {st p} : Ctx st p → Ctx (.par :: st) (p ++ [.lpar])
  | pos {st p} : Ctx st p → Ctx (.pos :: st) (p ++ [.plus])
  | neg {st p} : Ctx st p → Ctx (.neg :: st) (p ++ [.minus])
  | mul {st p k op l a} : Ctx st p → Open st → (k, op) ∈ multiplicative → Multiplicative l a →
      Ctx (.mul op l :: st) (p ++ a ++ [k])
  | add {st p k op l a} : Ctx st p → Bottom st → (k, op) ∈ additive → Additive l a →
      Ctx (.add op l :: st) (p ++ a ++ [k])

/-- After settling: the stack is open, and what is written is a multiplicative expression. -/
theorem settle_ctx {st : List Frame} {p : List Tok} (hc : Ctx st p) {e : Src} {a : List Tok}
    (he : Unary e a) : ∃ p' a', p ++ a = p' ++ a' ∧ Ctx (settle st e).1 p' ∧
      Open (settle st e).1 ∧ Multiplicative (settle st e).2 a' := by
  induction hc generalizing e a with
  | nil => exact ⟨[], a, rfl, .nil, trivial, .up he⟩
  | par hc _ => exact ⟨_, a, rfl, .par hc, trivial, .up he⟩
  | pos _ ih =>
    obtain ⟨p', a', h1, h2⟩ := ih (.pos he)
    exact ⟨p', a', by rw [← h1]; simp, h2⟩
  | neg _ ih =>
    obtain ⟨p', a', h1, h2⟩ := ih (.neg he)
    exact ⟨p', a', by rw [← h1]; simp, h2⟩
  | @mul st p k op l b hc ho hk hl _ =>
    refine ⟨p, b ++ k :: a, by simp, ?_⟩
    rw [settle, settle_open ho]
    exact ⟨hc, ho, .bin hk hl he⟩
  | add hc hb hk hl _ => exact ⟨_, a, rfl, .add hc hb hk hl, trivial, .up he⟩

theorem close_ctx {st : List Frame} {p : List Tok} (hc : Ctx st p) (ho : Open st) {e : Src}
    {a : List Tok} (he : Multiplicative e a) : ∃ p' a', p ++ a = p' ++ a' ∧
      Ctx (close st e).1 p' ∧ Bottom (close st e).1 ∧ Additive (close st e).2 a' := by
  cases hc with
  | nil => exact ⟨[], a, rfl, .nil, trivial, .up he⟩
  | par hc => exact ⟨_, a, rfl, .par hc, trivial, .up he⟩
  | pos _ => exact ho.elim
  | neg _ => exact ho.elim
  | mul _ _ _ _ => exact ho.elim
  | @add st p k op l b hc hb hk hl => exact ⟨p, b ++ k :: a, by simp, hc, hb, .bin hk hl he⟩

theorem sound (ts : List Tok) :
    (∀ st p e, Ctx st p → operand st ts = some e → Additive e (p ++ ts)) ∧
    ∀ st p x a e, Ctx st p → Open st → Multiplicative x a → operator st x ts = some e →
      Additive e (p ++ a ++ ts) := by
  induction ts with
  | nil =>
    refine ⟨fun st p e _ h => by simp [operand] at h, fun st p x a e hc ho hx h => ?_⟩
    obtain ⟨p', a', h1, h2, h3, h4⟩ := close_ctx hc ho hx
    rw [operator] at h
    generalize close st x = y at *
    obtain ⟨y, z⟩ := y
    cases y with
    | nil =>
      cases h
      cases h2
      rw [List.append_nil, h1]
      exact h4
    | cons _ _ => cases h
  | cons t ts ih =>
    obtain ⟨ih1, ih2⟩ := ih
    have key : ∀ st p x a e, Ctx st p → Unary x a →
        operator (settle st x).1 (settle st x).2 ts = some e → Additive e (p ++ a ++ ts) := by
      intro st p x a e hc hx h
      obtain ⟨p', a', h1, h2, h3, h4⟩ := settle_ctx hc hx
      rw [h1]
      exact ih2 _ _ _ _ _ h2 h3 h4 h
    constructor
    · intro st p e hc h
      cases t with
      | num x =>
        rw [operand] at h
        cases hl : literal x with
        | none => rw [hl] at h; cases h
        | some y =>
          rw [hl] at h
          have := key st p y _ e hc (.literal (literal_iff.1 hl)) h
          simpa using this
      | plus => simpa using ih1 _ _ _ (.pos hc) (by rwa [operand] at h)
      | minus => simpa using ih1 _ _ _ (.neg hc) (by rwa [operand] at h)
      | lpar => simpa using ih1 _ _ _ (.par hc) (by rwa [operand] at h)
      | _ => simp [operand] at h
    · intro st p x a e hc ho hx h
      cases hm : mulOp t with
      | some op =>
        rw [operator_mul (mulOp_iff.1 hm)] at h
        simpa using ih1 _ _ _ (.mul hc ho (mulOp_iff.1 hm) hx) h
      | none =>
        obtain ⟨p', a', h1, h2, h3, h4⟩ := close_ctx hc ho hx
        cases ha : addOp t with
        | some op =>
          rw [operator_add (addOp_iff.1 ha)] at h
          have := ih1 _ _ _ (.add h2 h3 (addOp_iff.1 ha) h4) h
          rw [h1]
          simpa using this
        | none =>
          cases t with
          | rpar =>
            rw [operator] at h
            generalize close st x = y at *
            obtain ⟨y, z⟩ := y
            cases y with
            | nil => cases h
            | cons f y =>
              cases f with
              | par =>
                cases h2 with
                | @par _ p'' h2 =>
                  have := key _ _ _ _ _ h2 (.par h4) h
                  rw [h1]
                  simpa using this
              | _ => cases h
          | _ => simp [operator, mulOp, addOp] at h hm ha

/-- The parser accepts exactly the additive expressions. -/
theorem operand_iff {e : Src} {ts : List Tok} : operand [] ts = some e ↔ Additive e ts :=
  ⟨fun h => (sound ts).1 [] [] e .nil h, operand_of_additive⟩

end Ieme.Source
