import Verif.Lemmas.ParseValue

/-!
# Upper and lower case, and extra zeros, in literals
-/

namespace Ieme
namespace Parse

open Res IntTy Lit

variable {T : IntTy} {o : Ops} {s : List Char}

theorem lower_append (s t : List Char) : lower (s ++ t) = lower s ++ lower t := List.map_append

theorem toLower_hex : ∀ c ∈ hexDigits, c.toLower ∈ hexDigits := by decide

theorem toLower_dec : ∀ c ∈ decDigits, c.toLower = c := by decide

theorem toLower_quote {c : Char} (h : c ∈ hexDigits) : c.toLower ≠ '\'' := by
  revert h; revert c; decide

theorem digitAsInt_lower {c : Char} (h : c ∈ hexDigits) :
    digitAsInt T c.toLower = digitAsInt T c := by
  have key : ∀ c ∈ hexDigits,
      (if c.toLower ≥ 'A' ∧ c.toLower ≤ 'F' then ((c.toLower.toNat : Int) - 65 + 10)
       else if c.toLower ≥ 'a' ∧ c.toLower ≤ 'f' then ((c.toLower.toNat : Int) - 97 + 10)
       else ((c.toLower.toNat : Int) - 48)) =
      (if c ≥ 'A' ∧ c ≤ 'F' then ((c.toNat : Int) - 65 + 10)
       else if c ≥ 'a' ∧ c ≤ 'f' then ((c.toNat : Int) - 97 + 10)
       else ((c.toNat : Int) - 48)) := by decide
  have e : ∀ c : Char, digitAsInt T c = T.conv
      (if c ≥ 'A' ∧ c ≤ 'F' then ((c.toNat : Int) - 65 + 10)
       else if c ≥ 'a' ∧ c ≤ 'f' then ((c.toNat : Int) - 97 + 10)
       else ((c.toNat : Int) - 48)) := by
    intro c
    unfold digitAsInt
    split
    · rfl
    · split <;> rfl
  rw [e, e, key c h]

theorem digitLoop_lower {base : ℤ} (hs : ∀ c ∈ s, c ∈ hexDigits ∨ c = '\'') (r p : ℤ) :
    digitLoop T base (lower s) r p = digitLoop T base s r p := by
  induction s generalizing r p with
  | nil => rfl
  | cons c s ih =>
    have ih := fun r p => ih (fun c h => hs c (by simp [h])) r p
    rcases hs c (by simp) with h | rfl
    · have h1 := toLower_quote h
      have h2 : c ≠ '\'' := by rintro rfl; revert h; decide
      simp only [lower, List.map_cons, digitLoop, if_neg h1, if_neg h2, digitAsInt_lower h]
      simp only [lower] at ih
      simp only [ih]
    · simp only [lower, List.map_cons, digitLoop]
      simp only [lower] at ih
      rw [if_pos (by decide : '\''.toLower = '\''), if_pos trivial, ih]

theorem digitSequence_lower (hs : ∀ c ∈ s, c ∈ hexDigits ∨ c = '\'') (b : ℤ) :
    digitSequenceToInt T (lower s) b = digitSequenceToInt T s b := by
  unfold digitSequenceToInt
  rw [lower, ← List.map_reverse]
  exact digitLoop_lower (fun c h => hs c (List.mem_reverse.1 h)) _ _

theorem precision_lower (hs : ∀ c ∈ s, c ∈ hexDigits ∨ c = '\'') :
    precision (lower s) = precision s := by
  have key : ∀ n, (lower s).foldlM (fun n c => if c ≠ '\'' then u32.add n 1 else pure n) n =
      s.foldlM (fun n c => if c ≠ '\'' then u32.add n 1 else pure n) n := by
    induction s with
    | nil => intro n; rfl
    | cons c s ih =>
      intro n
      have ih := ih (fun c h => hs c (by simp [h]))
      simp only [lower] at ih
      simp only [lower, List.map_cons, List.foldlM_cons, ih]
      rcases hs c (by simp) with h | rfl
      · have h2 : c ≠ '\'' := by rintro rfl; revert h; decide
        rw [if_pos (toLower_quote h), if_pos h2]
      · rw [if_neg (by decide), if_neg (by decide)]
  unfold precision
  rw [key]

theorem digitSeq_lower {D : List Char} (hD : ∀ c ∈ D, c.toLower ∈ D) (h : DigitSeq D s) :
    DigitSeq D (lower s) := by
  induction h with
  | digit hd => exact .digit (hD _ hd)
  | snoc _ hd ih => rw [lower_append]; exact .snoc ih (hD _ hd)
  | sep _ hd ih => rw [lower_append]; exact .sep ih (hD _ hd)

/-- The literal in lower case. -/
def lowerLit (l : FloatLit) : FloatLit :=
  { l with
    hexPrefix := l.hexPrefix.map Char.toLower
    whole := lower l.whole
    frac := lower l.frac
    exp := l.exp.map fun e =>
      { marker := e.marker.toLower, sign := e.sign.map Char.toLower, digits := lower e.digits } }

theorem lowerLit_render (l : FloatLit) : (lowerLit l).render = lower l.render := by
  obtain ⟨hx, w, p, f, e⟩ := l
  simp only [FloatLit.render, lowerLit, lower, List.map_append]
  congr 1
  · congr 1
    · congr 1
      cases hx <;> rfl
    · cases p <;> rfl
  · rcases e with _ | ⟨m, sg, ds⟩
    · rfl
    · cases sg <;> rfl

theorem lowerLit_digitSet (l : FloatLit) : (lowerLit l).digitSet = l.digitSet := by
  obtain ⟨hx, w, p, f, e⟩ := l
  cases hx <;> rfl

theorem digitSet_lower (l : FloatLit) : ∀ c ∈ l.digitSet, c.toLower ∈ l.digitSet := by
  unfold FloatLit.digitSet
  split
  · exact toLower_hex
  · decide

theorem lowerLit_valid {l : FloatLit} (hv : l.Valid) : (lowerLit l).Valid := by
  have hd : ∀ s, s = [] ∨ DigitSeq l.digitSet s → lower s = [] ∨ DigitSeq l.digitSet (lower s) := by
    rintro s (rfl | h)
    · exact .inl rfl
    · exact .inr (digitSeq_lower (digitSet_lower l) h)
  have hne : ∀ s : List Char, s ≠ [] → lower s ≠ [] := by
    intro s h; simpa [lower] using h
  have hxs : (lowerLit l).hexPrefix.isSome = l.hexPrefix.isSome := by
    simp [lowerLit]
  refine ⟨?_, ?_, ?_, ?_, ?_, ?_, ?_, ?_, ?_⟩
  · intro c hc
    simp only [lowerLit, Option.mem_def, Option.map_eq_some_iff] at hc
    obtain ⟨c', hc', rfl⟩ := hc
    rcases hv.hexPrefix c' hc' with rfl | rfl <;> decide
  · rw [lowerLit_digitSet]; exact hd _ hv.whole
  · rw [lowerLit_digitSet]; exact hd _ hv.frac
  · exact hv.some_digit.imp (hne _) (hne _)
  · intro h; simp only [lowerLit]; rw [hv.frac_point h]; rfl
  · intro h
    have := hv.exp_needed (by rwa [hxs] at h)
    simpa [lowerLit] using this
  · intro e he
    rw [hxs]
    simp only [lowerLit, Option.mem_def, Option.map_eq_some_iff] at he
    obtain ⟨e', he', rfl⟩ := he
    have := hv.marker e' he'
    simp only
    generalize e'.marker = c at *
    split at this <;> rename_i h <;>
      (simp at this; rcases this with rfl | rfl <;> simp [h])
  · intro e he
    simp only [lowerLit, Option.mem_def, Option.map_eq_some_iff] at he
    obtain ⟨e', he', rfl⟩ := he
    intro c hc
    simp only [Option.mem_def, Option.map_eq_some_iff] at hc
    obtain ⟨c', hc', rfl⟩ := hc
    rcases hv.sign e' he' c' hc' with rfl | rfl <;> decide
  · intro e he
    simp only [lowerLit, Option.mem_def, Option.map_eq_some_iff] at he
    obtain ⟨e', he', rfl⟩ := he
    exact digitSeq_lower (by decide) (hv.exp_digits e' he')

theorem digitSet_hex (l : FloatLit) {s : List Char} (h : s = [] ∨ DigitSeq l.digitSet s) :
    ∀ c ∈ s, c ∈ hexDigits ∨ c = '\'' := by
  rcases h with rfl | h
  · simp
  · intro c hc
    refine (digitSeq_mem h c hc).imp_left fun hd => ?_
    unfold FloatLit.digitSet at hd
    split at hd
    · exact hd
    · exact List.mem_append.2 (.inl hd)

theorem toFraction_lower {l : FloatLit} (hv : l.Valid) (hp : l.point = true) :
    toFraction T o (lower l.render) = toFraction T o l.render := by
  rw [← lowerLit_render, toFraction_lit (lowerLit_valid hv) hp, toFraction_lit hv hp]
  have e1 : precision (lowerLit l).frac = precision l.frac :=
    precision_lower (digitSet_hex l hv.frac)
  rw [e1]
  congr 1
  funext p
  rw [scanValue_lit, scanValue_lit]
  have e2 : ∀ b, digitSequenceToInt T (lowerLit l).whole b = digitSequenceToInt T l.whole b :=
    digitSequence_lower (digitSet_hex l hv.whole)
  have e3 : ∀ b, digitSequenceToInt T (lowerLit l).frac b = digitSequenceToInt T l.frac b :=
    digitSequence_lower (digitSet_hex l hv.frac)
  have e4 : ∀ b, digitSequenceToInt i32 (expDigits (lowerLit l)) b =
      digitSequenceToInt i32 (expDigits l) b := by
    intro b
    unfold expDigits lowerLit
    rcases he : l.exp with _ | e
    · rfl
    · refine digitSequence_lower (fun c hc => ?_) b
      exact (digitSeq_mem (hv.exp_digits e he) c hc).imp_left fun hd =>
        List.mem_append.2 (.inl hd)
  have e5 : (lowerLit l).exp.elim false (fun e => decide (e.sign = some '-')) =
      l.exp.elim false (fun e => decide (e.sign = some '-')) := by
    unfold lowerLit
    rcases he : l.exp with _ | e
    · rfl
    · rcases hs : e.sign with _ | c
      · simp [hs]
      · rcases hv.sign e he c hs with rfl | rfl <;> simp [hs]
  have hx : (lowerLit l).hexPrefix.isSome = l.hexPrefix.isSome := by simp [lowerLit]
  have e6 : (lowerLit l).base = l.base := by simp only [FloatLit.base, hx]
  have e7 : (lowerLit l).expBase = l.expBase := by simp only [FloatLit.expBase, hx]
  rw [e2, e3, e4, e5, e6, e7]

/-! ## Extra zeros -/

theorem digitSeq_cons {D s : List Char} {d : Char} (hd : d ∈ D) (h : DigitSeq D s) :
    DigitSeq D (d :: s) := by
  induction h with
  | digit hx => exact .snoc (.digit hd) hx
  | snoc _ hx ih => rw [← List.cons_append]; exact .snoc ih hx
  | sep _ hx ih => rw [← List.cons_append]; exact .sep ih hx

theorem digitSeq_pad_left {D s : List Char} {d : Char} (hd : d ∈ D) (n : ℕ)
    (h : s = [] ∨ DigitSeq D s) : List.replicate n d ++ s = [] ∨
      DigitSeq D (List.replicate n d ++ s) := by
  induction n with
  | zero => exact h
  | succ n ih =>
    right
    rw [List.replicate_succ, List.cons_append]
    rcases ih with h | h
    · rw [h]; exact .digit hd
    · exact digitSeq_cons hd h

theorem digitSeq_pad_right {D s : List Char} {d : Char} (hd : d ∈ D) (n : ℕ)
    (h : s = [] ∨ DigitSeq D s) : s ++ List.replicate n d = [] ∨
      DigitSeq D (s ++ List.replicate n d) := by
  induction n with
  | zero => simpa using h
  | succ n ih =>
    right
    rw [List.replicate_succ', ← List.append_assoc]
    rcases ih with h | h
    · rw [h]; exact .digit hd
    · exact .snoc h hd

theorem digits_zeros (n : ℕ) : digits (List.replicate n '0') = List.replicate n '0' := by
  simp [digits]

theorem seqValue_pad_left (b n : ℕ) (s : List Char) :
    seqValue b (List.replicate n '0' ++ s) = seqValue b s := by
  have key : ∀ n v, (List.replicate n '0').foldl (fun v d => v * b + digitValue d) (v * 0) = 0 := by
    intro n
    induction n with
    | zero => intro v; simp
    | succ n ih =>
      intro v
      rw [List.replicate_succ, List.foldl_cons]
      have := ih 0
      simpa [digitValue] using this
  unfold seqValue
  rw [digits_append, digits_zeros, List.foldl_append]
  have := key n 0
  rw [Nat.zero_mul] at this
  rw [this]

theorem seqValue_pad_right (b n : ℕ) (s : List Char) :
    seqValue b (s ++ List.replicate n '0') = seqValue b s * b ^ n := by
  unfold seqValue
  rw [digits_append, digits_zeros, List.foldl_append]
  generalize (digits s).foldl (fun v d => v * b + digitValue d) 0 = v
  induction n generalizing v with
  | zero => simp
  | succ n ih =>
    rw [List.replicate_succ, List.foldl_cons, ih]
    simp only [digitValue]
    ring

theorem padLit_valid {l : FloatLit} (hv : l.Valid) (hp : l.point = true) (m n : ℕ) :
    (l.pad m n).Valid := by
  have hz : '0' ∈ l.digitSet := by unfold FloatLit.digitSet; split <;> decide
  refine ⟨hv.hexPrefix, digitSeq_pad_left hz m hv.whole, digitSeq_pad_right hz n hv.frac, ?_, ?_,
    hv.exp_needed, hv.marker, hv.sign, hv.exp_digits⟩
  · rcases hv.some_digit with h | h
    · left; simp [FloatLit.pad, h]
    · right; simp [FloatLit.pad, h]
  · intro h
    simp only [FloatLit.pad] at h
    rw [hp] at h
    cases h

theorem padLit_value (l : FloatLit) (m n : ℕ) :
    (l.pad m n).value = l.value := by
  have hb : (l.base : ℚ) ≠ 0 := by unfold FloatLit.base; split <;> norm_num
  have e1 : (l.pad m n).base = l.base := rfl
  have e2 : (l.pad m n).expBase = l.expBase := rfl
  have e3 : (l.pad m n).expValue = l.expValue := rfl
  have e4 : (l.pad m n).whole = List.replicate m '0' ++ l.whole := rfl
  have e5 : (l.pad m n).frac = l.frac ++ List.replicate n '0' := rfl
  rw [FloatLit.value, FloatLit.value, e1, e2, e3, e4, e5, seqValue_pad_left, seqValue_pad_right,
    digits_append, digits_zeros, List.length_append, List.length_replicate]
  congr 2
  push_cast
  rw [pow_add]
  field_simp

end Parse
end Ieme
