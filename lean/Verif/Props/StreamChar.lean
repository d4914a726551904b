import Verif.Lemmas.StreamChar

/-!
# Fractions with 8-bit representations are streamed as characters: property C116
-/

namespace Ieme

open Stream

variable {N : NarrowTy} {f g : Raw} {rest text : List Char}

/-- **C116** Exactly what extraction into a fraction with an 8-bit representation accepts: after
whitespace any character, whose code becomes the numerator, anything up to a slash, and after
whitespace any character, whose code becomes the denominator.  The end of the stream is not
noticed. -/
theorem C116_success_iff {e : Bool} :
    readChar N ⟨text, false, false⟩ g = (f, ⟨rest, e, false⟩) ↔
      e = false ∧ ∃ w a junk w' b, text = w ++ a :: (junk ++ '/' :: (w' ++ b :: rest)) ∧
        Spaces w ∧ a ∉ whitespace ∧ '/' ∉ junk ∧ Spaces w' ∧ b ∉ whitespace ∧
        f = ⟨charVal N a, charVal N b⟩ := by
  constructor
  · intro h
    rcases getChar_cases N text g.num with ⟨w, a, t, rfl, hw, ha, h1⟩ | ⟨-, h1⟩
    · by_cases hs : '/' ∈ t
      · obtain ⟨junk, t', rfl, hj⟩ := List.eq_append_cons_of_mem hs
        rcases getChar_cases N t' g.den with ⟨w', b, r, rfl, hw', hb, h2⟩ | ⟨-, h2⟩
        · simp only [readChar, h1, ignore_of hj, h2, Prod.mk.injEq, IStream.mk.injEq] at h
          obtain ⟨rfl, rfl, rfl, -⟩ := h
          exact ⟨rfl, w, a, junk, w', b, rfl, hw, ha, hj, hw', hb, rfl⟩
        · simp [readChar, h1, ignore_of hj, h2] at h
      · rw [readChar, h1] at h
        simp only [ignore_none hs] at h
        rw [getChar_bad (.inl rfl)] at h
        simp at h
    · rw [readChar, h1] at h
      simp only [ignore, Bool.or_self, if_true] at h
      rw [getChar_bad (.inl rfl)] at h
      simp at h
  · rintro ⟨rfl, w, a, junk, w', b, rfl, hw, ha, hj, hw', hb, rfl⟩
    simp only [readChar, getChar_of hw ha, ignore_of hj, getChar_of hw' hb]

/-- The text `" 3/ 4"` is read as 51/52, the codes of the digits. -/
example : readChar i8 ⟨" 3/ 4".toList, false, false⟩ ⟨0, 1⟩ = (⟨51, 52⟩, ⟨[], false, false⟩) ∧
    readChar i8 ⟨"12/34".toList, false, false⟩ ⟨0, 1⟩ = (⟨49, 51⟩, ⟨['4'], false, false⟩) := by
  decide +kernel

/-- **C116** A fraction that is written reads back, whatever follows it, if and only if neither
part is the code of a whitespace character (9 to 13 and 32). -/
theorem C116_round_trip_iff (hN : N.bits = 8) (hf : N.InRange f.num ∧ N.InRange f.den) :
    readChar N ⟨writeChar f ++ rest, false, false⟩ g = (f, ⟨rest, false, false⟩) ↔
      (¬ (9 ≤ f.num ∧ f.num ≤ 13) ∧ f.num ≠ 32) ∧ ¬ (9 ≤ f.den ∧ f.den ≤ 13) ∧ f.den ≠ 32 := by
  have key : ∀ v : ℤ, N.InRange v →
      (charOf v ∉ whitespace ↔ ¬ (9 ≤ v ∧ v ≤ 13) ∧ v ≠ 32) := by
    intro v hv
    have hb : -128 ≤ v ∧ v ≤ 255 := by
      obtain ⟨h1, h2⟩ := hv
      unfold NarrowTy.min at h1
      unfold NarrowTy.max at h2
      rw [hN] at *
      cases hs : N.signed <;> simp [hs] at h1 h2 <;> omega
    have hs : charOf v = ' ' ↔ (charOf v).toNat = 32 := by
      constructor
      · rintro h; rw [h]; rfl
      · intro h; apply Char.ext; apply UInt32.toNat_inj.1; exact h
    rw [mem_whitespace, isSpace, decide_eq_true_eq, hs, charOf_toNat]
    omega
  rw [← key _ hf.1, ← key _ hf.2]
  constructor
  · intro h
    obtain ⟨-, w, a, junk, w', b, ht, hw, ha, hj, hw', hb, hv⟩ := C116_success_iff.1 h
    have hl := congrArg List.length ht
    simp only [writeChar, List.length_append, List.length_cons, List.length_nil] at hl
    have e1 : w = [] := List.eq_nil_of_length_eq_zero (by omega)
    have e2 : junk = [] := List.eq_nil_of_length_eq_zero (by omega)
    have e3 : w' = [] := List.eq_nil_of_length_eq_zero (by omega)
    subst e1 e2 e3
    simp only [writeChar, List.cons_append, List.nil_append, List.cons.injEq, and_true,
      true_and] at ht
    rw [ht.1, ht.2]
    exact ⟨ha, hb⟩
  · rintro ⟨h1, h2⟩
    exact C116_success_iff.2 ⟨rfl, [], charOf f.num, [], [], charOf f.den, by simp [writeChar],
      by simp [Spaces], h1, by simp, by simp [Spaces], h2, by
        rw [charVal_charOf hN hf.1, charVal_charOf hN hf.2]⟩

/-- 5/7 reads back, 32/5 and 1/10 do not. -/
example : i8.bits = 8 ∧
    readChar i8 ⟨writeChar ⟨5, 7⟩, false, false⟩ ⟨0, 1⟩ = (⟨5, 7⟩, ⟨[], false, false⟩) ∧
    (readChar i8 ⟨writeChar ⟨32, 5⟩, false, false⟩ ⟨0, 1⟩).2.fail = true ∧
    (readChar i8 ⟨writeChar ⟨1, 10⟩, false, false⟩ ⟨0, 1⟩).2.fail = true := by decide +kernel

/-- **C116** (negation of C48 for 8-bit representations)  The text is never the decimal one: no
fraction is written as `n/d`. -/
theorem C116_never_decimal (hf : -128 ≤ f.num ∧ f.num ≤ 255) : writeChar f ≠ write f := by
  intro h
  have hl := congrArg List.head? h
  simp only [writeChar, write, List.head?_cons] at hl
  have hd : ∀ n : ℕ, n < 10 → digits n = [Char.ofNat (48 + n)] := fun n hn => by
    rw [digits, if_pos hn]
  have hlen : (showInt f.num).length = 1 := by
    have := congrArg List.length h
    have h2 : ∀ n : ℕ, 1 ≤ (digits n).length := fun n => by
      rw [digits]; split <;> simp
    have h3 : ∀ v : ℤ, 1 ≤ (showInt v).length := fun v => by
      rw [showInt]; split
      · simp
      · exact h2 _
    have := h3 f.num
    have := h3 f.den
    simp only [writeChar, write, List.length_cons, List.length_nil, List.length_append] at *
    omega
  have hn : ¬ f.num < 0 := fun hneg => by
    rw [showInt, if_pos hneg] at hlen
    have : 1 ≤ (digits f.num.natAbs).length := by rw [digits]; split <;> simp
    simp only [List.length_cons] at hlen
    omega
  rw [showInt, if_neg hn] at hlen hl
  have hlt : f.num.natAbs < 10 := by
    by_contra hc
    rw [digits, if_neg hc] at hlen
    have : 1 ≤ (digits (f.num.natAbs / 10)).length := by rw [digits]; split <;> simp
    simp only [List.length_append, List.length_cons, List.length_nil] at hlen
    omega
  rw [hd _ hlt] at hl
  simp only [List.cons_append, List.head?_cons, Option.some.injEq] at hl
  have := congrArg Char.toNat hl
  rw [charOf_toNat] at this
  have h48 : (Char.ofNat (48 + f.num.natAbs)).toNat = 48 + f.num.natAbs := by
    interval_cases f.num.natAbs <;> rfl
  omega

example : writeChar ⟨51, 52⟩ = "3/4".toList ∧ write ⟨51, 52⟩ = "51/52".toList := by decide +kernel

end Ieme
