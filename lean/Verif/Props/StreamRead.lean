import Verif.Lemmas.StreamRead

/-!
# Extraction with formatting flags: property C102
-/

namespace Ieme

open Stream

variable {T : IntTy} {fl : Flags} {n d old : ℤ} {f g : Raw} {text rest : List Char}

/-- **C102** Exactly when `stream >> value` succeeds for an integer under any formatting flags, and
what is read and left. -/
theorem C102_integer_iff {v : ℤ} {e : Bool} :
    getIntF fl T ⟨text, false, false⟩ old = (v, ⟨rest, e, false⟩) ↔
      e = rest.isEmpty ∧ ∃ n, LeadingIntF fl text n rest ∧ Accepted T n ∧ v = received T n := by
  constructor
  · intro h
    rcases getIntF_cases fl T text old with ⟨n, rest', h1, h2, h3⟩ | ⟨-, hf⟩
    · rw [h] at h3
      obtain ⟨rfl, h5⟩ := Prod.mk.inj h3
      obtain ⟨rfl, rfl, -⟩ := IStream.mk.inj h5
      exact ⟨rfl, n, h1, h2, rfl⟩
    · rw [h] at hf; cases hf
  · rintro ⟨rfl, n, h1, h2, rfl⟩
    rw [getIntF_leading h1]
    simp [h2]

/-- Hexadecimal with a mark, a plus sign and both letter cases; octal by a leading zero, which ends
at the digit nine. -/
example :
    getIntF { base := .hex } i32 ⟨" +0XfF/2".toList, false, false⟩ 7 =
      (255, ⟨"/2".toList, false, false⟩) ∧
    getIntF { base := .unset } i32 ⟨"-0179".toList, false, false⟩ 7 =
      (-15, ⟨['9'], false, false⟩) := by decide +kernel

/-- **C102** Exactly when extraction of a fraction succeeds under any formatting flags, and what is
read and left: an integer, something without a slash, a slash, an integer, each as the flags allow
and accepted by the type. -/
theorem C102_success_iff {e : Bool} :
    readF fl T ⟨text, false, false⟩ g = (f, ⟨rest, e, false⟩) ↔
      e = rest.isEmpty ∧ ∃ n d, IsFractionF fl text n d rest ∧ Accepted T n ∧ Accepted T d ∧
        f = ⟨received T n, received T d⟩ := by
  constructor
  · intro h
    rcases readF_cases fl T text g with ⟨n, d, rest', h1, h2, h3, h4⟩ | ⟨-, hf⟩
    · rw [h] at h4
      obtain ⟨rfl, h5⟩ := Prod.mk.inj h4
      obtain ⟨rfl, rfl, -⟩ := IStream.mk.inj h5
      exact ⟨rfl, n, d, h1, h2, h3, rfl⟩
    · rw [h] at hf; cases hf
  · rintro ⟨rfl, n, d, h1, h2, h3, rfl⟩
    exact readF_isFraction h1 h2 h3

/-- Each part decides about its base when no base flag is set. -/
example : IsFractionF { base := .unset } "0x1F/010 rest".toList 31 8 " rest".toList := by
  obtain ⟨-, n, d, h, ⟨h1, h2⟩, ⟨h3, h4⟩, h5⟩ := C102_success_iff.1
    (show readF { base := .unset } i64 ⟨"0x1F/010 rest".toList, false, false⟩ ⟨0, 1⟩ =
      (⟨31, 8⟩, ⟨" rest".toList, false, false⟩) by decide +kernel)
  have e1 : n = 31 := by
    have := (Raw.mk.inj h5).1
    simp only [received] at this
    change (31 : ℤ) = max i64.min (min n i64.max) at this
    omega
  have e2 : d = 8 := by
    have := (Raw.mk.inj h5).2
    change (8 : ℤ) = max i64.min (min d i64.max) at this
    omega
  rw [← e1, ← e2]
  exact h

/-- **C102** Exactly when extraction fails under any formatting flags, and what the target holds
then. -/
theorem C102_failure_iff :
    ((readF fl T ⟨text, false, false⟩ g).1 = ⟨n, d⟩ ∧
      (readF fl T ⟨text, false, false⟩ g).2.fail = true) ↔
    FractionFailureF fl T g.num g.den text n d := by
  refine ⟨fun ⟨h, hf⟩ => ?_, readF_failure⟩
  rcases readF_cases fl T text g with ⟨_, _, rest, -, -, -, h4⟩ | ⟨h', -⟩
  · rw [h4] at hf; cases hf
  · rwa [h] at h'

/-- A mark without digits; whitespace that is not skipped, which clears the numerator; a number
without octal digits. -/
example : FractionFailureF { base := .hex } i32 5 7 "0x/3".toList 0 7 ∧
    FractionFailureF { skipws := false } i32 5 7 " 1/3".toList 0 7 ∧
    FractionFailureF { base := .oct } i32 5 7 "1/8".toList 1 0 := by
  refine ⟨?_, ?_, ?_⟩
  · rw [← C102_failure_iff (g := ⟨5, 7⟩)]; decide +kernel
  · rw [← C102_failure_iff (g := ⟨5, 7⟩)]; decide +kernel
  · rw [← C102_failure_iff (g := ⟨5, 7⟩)]; decide +kernel

/-- **C102** What a text denotes and how far it is read are determined by the flags: they do not
depend on the type or on the target. -/
theorem C102_unambiguous {m : ℤ} {rest' : List Char} (h : LeadingIntF fl text n rest)
    (h' : LeadingIntF fl text m rest') : n = m ∧ rest = rest' := h.unique h'

example : LeadingIntF { base := .hex } "ag".toList 10 ['g'] :=
  ⟨[], [], [], ['a'], 16, rfl, by simp [Spaces], .inr rfl, .inl rfl,
    .hex rfl (by rintro p t (rfl | rfl) e <;> simp at e), by simp, by decide, by
      intro c t e; obtain ⟨rfl, -⟩ := List.cons.inj e; decide, by decide⟩

/-- **C102** With the default formatting this is the grammar of C49. -/
theorem C102_default (hb : fl.base = .dec) (hs : fl.skipws = true) :
    LeadingIntF fl text n rest ↔ LeadingInt text n rest := by
  constructor
  · rintro ⟨w, sign, pre, ds, r, rfl, hw, -, hsg, hrd, h0, h1, h2, rfl⟩
    have hrp : r = 10 ∧ pre = [] := by
      generalize ds ++ rest = body at hrd
      cases hrd <;> simp_all
    obtain ⟨rfl, rfl⟩ := hrp
    refine ⟨w, sign ++ ds, by simp, hw, ?_, h2⟩
    rcases hsg with rfl | rfl | rfl
    · exact .bare h0 h1
    · exact .plus h0 h1
    · exact .minus h0 h1
  · rintro ⟨w, a, rfl, hw, ha, hr⟩
    cases ha with
    | bare h0 h1 =>
      exact ⟨w, [], [], a, 10, by simp, hw, .inl hs, .inl rfl, .dec hb, h0, h1, hr, by simp⟩
    | plus h0 h1 =>
      exact ⟨w, ['+'], [], _, 10, by simp, hw, .inl hs, .inr (.inl rfl), .dec hb, h0, h1, hr,
        by simp⟩
    | minus h0 h1 =>
      exact ⟨w, ['-'], [], _, 10, by simp, hw, .inl hs, .inr (.inr rfl), .dec hb, h0, h1, hr,
        by simp⟩

example : LeadingIntF {} " -12/5".toList (-12) "/5".toList :=
  (C102_default rfl rfl).2 ⟨[' '], ['-', '1', '2'], rfl, by unfold Spaces; decide,
    .minus (by simp) (by decide), by
      intro c t e; obtain ⟨rfl, -⟩ := List.cons.inj e; decide⟩

end Ieme
