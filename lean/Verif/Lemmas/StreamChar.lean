import Verif.Model.StreamChar
import Verif.Lemmas.Stream
import Mathlib.Data.List.TakeWhile

/-!
# Reading and writing characters
-/

namespace Ieme.Stream

variable {N : NarrowTy} {v old : ℤ} {c : Char} {t rest : List Char}

theorem charOf_toNat (v : ℤ) : (charOf v).toNat = (v % 256).toNat := by
  have h1 : (v % 256).toNat < 256 := by omega
  have h2 : (v % 256).toNat.isValidChar := by left; omega
  rw [charOf, Char.ofNat, dif_pos h2]
  rfl

theorem charVal_charOf (hN : N.bits = 8) (hv : N.InRange v) : charVal N (charOf v) = v := by
  rw [charVal, charOf_toNat]
  obtain ⟨h1, h2⟩ := hv
  unfold NarrowTy.min at h1
  unfold NarrowTy.max at h2
  unfold NarrowTy.wrap
  rw [hN] at *
  cases hs : N.signed <;> simp [hs] at h1 h2 ⊢
  · omega
  · rw [Int.bmod_def]
    split <;> omega

theorem getChar_cons (hc : isSpace c = false) :
    getChar N ⟨c :: t, false, false⟩ old = (charVal N c, ⟨t, false, false⟩) := by
  simp [getChar, hc]

theorem getChar_cases (N : NarrowTy) (text : List Char) (old : ℤ) :
    (∃ w c t, text = w ++ c :: t ∧ Spaces w ∧ c ∉ whitespace ∧
      getChar N ⟨text, false, false⟩ old = (charVal N c, ⟨t, false, false⟩)) ∨
    (Spaces text ∧ getChar N ⟨text, false, false⟩ old = (old, ⟨[], true, true⟩)) := by
  cases h : text.dropWhile isSpace with
  | nil =>
    right
    refine ⟨fun c hc => mem_whitespace.2 (List.dropWhile_eq_nil_iff.1 h c hc), by
      simp [getChar, h]⟩
  | cons c t =>
    left
    refine ⟨text.takeWhile isSpace, c, t, ?_, fun c hc => mem_whitespace.2 (takeWhile_all c hc), ?_, by
      simp [getChar, h]⟩
    · rw [← h, List.takeWhile_append_dropWhile]
    · rw [mem_whitespace]
      have := List.head_dropWhile_not isSpace (l := text) (by simp [h])
      simp only [h, List.head_cons] at this
      simp [this]

theorem getChar_of {w : List Char} (hw : Spaces w) (hc : c ∉ whitespace) :
    getChar N ⟨w ++ c :: t, false, false⟩ old = (charVal N c, ⟨t, false, false⟩) := by
  have : (w ++ c :: t).dropWhile isSpace = c :: t :=
    dropWhile_append_of hw.isSpace fun c' t' e => by
      obtain ⟨rfl, -⟩ := List.cons.inj e
      rw [mem_whitespace] at hc; simpa using hc
  simp [getChar, this]

theorem getChar_bad {s : IStream} (h : s.eof = true ∨ s.fail = true) :
    getChar N s old = (old, { s with fail := true }) := by
  have : (s.eof || s.fail) = true := by simpa using h
  simp [getChar, this]

theorem ignore_of {junk : List Char} (hj : '/' ∉ junk) :
    ignore ⟨junk ++ '/' :: t, false, false⟩ '/' = ⟨t, false, false⟩ := by
  have : (junk ++ '/' :: t).dropWhile (· ≠ '/') = '/' :: t := by
    refine dropWhile_append_of (p := (· ≠ '/')) (fun c hc => ?_) fun c t e => ?_
    · have : c ≠ '/' := fun e => hj (e ▸ hc)
      simpa using this
    · obtain ⟨rfl, -⟩ := List.cons.inj e
      decide
  simp only [ignore, Bool.or_self, this]
  rfl

theorem ignore_none (hj : '/' ∉ t) : ignore ⟨t, false, false⟩ '/' = ⟨[], true, false⟩ := by
  have : t.dropWhile (· ≠ '/') = [] := List.dropWhile_eq_nil_iff.2 fun c hc => by
    have : c ≠ '/' := fun e => hj (e ▸ hc)
    simpa using this
  simp only [ignore, Bool.or_self, this]
  rfl

end Ieme.Stream
