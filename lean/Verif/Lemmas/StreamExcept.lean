import Verif.Lemmas.StreamFmt
import Verif.Model.StreamExcept

/-!
# Lemmas about streams with exceptions
-/

namespace Ieme.Stream

variable {T : IntTy} {fl : Flags} {m : Mask} {s : IStream} {v : Raw} {old : ℤ}

theorem getIntF_sticky : (s.eof = true → (getIntF fl T s old).2.eof = true) ∧
    (s.fail = true → (getIntF fl T s old).2.fail = true) := by
  refine ⟨fun h => ?_, fun h => ?_⟩ <;> simp [getIntF, h]

theorem ignore_sticky {c : Char} : (s.eof = true → (ignore s c).eof = true) ∧
    (s.fail = true → (ignore s c).fail = true) := by
  refine ⟨fun h => ?_, fun h => ?_⟩ <;> simp [ignore, h]

theorem Mask.hits_mono {s s' : IStream} (h1 : s.eof = true → s'.eof = true)
    (h2 : s.fail = true → s'.fail = true) (h : m.hits s = true) : m.hits s' = true := by
  simp only [Mask.hits, Bool.or_eq_true, Bool.and_eq_true] at h ⊢
  rcases h with ⟨a, b⟩ | ⟨a, b⟩
  · exact .inl ⟨a, h1 b⟩
  · exact .inr ⟨a, h2 b⟩

/-- Extraction in one piece: state bits stay set, so only the final state counts. -/
theorem readX_eq : readX m fl T s v =
    if m.hits (readF fl T s v).2 then .terminated else .returned (readF fl T s v) := by
  simp only [readX, getIntX, ignoreX, readF]
  have k1 := ignore_sticky (s := (getIntF fl T s v.num).2) (c := '/')
  have k2 := getIntF_sticky (fl := fl) (T := T) (s := ignore (getIntF fl T s v.num).2 '/')
    (old := v.den)
  by_cases h1 : m.hits (getIntF fl T s v.num).2 = true
  · have h3 := Mask.hits_mono (m := m) k2.1 k2.2 (Mask.hits_mono k1.1 k1.2 h1)
    simp [h1, h3, Call.andThen, Call.noexcept]
  · by_cases h2 : m.hits (ignore (getIntF fl T s v.num).2 '/') = true
    · have h3 := Mask.hits_mono (m := m) k2.1 k2.2 h2
      simp [h1, h2, h3, Call.andThen, Call.noexcept]
    · by_cases h3 : m.hits (getIntF fl T (ignore (getIntF fl T s v.num).2 '/') v.den).2 = true <;>
        simp [h1, h2, h3, Call.andThen, Call.noexcept]

theorem length_dropWhile_le' (p : Char → Bool) (l : List Char) : (l.dropWhile p).length ≤ l.length :=
  (List.dropWhile_suffix p).length_le

theorem length_splitSign (l : List Char) : (splitSign l).2.length ≤ l.length := by
  unfold splitSign
  split <;> simp

theorem length_splitBase (b : Base) (l : List Char) : (splitBase b l).2.length ≤ l.length := by
  unfold splitBase
  split <;> (try split) <;> simp <;> omega

/-- Integer extraction takes no characters back, and takes at least one if it succeeds. -/
theorem getIntF_length : (getIntF fl T s old).2.rest.length ≤ s.rest.length ∧
    ((getIntF fl T s old).2.fail = false →
      (getIntF fl T s old).2.rest.length < s.rest.length) := by
  unfold getIntF
  split
  · simp
  · dsimp only
    have hr : (if fl.skipws then s.rest.dropWhile isSpace else s.rest).length ≤ s.rest.length := by
      split
      · exact length_dropWhile_le' _ _
      · exact le_rfl
    generalize (if fl.skipws then s.rest.dropWhile isSpace else s.rest) = r at hr
    split
    · simp
    · have h1 := length_splitSign r
      have h2 := length_splitBase fl.base (splitSign r).2
      generalize splitBase fl.base (splitSign r).2 = q at h2
      have h3 := length_dropWhile_le' (isDigitIn q.1) q.2
      have h4 : (q.2.takeWhile (isDigitIn q.1)).length + (q.2.dropWhile (isDigitIn q.1)).length =
          q.2.length := by
        rw [← List.length_append, List.takeWhile_append_dropWhile]
      split
      · refine ⟨?_, by simp⟩
        dsimp only
        omega
      · rename_i hds
        have h5 : 0 < (q.2.takeWhile (isDigitIn q.1)).length := by
          rw [List.length_pos_iff]
          simpa using hds
        dsimp only
        omega

theorem length_ignore (c : Char) : (ignore s c).rest.length ≤ s.rest.length := by
  unfold ignore
  split
  · exact le_rfl
  · have := length_dropWhile_le' (· ≠ c) s.rest
    split <;> rename_i h
    · simp
    · rw [h] at this
      simp at this ⊢
      omega

theorem readF_length (h : (readF fl T s v).2.fail = false) :
    (readF fl T s v).2.rest.length < s.rest.length := by
  have h1 := (getIntF_length (fl := fl) (T := T) (s := s) (old := v.num)).1
  have h2 := length_ignore (s := (getIntF fl T s v.num).2) '/'
  have h3 := (getIntF_length (fl := fl) (T := T) (s := ignore (getIntF fl T s v.num).2 '/')
    (old := v.den)).2 h
  simp only [readF]
  omega

end Ieme.Stream
