import Verif.Lemmas.StreamFmt
import Verif.Spec.StreamText

/-!
# The text of a formatted integer: property C98, continued
-/

namespace Ieme

open IntTy Ieme.Stream

variable {T : IntTy} {fl : Flags} {v : ℤ} {width : ℕ}

/-- **C98** The text of an integer is its sign, its prefix and its digits without leading zeros, each
exactly as the flags ask; padding fills up to the width at the place the flags ask for. -/
theorem C98_text_exact (fl : Flags) (width : ℕ) (T : IntTy) (v : ℤ) : ∃ n sign pre ds,
    fl.Shows T v n ∧ fl.IsSign T v sign ∧ fl.IsPrefix n pre ∧ fl.IsDigits n ds ∧
    put fl 0 T v = sign ++ pre ++ ds ∧
    ∃ pad, (∀ c ∈ pad, c = fl.fill) ∧ pad.length = width - (put fl 0 T v).length ∧
      (fl.adjust = .left → put fl width T v = put fl 0 T v ++ pad) ∧
      (fl.adjust = .right → put fl width T v = pad ++ put fl 0 T v) ∧
      (fl.adjust = .internal → sign ≠ [] ∨ fl.base = .hex →
        put fl width T v = sign ++ pre ++ pad ++ ds) ∧
      (fl.adjust = .internal → sign = [] → fl.base ≠ .hex →
        put fl width T v = pad ++ put fl 0 T v) := by
  have pads : ∀ sign pre ds, parts fl T v = (sign, pre, ds) →
      put fl 0 T v = sign ++ pre ++ ds ∧
      ∃ pad, (∀ c ∈ pad, c = fl.fill) ∧ pad.length = width - (put fl 0 T v).length ∧
      (fl.adjust = .left → put fl width T v = put fl 0 T v ++ pad) ∧
      (fl.adjust = .right → put fl width T v = pad ++ put fl 0 T v) ∧
      (fl.adjust = .internal → sign ≠ [] ∨ fl.base = .hex →
        put fl width T v = sign ++ pre ++ pad ++ ds) ∧
      (fl.adjust = .internal → sign = [] → fl.base ≠ .hex →
        put fl width T v = pad ++ put fl 0 T v) := by
    intro sign pre ds hp
    have h0 : put fl 0 T v = sign ++ pre ++ ds := by
      rw [put_zero]; simp [plain, hp]
    refine ⟨h0, List.replicate (width - (put fl 0 T v).length) fl.fill,
      fun c hc => List.eq_of_mem_replicate hc, List.length_replicate, ?_, ?_, ?_, ?_⟩
    · intro ha; rw [h0]; simp [put, hp, ha]
    · intro ha; rw [h0]; simp [put, hp, ha]
    · intro ha hi; rw [h0]; simp only [put, hp, ha, if_pos hi]
    · intro ha h1 h2; rw [h0]; simp [put, hp, ha, h1, h2]
  have nodec : fl.base = .dec ∨ fl.base = .unset → ¬ fl.NonDecimal := by
    rintro (h | h) (h' | h') <;> rw [h] at h' <;> cases h'
  have dec : fl.base = .dec ∨ fl.base = .unset →
      parts fl T v = (if v < 0 then ['-'] else if fl.showpos ∧ T.signed then ['+'] else [], [],
        digitsIn fl.base fl.uppercase v.natAbs) := by
    rintro (h | h) <;> simp [parts, h]
  have zero : ∀ b n t, digitsIn b fl.uppercase n = '0' :: t → t = [] :=
    fun b n t h => (digitsIn_zero b fl.uppercase h).2
  have cases4 : (fl.base = .dec ∨ fl.base = .unset) ∨ fl.base = .oct ∨ fl.base = .hex := by
    cases fl.base <;> simp
  rcases cases4 with hb' | hb | hb
  · obtain ⟨d1, d2, d3⟩ := digitsIn_value fl.base fl.uppercase v.natAbs
    refine ⟨v.natAbs, _, _, _, ?_, ?_, ?_, ⟨d1, zero _ _, ?_, ?_⟩, pads _ _ _ (dec hb')⟩
    · exact ⟨fun h => absurd h (nodec hb'), fun _ => Int.natCast_natAbs v⟩
    · unfold Flags.IsSign
      split
      · exact .inl ⟨nodec hb', ‹_›, rfl⟩
      · split
        · rename_i h1 h2; exact .inr (.inl ⟨nodec hb', by omega, h2.1, h2.2, rfl⟩)
        · rename_i h1 h2; exact .inr (.inr ⟨.inr ⟨by omega, h2⟩, rfl⟩)
    · exact .inr (.inr (.inr ⟨.inl (nodec hb'), rfl⟩))
    · intro c hc
      have := digitsIn_dec_mem hb' _ _ c hc
      rcases hb' with h | h <;> simpa [Flags.digitSet, h] using this
    · rcases hb' with h | h <;> simpa [Flags.radix, h, Base.outRadix] using d3
  · obtain ⟨d1, d2, d3⟩ := digitsIn_value .oct fl.uppercase (asUnsigned T v)
    refine ⟨asUnsigned T v, _, _, _, ?_, ?_, ?_, ⟨d1, zero _ _, ?_, ?_⟩,
      pads [] (if fl.showbase ∧ asUnsigned T v ≠ 0 then ['0'] else []) _ (by simp [parts, hb])⟩
    · exact ⟨fun _ => asUnsigned_cast T v, fun h => absurd (.inl hb) h⟩
    · exact .inr (.inr ⟨.inl (.inl hb), rfl⟩)
    · unfold Flags.IsPrefix
      split
      · rename_i h; exact .inl ⟨hb, h.1, h.2, rfl⟩
      · rename_i h
        refine .inr (.inr (.inr ⟨.inr ?_, rfl⟩))
        by_contra hc; push Not at hc; exact h ⟨by simpa using hc.1, hc.2⟩
    · intro c hc
      obtain ⟨h1, h2, h3⟩ := digitsIn_oct_mem _ _ c hc
      simp only [Flags.digitSet, hb]
      simp only [Lit.decDigits, List.mem_cons, List.not_mem_nil, or_false] at h1 ⊢
      tauto
    · simpa [Flags.radix, hb, Base.outRadix] using d3
  · obtain ⟨d1, d2, d3⟩ := digitsIn_value .hex fl.uppercase (asUnsigned T v)
    refine ⟨asUnsigned T v, _, _, _, ?_, ?_, ?_, ⟨d1, zero _ _, ?_, ?_⟩,
      pads [] (if fl.showbase ∧ asUnsigned T v ≠ 0 then
        ['0', if fl.uppercase then 'X' else 'x'] else []) _ (by simp [parts, hb])⟩
    · exact ⟨fun _ => asUnsigned_cast T v, fun h => absurd (.inr hb) h⟩
    · exact .inr (.inr ⟨.inl (.inr hb), rfl⟩)
    · unfold Flags.IsPrefix
      split
      · rename_i h
        cases hu : fl.uppercase
        · exact .inr (.inr (.inl ⟨hb, h.1, h.2, rfl, rfl⟩))
        · exact .inr (.inl ⟨hb, h.1, h.2, rfl, rfl⟩)
      · rename_i h
        refine .inr (.inr (.inr ⟨.inr ?_, rfl⟩))
        by_contra hc; push Not at hc; exact h ⟨by simpa using hc.1, hc.2⟩
    · intro c hc
      have := digitsIn_upper_mem _ _ c hc
      simpa [Flags.digitSet, hb] using this
    · simpa [Flags.radix, hb, Base.outRadix] using d3

example : put { base := .hex, showbase := true, uppercase := true, adjust := .internal, fill := '*' } 8
      i32 (-300) = "0XFFFFFED4".toList ∧
    put { base := .hex, showbase := true, adjust := .internal, fill := '*' } 8 i32 300 =
      "0x***12c".toList ∧
    put { showpos := true, adjust := .internal, fill := '*' } 6 i32 42 = "+***42".toList ∧
    put { base := .oct, showbase := true, adjust := .left } 6 u32 42 = "052   ".toList := by
  refine ⟨by decide +kernel, by decide +kernel, by decide +kernel, by decide +kernel⟩

end Ieme
