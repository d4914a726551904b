import Verif.Lemmas.MixedNumber
import Verif.Props.RoundExact

/-!
# Exactly when mixed-number operations finish, and with which parts: property C93
-/

namespace Ieme

open Res IntTy

variable {W F S : IntTy} {o : Ops} {m m' : Mixed} {f r : Raw} {x : ℚ} {n w : ℤ}

theorem Raw.isImproper_iff {i : Bool} (hf : f.InRange F) : f.isImproper F ⇓ i ↔
    f.AbsInRange F ∧ i = !decide (|f.num| < |f.den|) := by
  simp only [Raw.isImproper, Raw.isProper, bind_eq_clean, pure_eq_ok, and_true,
    mathAbs_eq_ok hf.1, mathAbs_eq_ok hf.2, Int.abs_eq_natAbs, Raw.AbsInRange]
  constructor
  · rintro ⟨p, ⟨n, ⟨h1, rfl⟩, d, ⟨h2, rfl⟩, rfl⟩, rfl⟩
    exact ⟨⟨h1, h2⟩, rfl⟩
  · rintro ⟨⟨h1, h2⟩, rfl⟩
    exact ⟨_, ⟨_, ⟨h1, rfl⟩, _, ⟨h2, rfl⟩, rfl⟩, rfl⟩

theorem Raw.AbsInRange.not_min (hf : f.AbsInRange F) (hr : f.InRange F) :
    ¬ f.MinOverMinusOne F := by
  rintro ⟨h1, h2⟩
  have h3 := hr.2
  rw [h2] at h3
  have hs : F.signed = true := by
    cases hs : F.signed
    · have := h3.nonneg hs; omega
    · rfl
  have h4 := min_signed hs
  have h5 := F.max_ge
  have h6 := hf.1.2
  rw [h1] at h6
  omega

/-- **C93** Exactly when a mixed number is constructed from a whole part and a defined fraction
without overflow, and with which parts.  The absolute values of the parts of the fraction must
be representable.  An improper fraction is reduced by its truncated value, which moves to the
whole part and must fit there.  Afterwards, if whole part and fraction have different signs,
one is moved from the whole part to the fraction. -/
theorem C93_construct_iff (hw : W.InRange w) (hf : f.InRange F) (hx : Denotes f x) :
    Mixed.mk' W F o w f ⇓ m ↔ f.AbsInRange F ∧ ∃ w₁ f₁,
      (if |x| < 1 then w₁ = w ∧ f₁ = f
        else W.InRange (ratTrunc x) ∧ W.InRange (w + ratTrunc x) ∧ w₁ = w + ratTrunc x ∧
          o.arith F .minus (.fr f (ratTrunc x)) ⇓ f₁) ∧
      (if 0 < w₁ ∧ w + x < w₁ then m.whole = w₁ - 1 ∧ o.arith F .plus (.rf 1 f₁) ⇓ m.frac
        else if w₁ < 0 ∧ w₁ < w + x then
          F.signed = true ∧ m.whole = w₁ + 1 ∧ o.arith F .plus (.rf (-1) f₁) ⇓ m.frac
        else m = ⟨w₁, f₁⟩) := by
  have h1 : F.InRange (-1) ↔ F.signed = true := by
    constructor
    · intro h
      cases hs : F.signed
      · have := h.nonneg hs; omega
      · rfl
    · intro hs
      have := min_signed hs
      have := F.max_ge
      constructor <;> omega
  -- the second step
  have step2 : ∀ {w₁ : ℤ} {f₁ : Raw}, W.InRange w₁ → Denotes f₁ (w + x - w₁) →
      ((⟨w₁, f₁⟩ : Mixed).fixSigns W F o ⇓ m ↔
        if 0 < w₁ ∧ w + x < w₁ then m.whole = w₁ - 1 ∧ o.arith F .plus (.rf 1 f₁) ⇓ m.frac
        else if w₁ < 0 ∧ w₁ < w + x then
          F.signed = true ∧ m.whole = w₁ + 1 ∧ o.arith F .plus (.rf (-1) f₁) ⇓ m.frac
        else m = ⟨w₁, f₁⟩) := by
    intro w₁ f₁ hw₁ hx₁
    have hneg : f₁.isNegative = true ↔ (w : ℚ) + x < w₁ := by rw [isNegative_iff hx₁, sub_neg]
    have hpos : f₁.isPositive = true ↔ (w₁ : ℚ) < w + x := by rw [isPositive_iff hx₁, sub_pos]
    simp only [Mixed.fixSigns, hneg, hpos, gt_iff_lt]
    have hlo := hw₁.1
    have hhi := hw₁.2
    split
    · rename_i h
      have hr : W.InRange (w₁ - 1) := by
        have := W.min_le_zero
        constructor <;> omega
      simp only [bind_eq_clean, pure_eq_ok, and_true, sub_clean, Fraction.arith_self]
      constructor
      · rintro ⟨_, ⟨-, rfl⟩, g, hg, rfl⟩
        exact ⟨rfl, hg⟩
      · rintro ⟨h2, hg⟩
        exact ⟨_, ⟨hr, rfl⟩, _, hg, by rw [← h2]⟩
    · split
      · rename_i h
        have hr : W.InRange (w₁ + 1) := by
          have := W.max_ge
          constructor <;> omega
        simp only [bind_eq_clean, pure_eq_ok, and_true, add_clean, neg_clean, Fraction.arith_self, h1]
        constructor
        · rintro ⟨_, ⟨-, rfl⟩, _, ⟨hs, rfl⟩, g, hg, rfl⟩
          exact ⟨hs, rfl, hg⟩
        · rintro ⟨hs, h2, hg⟩
          exact ⟨_, ⟨hr, rfl⟩, _, ⟨hs, rfl⟩, _, hg, by rw [← h2]⟩
      · simp only [pure_eq_ok, and_true]
        exact eq_comm
  -- the first step
  have step1 : ∀ {m₁ : Mixed}, (⟨w, f⟩ : Mixed).fixImproper W F o ⇓ m₁ ↔ f.AbsInRange F ∧
      if |x| < 1 then m₁ = ⟨w, f⟩
      else W.InRange (ratTrunc x) ∧ W.InRange (w + ratTrunc x) ∧ m₁.whole = w + ratTrunc x ∧
          o.arith F .minus (.fr f (ratTrunc x)) ⇓ m₁.frac := by
    intro m₁
    have hi := Raw.abs_lt_iff hx
    simp only [Mixed.fixImproper, bind_eq_clean, Raw.isImproper_iff hf]
    constructor
    · rintro ⟨i, ⟨ha, rfl⟩, h⟩
      refine ⟨ha, ?_⟩
      by_cases hp : |x| < 1
      · rw [if_pos hp]
        rw [hi] at hp
        simp only [hp, decide_true, Bool.not_true, Bool.false_eq_true, if_false, pure_eq_ok,
          and_true] at h
        exact h.symm
      · rw [if_neg hp]
        rw [hi] at hp
        simp only [hp, decide_false, Bool.not_false, if_true, bind_eq_clean, pure_eq_ok, and_true,
          conv_clean, add_clean, Fraction.assignR, Fraction.arith_self] at h
        obtain ⟨t, ht, _, ⟨h2, rfl⟩, _, ⟨h3, rfl⟩, g, hg, rfl⟩ := h
        obtain ⟨-, rfl⟩ := (C92_trunc_iff hf hx).1 ht
        exact ⟨h2, h3, rfl, hg⟩
    · rintro ⟨ha, h⟩
      refine ⟨_, ⟨ha, rfl⟩, ?_⟩
      by_cases hp : |x| < 1
      · rw [if_pos hp] at h
        rw [hi] at hp
        simp only [hp, decide_true, Bool.not_true, Bool.false_eq_true, if_false, pure_eq_ok,
          and_true]
        exact h.symm
      · rw [if_neg hp] at h
        rw [hi] at hp
        simp only [hp, decide_false, Bool.not_false, if_true, bind_eq_clean, pure_eq_ok, and_true,
          conv_clean, add_clean, Fraction.assignR, Fraction.arith_self]
        obtain ⟨h2, h3, h4, hg⟩ := h
        exact ⟨_, (C92_trunc_iff hf hx).2 ⟨ha.not_min hf, rfl⟩, _, ⟨h2, rfl⟩, _, ⟨h3, rfl⟩, _, hg,
          by rw [← h4]⟩
  -- what the first step leaves
  have val : ∀ {m₁ : Mixed}, (if |x| < 1 then m₁ = ⟨w, f⟩
      else W.InRange (ratTrunc x) ∧ W.InRange (w + ratTrunc x) ∧ m₁.whole = w + ratTrunc x ∧
          o.arith F .minus (.fr f (ratTrunc x)) ⇓ m₁.frac) →
      W.InRange m₁.whole ∧ Denotes m₁.frac (w + x - m₁.whole) := by
    intro m₁ h
    split at h
    · subst h
      exact ⟨hw, by simpa using hx⟩
    · obtain ⟨-, h3, h4, hg⟩ := h
      rw [h4]
      refine ⟨h3, ?_⟩
      have : Denotes m₁.frac (x - ratTrunc x) :=
        Ops.arith_exact (a := .fr f (ratTrunc x)) ⟨hx, rfl⟩ hg
      have e : (w : ℚ) + x - (w + ratTrunc x : ℤ) = x - ratTrunc x := by push_cast; ring
      rwa [e]
  simp only [Mixed.mk', Mixed.fix, bind_eq_clean]
  constructor
  · rintro ⟨m₁, h2, h3⟩
    obtain ⟨ha, h2⟩ := step1.1 h2
    obtain ⟨hw₁, hx₁⟩ := val h2
    refine ⟨ha, m₁.whole, m₁.frac, ?_, (step2 hw₁ hx₁).1 h3⟩
    split at h2 <;> rename_i hp
    · rw [if_pos hp, h2]; exact ⟨rfl, rfl⟩
    · rw [if_neg hp]; exact h2
  · rintro ⟨ha, w₁, f₁, h2, h3⟩
    have h2' : if |x| < 1 then (⟨w₁, f₁⟩ : Mixed) = ⟨w, f⟩
      else W.InRange (ratTrunc x) ∧ W.InRange (w + ratTrunc x) ∧ w₁ = w + ratTrunc x ∧
          o.arith F .minus (.fr f (ratTrunc x)) ⇓ f₁ := by
      split at h2 <;> rename_i hp
      · rw [if_pos hp, h2.1, h2.2]
      · rw [if_neg hp]; exact h2
    obtain ⟨hw₁, hx₁⟩ := val (m₁ := ⟨w₁, f₁⟩) h2'
    exact ⟨⟨w₁, f₁⟩, step1.2 ⟨ha, h2'⟩, (step2 hw₁ hx₁).2 h3⟩

example : Mixed.mk' i32 i32 .defaults 3 ⟨-7, 2⟩ ⇓ ⟨0, ⟨-1, 2⟩⟩ ∧
    Mixed.mk' i32 i32 .defaults 5 ⟨-7, 2⟩ ⇓ ⟨1, ⟨1, 2⟩⟩ ∧
    Mixed.mk' i32 i64 .defaults 2147483647 ⟨3, 2⟩ = .fault .overflow ∧
    Mixed.mk' i32 i32 .fast 1 ⟨-2147483648, 3⟩ = .fault .overflow := by decide +kernel

/-- **C93** Exactly when a mixed number is made from a fraction without overflow, and with
which parts. -/
theorem C93_from_fraction_iff (hf : f.InRange S) (hx : Denotes f x) :
    Mixed.ofFraction W F o S f ⇓ m ↔ ¬ f.MinOverMinusOne S ∧ W.InRange (ratTrunc x) ∧
      m.whole = ratTrunc x ∧ o.arith S .minus (.fr f (ratTrunc x)) ⇓ m.frac ∧
      m.frac.InRange F := by
  simp only [Mixed.ofFraction, bind_eq_clean, pure_eq_ok, and_true, C92_trunc_iff hf hx, conv_clean,
    Fraction.arith_self, Fraction.ofOther, Raw.conv_clean]
  constructor
  · rintro ⟨_, ⟨h1, rfl⟩, _, ⟨h2, rfl⟩, _, ⟨h3, rfl⟩, g, hg, _, ⟨h4, rfl⟩, rfl⟩
    exact ⟨h1, h2, rfl, hg, h4⟩
  · rintro ⟨h1, h2, h3, hg, h4⟩
    have h5 : S.InRange (ratTrunc x) :=
      Fraction.trunc_all _ _ ((C92_trunc_iff hf hx).2 ⟨h1, rfl⟩)
    exact ⟨_, ⟨h1, rfl⟩, _, ⟨h2, rfl⟩, _, ⟨h5, rfl⟩, _, hg, _, ⟨h4, rfl⟩, by rw [← h3]⟩

example : Mixed.ofFraction i32 i64 .defaults i64 ⟨-7, 2⟩ ⇓ ⟨-3, ⟨-1, 2⟩⟩ ∧
    Mixed.ofFraction i32 i64 .safe i64 ⟨-6, 4⟩ ⇓ ⟨-1, ⟨-2, 4⟩⟩ := by decide +kernel

/-- **C93** Exactly when a mixed number is converted to a fraction without overflow: the parts
must fit the common type, and there the addition must finish. -/
theorem C93_as_fraction_iff : m.asFraction W F o ⇓ r ↔
    (IntTy.common W F).InRange m.whole ∧ m.frac.InRange (IntTy.common W F) ∧
    o.arith (IntTy.common W F) .plus (.rf m.whole m.frac) ⇓ r := by
  simp only [Mixed.asFraction, bind_eq_clean, conv_clean, Fraction.ofOther, Raw.conv_clean,
    Fraction.arith_self]
  constructor
  · rintro ⟨_, ⟨h1, rfl⟩, _, ⟨h2, rfl⟩, h3⟩
    exact ⟨h1, h2, h3⟩
  · rintro ⟨h1, h2, h3⟩
    exact ⟨_, ⟨h1, rfl⟩, _, ⟨h2, rfl⟩, h3⟩

example : (⟨2147483647, ⟨1, 2⟩⟩ : Mixed).asFraction i32 i64 .defaults ⇓ ⟨4294967295, 2⟩ ∧
    (⟨2147483647, ⟨1, 2⟩⟩ : Mixed).asFraction i32 i32 .defaults = .fault .overflow := by
  decide +kernel

/-- **C93** Negation: exactly when both negations and the construction finish. -/
theorem C93_negate_iff : m.neg W F o ⇓ m' ↔ W.InRange (-m.whole) ∧
    ∃ g, o.negate F m.frac ⇓ g ∧ Mixed.mk' W F o (-m.whole) g ⇓ m' := by
  simp only [Mixed.neg, bind_eq_clean, neg_clean, Fraction.neg]
  constructor
  · rintro ⟨_, ⟨h1, rfl⟩, g, h2, h3⟩
    exact ⟨h1, g, h2, h3⟩
  · rintro ⟨h1, g, h2, h3⟩
    exact ⟨_, ⟨h1, rfl⟩, g, h2, h3⟩

example : (⟨1, ⟨1, 2⟩⟩ : Mixed).neg i32 i32 .safe ⇓ ⟨-1, ⟨-1, 2⟩⟩ ∧
    (⟨-2147483648, ⟨0, 1⟩⟩ : Mixed).neg i32 i32 .safe = .fault .overflow := by decide +kernel

/-- **C93** Addition of two mixed numbers: exactly when all parts fit the common types, whole
parts and fractions can be added there, and the construction finishes. -/
theorem C93_add_iff {W₁ F₁ W₂ F₂ : IntTy} {l k : Mixed} :
    Mixed.add W₁ F₁ W₂ F₂ o l k ⇓ m ↔
      (IntTy.common W₁ W₂).InRange l.whole ∧ (IntTy.common W₁ W₂).InRange k.whole ∧
      (IntTy.common W₁ W₂).InRange (l.whole + k.whole) ∧
      l.frac.InRange (IntTy.common F₁ F₂) ∧ k.frac.InRange (IntTy.common F₁ F₂) ∧
      ∃ g, o.arith (IntTy.common F₁ F₂) .plus (.ff l.frac k.frac) ⇓ g ∧
        Mixed.mk' (IntTy.common W₁ W₂) (IntTy.common F₁ F₂) o (l.whole + k.whole) g ⇓ m := by
  simp only [Mixed.add, bind_eq_clean, conv_clean, add_clean, Fraction.ofOther, Raw.conv_clean,
    Fraction.arith_self]
  constructor
  · rintro ⟨_, ⟨h1, rfl⟩, _, ⟨h2, rfl⟩, _, ⟨h3, rfl⟩, _, ⟨h4, rfl⟩, _, ⟨h5, rfl⟩, g, h6, h7⟩
    exact ⟨h1, h2, h3, h4, h5, g, h6, h7⟩
  · rintro ⟨h1, h2, h3, h4, h5, g, h6, h7⟩
    exact ⟨_, ⟨h1, rfl⟩, _, ⟨h2, rfl⟩, _, ⟨h3, rfl⟩, _, ⟨h4, rfl⟩, _, ⟨h5, rfl⟩, g, h6, h7⟩

example : Mixed.add i32 i32 i64 i64 .defaults ⟨1, ⟨1, 2⟩⟩ ⟨2147483647, ⟨2, 3⟩⟩ ⇓
    ⟨2147483649, ⟨1, 6⟩⟩ := by decide +kernel

/-- **C93** Addition of a fraction: it is first made a mixed number of its own type.  Addition
of an integer: the fraction is left to the construction. -/
theorem C93_add_others_iff {W₁ F₁ W₂ F₂ : IntTy} {l : Mixed} :
    (Mixed.addFraction W₁ F₁ F₂ o l f ⇓ m ↔ ∃ k, Mixed.ofFraction F₂ F₂ o F₂ f ⇓ k ∧
      Mixed.add W₁ F₁ F₂ F₂ o l k ⇓ m) ∧
    (Mixed.addWhole W₁ F W₂ o l n ⇓ m ↔
      (IntTy.common W₁ W₂).InRange l.whole ∧ (IntTy.common W₁ W₂).InRange n ∧
      (IntTy.common W₁ W₂).InRange (l.whole + n) ∧
      Mixed.mk' (IntTy.common W₁ W₂) F o (l.whole + n) l.frac ⇓ m) := by
  simp only [Mixed.addFraction, Mixed.addWhole, bind_eq_clean, conv_clean, add_clean, true_and]
  constructor
  · rintro ⟨_, ⟨h1, rfl⟩, _, ⟨h2, rfl⟩, _, ⟨h3, rfl⟩, h4⟩
    exact ⟨h1, h2, h3, h4⟩
  · rintro ⟨h1, h2, h3, h4⟩
    exact ⟨_, ⟨h1, rfl⟩, _, ⟨h2, rfl⟩, _, ⟨h3, rfl⟩, h4⟩

example : Mixed.addFraction i32 i32 i64 .defaults ⟨1, ⟨1, 2⟩⟩ ⟨5, 3⟩ ⇓ ⟨3, ⟨1, 6⟩⟩ ∧
    Mixed.addWhole i32 i32 i64 .defaults ⟨1, ⟨1, 2⟩⟩ (-3) ⇓ ⟨-1, ⟨-1, 2⟩⟩ := by decide +kernel

end Ieme
