import Verif.Lemmas.Reduce
import Verif.Model.FractionMath

/-!
# Reduction and queries: properties C20–C28 and C70, C71
-/

namespace Ieme

open Res IntTy

variable {T : IntTy} {o : Ops} {f g r s : Raw} {x y : ℚ}

/-- **C20** `reduce` in either mode denotes the same rational; an undefined fraction always
reduces, to `0/0`. -/
theorem C20_reduce_preserves (mode : ReduceMode) :
    (f.reduce T mode ⇓ r → ∀ q, Denotes r q ↔ Denotes f q) ∧
    (f.den = 0 → f.reduce T mode ⇓ ⟨0, 0⟩) :=
  ⟨fun h _ => Raw.reduce_denotes_iff h, fun h => Raw.reduce_undefined mode h⟩

/-- **C20** The two named functions are the two modes. -/
theorem C20_reduce_modes (f : Raw) :
    f.reduceNormalizeSigns T = f.reduce T .normalizeSigns ∧
    f.reduceIgnoreSigns T = f.reduce T .ignoreSigns := ⟨rfl, rfl⟩

/-- **C20** `normalize_signs` denotes the same rational, and undefined stays undefined. -/
theorem C20_normalize_signs_preserves (h : f.normalizeSigns T ⇓ r) (q : ℚ) :
    Denotes r q ↔ Denotes f q := by
  by_cases hp : 0 < f.den
  · rw [Raw.normalizeSigns_pos hp] at h
    simp only [Res.ok.injEq, and_true] at h
    rw [h]
  · obtain ⟨-, -, rfl⟩ := (Raw.normalizeSigns_clean_nonpos (by omega)).1 h
    exact (denotes_scale (g := -1) (by decide) (by simp) (by simp)).symm

example : (⟨6, -4⟩ : Raw).reduce i32 .normalizeSigns ⇓ ⟨-3, 2⟩ ∧
    (⟨6, -4⟩ : Raw).reduce i32 .ignoreSigns ⇓ ⟨3, -2⟩ ∧
    (⟨6, -4⟩ : Raw).normalizeSigns i32 ⇓ ⟨-6, 4⟩ ∧
    (⟨5, 0⟩ : Raw).reduce i32 .normalizeSigns ⇓ ⟨0, 0⟩ ∧ Denotes ⟨6, -4⟩ (-3/2) :=
  ⟨by decide, by decide, by decide, by decide, by norm_num [Denotes]⟩

/-- **C21** `reduce` gives lowest terms with a positive denominator. -/
theorem C21_reduce_canonical (h0 : f.den ≠ 0) (h : f.reduce T .normalizeSigns ⇓ r) :
    0 < r.den ∧ Int.gcd r.num r.den = 1 :=
  Raw.reduce_canonical h0 h

/-- **C21** Two defined fractions have the same value exactly when their reduced forms are
identical. -/
theorem C21_reduce_unique (hf : f.den ≠ 0) (hg : g.den ≠ 0)
    (h1 : f.reduce T .normalizeSigns ⇓ r) (h2 : g.reduce T .normalizeSigns ⇓ s) :
    SameValue f g ↔ r = s := by
  constructor
  · rintro ⟨q, hq, hq'⟩
    exact (Raw.reduce_canonical hf h1).unique (Raw.reduce_canonical hg h2)
      ⟨q, Raw.reduce_denotes hq h1, Raw.reduce_denotes hq' h2⟩
  · rintro rfl
    have := denotes_self (Raw.reduce_clean_defined hf h1)
    exact ⟨_, (Raw.reduce_denotes_iff h1).1 this, (Raw.reduce_denotes_iff h2).1 this⟩

example : SameValue ⟨6, -4⟩ ⟨-9, 6⟩ ∧ (⟨6, -4⟩ : Raw).reduce i32 .normalizeSigns ⇓ ⟨-3, 2⟩ ∧
    (⟨-9, 6⟩ : Raw).reduce i32 .normalizeSigns ⇓ ⟨-3, 2⟩ :=
  ⟨⟨-3/2, by norm_num [Denotes], by norm_num [Denotes]⟩, by decide, by decide⟩

/-- **C22** Reducing a reduced fraction finishes and changes nothing. -/
theorem C22_reduce_idempotent (mode : ReduceMode) (h : f.reduce T mode ⇓ r) :
    r.reduce T mode ⇓ r :=
  Raw.reduce_reduce h

/-- **C22** The flag is never set by `reduce` on a C++ value, so the hypothesis of
`C22_reduce_idempotent` is just "finishes". -/
theorem C22_reduce_never_wraps {mode : ReduceMode} {w : Bool} (hf : f.InRange T)
    (h : f.reduce T mode = .ok r w) : w = false :=
  Raw.reduce_flag hf h

example : (⟨6, -4⟩ : Raw).InRange i32 ∧ (⟨6, -4⟩ : Raw).reduce i32 .ignoreSigns ⇓ ⟨3, -2⟩ ∧
    (⟨3, -2⟩ : Raw).reduce i32 .ignoreSigns ⇓ ⟨3, -2⟩ := by decide

/-- **C23** `is_reduced_ignore_signs` recognises exactly the defined fixed points of
`reduce_ignore_signs`. -/
theorem C23_is_reduced_ignore_signs_exact {b w : Bool} (hf : f.InRange T)
    (h : f.isReducedIgnoreSigns T = .ok b w) :
    b = true ↔ f.den ≠ 0 ∧ f.reduceIgnoreSigns T ⇓ f := by
  rw [(Raw.isReducedIgnoreSigns_ok h).2]
  exact and_congr_right fun h0 => (Raw.reduceIgnoreSigns_fixed h0 hf).symm

/-- **C23, partial.**  Full claim: `is_reduced(f)` is true exactly when `f` is defined and
`reduce(f)` is identical to `f`.  Proved for every fraction except those with positive
numerator and negative denominator, where it is false, see `C23_is_reduced_false`. -/
theorem C23_is_reduced_exact_partial {b w : Bool} (hf : f.InRange T)
    (hs : ¬ (0 < f.num ∧ f.den < 0)) (h : f.isReduced T = .ok b w) :
    b = true ↔ f.den ≠ 0 ∧ f.reduce T .normalizeSigns ⇓ f := by
  by_cases hp : 0 < f.den
  · rw [Raw.isReduced, if_pos (by simp [hp])] at h
    rw [C23_is_reduced_ignore_signs_exact hf h]
    refine and_congr_right fun h0 => ?_
    simp only [Raw.reduce, Raw.reduceNormalizeSigns]
    constructor
    · intro h1; rw [h1, ok_bind_false, Raw.normalizeSigns_pos hp]
    · intro h1
      obtain ⟨t, h1, h2⟩ := bind_eq_clean.1 h1
      have h3 := Raw.reduce_posDen (mode := .ignoreSigns) hp h1
      rw [Raw.normalizeSigns_pos h3] at h2
      simp only [Res.ok.injEq, and_true] at h2
      rw [h1, h2]
  · constructor
    · rintro rfl
      unfold Raw.isReduced at h
      split at h
      · have := ((Raw.isReducedIgnoreSigns_ok h).2.1 rfl).1
        simp only [Bool.or_eq_true, decide_eq_true_eq] at *
        omega
      · simp at h
    · rintro ⟨h0, h1⟩
      have := (Raw.reduce_canonical h0 h1).1
      omega

/-- **C23, refuted in general.**  `is_reduced(3/(-4))` is true although `reduce` turns it
into `-3/4`; for every such fraction the answer ignores the sign of the denominator. -/
theorem C23_is_reduced_false :
    (⟨3, -4⟩ : Raw).isReduced i32 ⇓ true ∧
    (⟨3, -4⟩ : Raw).reduce i32 .normalizeSigns ⇓ ⟨-3, 4⟩ := by decide

example : (⟨-3, 4⟩ : Raw).InRange i32 ∧ ¬ (0 < (-3 : ℤ) ∧ (4 : ℤ) < 0) ∧
    (⟨-3, 4⟩ : Raw).isReduced i32 ⇓ true ∧ (⟨-6, 8⟩ : Raw).isReduced i32 ⇓ false ∧
    (⟨3, -4⟩ : Raw).isReducedIgnoreSigns i32 ⇓ true := by decide

/-- **C24** The five sign queries hold exactly when the fraction is defined and its value
has the sign. -/
theorem C24_sign_queries_exact (f : Raw) :
    (f.isPositive = true ↔ ∃ q, Denotes f q ∧ 0 < q) ∧
    (f.isNonNegative = true ↔ ∃ q, Denotes f q ∧ 0 ≤ q) ∧
    (f.isZero = true ↔ ∃ q, Denotes f q ∧ q = 0) ∧
    (f.isNonPositive = true ↔ ∃ q, Denotes f q ∧ q ≤ 0) ∧
    (f.isNegative = true ↔ ∃ q, Denotes f q ∧ q < 0) := by
  have key : ∀ {P : ℚ → Prop} {Q : Prop} {b : Bool},
      (f.den = 0 → b = false) → (∀ q, Denotes f q → (P q ↔ Q)) → (f.den ≠ 0 → (b = true ↔ Q)) →
      (b = true ↔ ∃ q, Denotes f q ∧ P q) := by
    intro P Q b h1 h2 h3
    by_cases h0 : f.den = 0
    · simp [h1 h0, Denotes, h0]
    · rw [h3 h0]
      constructor
      · intro hq; exact ⟨_, denotes_self h0, (h2 _ (denotes_self h0)).2 hq⟩
      · rintro ⟨q, hd, hp⟩; exact (h2 q hd).1 hp
  refine ⟨key (Q := 0 < f.num * f.den) ?_ (fun q h => denotes_pos_iff h) ?_,
    key (Q := ¬ f.num * f.den < 0) ?_ (fun q h => by rw [← denotes_neg_iff h, not_lt]) ?_,
    key (Q := f.num = 0) ?_ (fun q h => denotes_zero_iff h) ?_,
    key (Q := ¬ 0 < f.num * f.den) ?_ (fun q h => by rw [← denotes_pos_iff h, not_lt]) ?_,
    key (Q := f.num * f.den < 0) ?_ (fun q h => denotes_neg_iff h) ?_⟩
  all_goals intro h0
  all_goals
    simp only [Raw.isPositive, Raw.isNonNegative, Raw.isZero, Raw.isNonPositive, Raw.isNegative,
      Raw.isDefined, h0, mul_pos_iff, mul_neg_iff, Bool.or_eq_true, Bool.and_eq_true,
      decide_eq_true_eq, Bool.or_eq_false_iff, Bool.and_eq_false_iff, decide_eq_false_iff_not,
      bne_iff_ne, ne_eq, beq_iff_eq, bne_self_eq_false, Bool.false_and, not_false_eq_true]
  all_goals first | omega | simp

/-- **C24** A defined fraction is exactly one of positive, zero, negative; for an undefined
one none of the five queries holds. -/
theorem C24_sign_trichotomy (f : Raw) :
    (f.den ≠ 0 → (f.isPositive = true ∧ f.isZero = false ∧ f.isNegative = false) ∨
      (f.isPositive = false ∧ f.isZero = true ∧ f.isNegative = false) ∨
      (f.isPositive = false ∧ f.isZero = false ∧ f.isNegative = true)) ∧
    (f.den = 0 → f.isPositive = false ∧ f.isNonNegative = false ∧ f.isZero = false ∧
      f.isNonPositive = false ∧ f.isNegative = false) := by
  simp only [← Bool.not_eq_true, C24_sign_queries_exact f]
  constructor
  · intro h0
    have key : ∀ {P : ℚ → Prop}, (∃ q, Denotes f q ∧ P q) ↔ P ((f.num : ℚ) / f.den) := by
      intro P
      exact ⟨fun ⟨q, h, hp⟩ => by rw [h.2]; exact hp, fun h => ⟨_, denotes_self h0, h⟩⟩
    simp only [key]
    rcases lt_trichotomy ((f.num : ℚ) / f.den) 0 with h | h | h
    · right; right; exact ⟨by linarith, h.ne, h⟩
    · right; left; exact ⟨by linarith, h, by linarith⟩
    · left; exact ⟨h, h.ne', by linarith⟩
  · intro h0
    simp [Denotes, h0]

example : (⟨-3, -4⟩ : Raw).isPositive = true ∧ Denotes ⟨-3, -4⟩ (3/4) ∧
    (⟨0, -4⟩ : Raw).isZero = true ∧ (⟨3, -4⟩ : Raw).isNegative = true :=
  ⟨by decide, by norm_num [Denotes], by decide, by decide⟩

/-- **C25** `is_integer`: defined with an integral value. -/
theorem C25_is_integer_exact {b w : Bool} (h : f.isInteger T = .ok b w) :
    b = true ↔ ∃ n : ℤ, Denotes f n := by
  unfold Raw.isInteger at h
  split at h
  · rename_i hd
    simp only [Raw.isDefined_iff] at hd
    simp only [bind_eq_ok, mod_eq_ok, pure_eq_ok] at h
    obtain ⟨m, _, _, ⟨-, -, rfl, rfl⟩, ⟨rfl, rfl⟩, rfl⟩ := h
    simp only [beq_iff_eq, ← Int.dvd_iff_tmod_eq_zero]
    constructor
    · rintro ⟨k, hk⟩
      exact ⟨k, denotes_iff_mul.2 ⟨hd, by rw [hk]; push_cast; ring⟩⟩
    · rintro ⟨n, hn⟩
      have := (denotes_iff_mul.1 hn).2
      exact ⟨n, by rw [mul_comm]; exact_mod_cast this⟩
  · rename_i hd
    simp only [Raw.isDefined_iff, not_not] at hd
    simp only [pure_eq_ok] at h
    simp [← h.1, Denotes, hd]

/-- **C25** `is_unit_fraction`: defined with value `1/k` for a non-zero integer `k`. -/
theorem C25_is_unit_fraction_exact {b w : Bool} (h : f.isUnitFraction T = .ok b w) :
    b = true ↔ ∃ k : ℤ, k ≠ 0 ∧ Denotes f (1 / k) := by
  unfold Raw.isUnitFraction at h
  split at h
  · rename_i hd
    simp only [Bool.and_eq_true, Raw.isDefined_iff, bne_iff_ne, ne_eq] at hd
    simp only [bind_eq_ok, mod_eq_ok, pure_eq_ok] at h
    obtain ⟨m, _, _, ⟨-, -, rfl, rfl⟩, ⟨rfl, rfl⟩, rfl⟩ := h
    simp only [beq_iff_eq, ← Int.dvd_iff_tmod_eq_zero]
    have hn : (f.num : ℚ) ≠ 0 := by exact_mod_cast hd.2
    constructor
    · rintro ⟨k, hk⟩
      have hk0 : k ≠ 0 := by rintro rfl; simp at hk; exact hd.1 hk
      have hk0' : (k : ℚ) ≠ 0 := by exact_mod_cast hk0
      exact ⟨k, hk0, denotes_iff_mul.2 ⟨hd.1, by rw [hk]; push_cast; field_simp⟩⟩
    · rintro ⟨k, hk, hv⟩
      have hk0' : (k : ℚ) ≠ 0 := by exact_mod_cast hk
      have := (denotes_iff_mul.1 hv).2
      field_simp at this
      exact ⟨k, by exact_mod_cast this.symm⟩
  · rename_i hd
    simp only [Bool.and_eq_true, Raw.isDefined_iff, bne_iff_ne, ne_eq, not_and, not_not] at hd
    simp only [pure_eq_ok] at h
    rw [← h.1]
    simp only [Bool.false_eq_true, false_iff]
    rintro ⟨k, hk, hv⟩
    have hn := hd hv.1
    have := (denotes_zero_iff hv).2 hn
    have hk0' : (k : ℚ) ≠ 0 := by exact_mod_cast hk
    field_simp at this
    simp at this

/-- **C25** `is_proper`: defined with absolute value below one; `is_improper` is its
negation. -/
theorem C25_is_proper_exact {b w : Bool} (hf : f.InRange T) (h : f.isProper T = .ok b w) :
    (b = true ↔ ∃ q, Denotes f q ∧ |q| < 1) ∧ f.isImproper T = .ok (!b) w := by
  refine ⟨?_, by simp [Raw.isImproper, h, bind_def, Res.bind, pure_def]⟩
  unfold Raw.isProper at h
  simp only [bind_eq_ok, mathAbs_eq_ok hf.1, mathAbs_eq_ok hf.2, pure_eq_ok] at h
  obtain ⟨n, _, _, ⟨-, rfl, rfl⟩, ⟨d, _, _, ⟨-, rfl, rfl⟩, ⟨rfl, rfl⟩, rfl⟩, rfl⟩ := h
  simp only [decide_eq_true_eq]
  have key : ∀ {q}, Denotes f q → (|q| < 1 ↔ |f.num| < |f.den|) := by
    intro q hq
    have hd : (f.den : ℚ) ≠ 0 := by exact_mod_cast hq.1
    rw [← hq.2, abs_div, div_lt_one (abs_pos.2 hd)]
    exact_mod_cast Iff.rfl
  constructor
  · intro h
    have h0 : f.den ≠ 0 := by
      intro e; rw [e] at h; simp at h
      have := abs_nonneg f.num; omega
    exact ⟨_, denotes_self h0, (key (denotes_self h0)).2 h⟩
  · rintro ⟨q, hq, h⟩; exact (key hq).1 h

/-- **C25** The three queries can only fail on the minimum value of a signed type. -/
theorem C25_queries_finish (hf : f.InRange T)
    (hm : T.signed = true → f.num ≠ T.min ∧ f.den ≠ T.min) :
    (f.isInteger T).Finishes ∧ (f.isUnitFraction T).Finishes ∧ (f.isProper T).Finishes := by
  have key : ∀ {x : ℤ}, T.InRange x → (T.signed = true → x ≠ T.min) → T.InRange |x| := by
    intro x hx hm
    cases hs : T.signed
    · rw [abs_of_nonneg (hx.nonneg hs)]; exact hx
    · have h1 := hm hs
      have := min_signed hs
      have := T.min_le_zero
      obtain ⟨h2, h3⟩ := hx
      rcases abs_cases x with ⟨h, -⟩ | ⟨h, -⟩ <;> rw [h] <;> constructor <;> omega
  have hdiv : ∀ {a b : ℤ}, T.InRange a → (T.signed = true → a ≠ T.min) → T.InRange b →
      b ≠ 0 → T.InRange (a.tdiv b) := by
    intro a b ha hma hb hb0
    have h1 : (a.tdiv b).natAbs ≤ a.natAbs := by
      rw [Int.natAbs_tdiv]; exact Nat.div_le_self _ _
    cases hs : T.signed
    · have := ha.nonneg hs
      have h2 := Int.tdiv_nonneg this (hb.nonneg hs)
      exact ha.shrink (.inl ⟨h2, by omega⟩)
    · have := key ha hma
      rw [Int.abs_eq_natAbs] at this
      exact inRange_of_natAbs_le hs this h1
  refine ⟨?_, ?_, ?_⟩
  · unfold Raw.isInteger
    split
    · rename_i hd
      simp only [Raw.isDefined_iff] at hd
      rw [mod_clean.2 ⟨hd, hdiv hf.1 (fun h => (hm h).1) hf.2 hd, rfl⟩, ok_bind_false]
      exact ⟨_, _, rfl⟩
    · exact ⟨_, _, rfl⟩
  · unfold Raw.isUnitFraction
    split
    · rename_i hd
      simp only [Bool.and_eq_true, Raw.isDefined_iff, bne_iff_ne, ne_eq] at hd
      rw [mod_clean.2 ⟨hd.2, hdiv hf.2 (fun h => (hm h).2) hf.1 hd.2, rfl⟩, ok_bind_false]
      exact ⟨_, _, rfl⟩
    · exact ⟨_, _, rfl⟩
  · unfold Raw.isProper
    rw [(mathAbs_eq_ok hf.1).2 ⟨key hf.1 (fun h => (hm h).1), rfl, rfl⟩, ok_bind_false,
      (mathAbs_eq_ok hf.2).2 ⟨key hf.2 (fun h => (hm h).2), rfl, rfl⟩, ok_bind_false]
    exact ⟨_, _, rfl⟩

example : (⟨6, -3⟩ : Raw).isInteger i32 ⇓ true ∧ (⟨-3, 6⟩ : Raw).isUnitFraction i32 ⇓ true ∧
    (⟨3, -4⟩ : Raw).isProper i32 ⇓ true ∧ (⟨3, -4⟩ : Raw).InRange i32 ∧
    (⟨-2147483648, -1⟩ : Raw).isInteger i32 = .fault .overflow := by decide

/-- **C26** `reciprocal` (which can not fail) inverts a non-zero value, makes zero
undefined, and is an involution. -/
theorem C26_reciprocal (f : Raw) :
    (∀ q, Denotes f q → q ≠ 0 → Denotes f.reciprocal q⁻¹) ∧
    (Denotes f 0 → f.reciprocal.den = 0) ∧ f.reciprocal.reciprocal = f := by
  refine ⟨?_, fun h => (denotes_zero_iff h).1 rfl, rfl⟩
  intro q hq hq0
  refine ⟨fun e => hq0 ((denotes_zero_iff hq).2 e), ?_⟩
  rw [← hq.2, inv_div]; rfl

example : Denotes ⟨-3, 4⟩ (-3/4) ∧ (⟨-3, 4⟩ : Raw).reciprocal = ⟨4, -3⟩ :=
  ⟨by norm_num [Denotes], rfl⟩

/-- **C27** `abs` that finishes cleanly on a defined fraction is defined, recognised as
non-negative and has the absolute value. -/
theorem C27_abs_exact (hx : Denotes f x) (h : Fraction.abs T o f ⇓ r) :
    Denotes r |x| ∧ r.isNonNegative = true := by
  have key : Denotes r |x| := by
    unfold Fraction.abs at h
    split at h
    · rename_i hn
      obtain ⟨q, hq, hq0⟩ := (C24_sign_queries_exact f).2.1.1 hn
      simp only [pure_eq_ok, and_true] at h
      rw [← h, abs_of_nonneg (by rw [hx.unique hq]; exact hq0)]
      exact hx
    · rename_i hn
      have : x < 0 := by
        by_contra hc
        exact hn ((C24_sign_queries_exact f).2.1.2 ⟨x, hx, not_lt.1 hc⟩)
      rw [abs_of_neg this]
      exact Ops.negate_exact hx h
  exact ⟨key, (C24_sign_queries_exact r).2.1.2 ⟨_, key, abs_nonneg x⟩⟩

/-- **C27** `abs` is idempotent: the second application always finishes and returns its
argument unchanged. -/
theorem C27_abs_idempotent (hx : f.den ≠ 0) (h : Fraction.abs T o f ⇓ r) :
    Fraction.abs T o r ⇓ r := by
  have := (C27_abs_exact (denotes_self hx) h).2
  simp [Fraction.abs, this]

/-- **C27** `abs` returns a non-negative fraction as it is, and for a negative one does what
unary minus does. -/
theorem C27_abs_parts (hx : Denotes f x) : (0 ≤ x → Fraction.abs T o f ⇓ f) ∧
    (x < 0 → Fraction.abs T o f = Fraction.neg T o f) := by
  have key := (C24_sign_queries_exact f).2.1
  refine ⟨fun h => if_pos (key.2 ⟨x, hx, h⟩), fun h => if_neg fun h' => ?_⟩
  obtain ⟨q, hq, hq0⟩ := key.1 h'
  rw [hx.unique hq] at h
  exact absurd h (not_lt.2 hq0)

example : Denotes ⟨6, -4⟩ (-3/2) ∧ Fraction.abs i32 .defaults ⟨6, -4⟩ ⇓ ⟨3, 2⟩ ∧
    Fraction.abs i32 .fast ⟨6, -4⟩ ⇓ ⟨-6, -4⟩ ∧ Denotes ⟨0, -4⟩ 0 ∧
    Fraction.abs i32 .defaults ⟨0, -4⟩ ⇓ ⟨0, -4⟩ :=
  ⟨by norm_num [Denotes], by decide, by decide, by norm_num [Denotes], by decide⟩

/-- **C28** `normalize_signs` of a defined fraction has a positive denominator and the same
value. -/
theorem C28_normalize_signs (hx : Denotes f x) (h : f.normalizeSigns T ⇓ r) :
    0 < r.den ∧ Denotes r x := by
  refine ⟨?_, (C20_normalize_signs_preserves h x).2 hx⟩
  by_cases hp : 0 < f.den
  · rw [Raw.normalizeSigns_pos hp] at h
    simp only [Res.ok.injEq, and_true] at h
    rw [← h]; exact hp
  · obtain ⟨-, -, rfl⟩ := (Raw.normalizeSigns_clean_nonpos (by omega)).1 h
    have := hx.1
    simp only; omega

/-- **C28** It is the identity on fractions with positive denominator. -/
theorem C28_identity_on_positive (h : 0 < f.den) : f.normalizeSigns T ⇓ f :=
  Raw.normalizeSigns_pos h

/-- **C28** On a signed type it can only fail when a part is the minimum value. -/
theorem C28_finishes (hs : T.signed = true) (hf : f.InRange T) (hn : f.num ≠ T.min)
    (hd : f.den ≠ T.min) : ∃ r, f.normalizeSigns T ⇓ r := by
  by_cases hp : 0 < f.den
  · exact ⟨_, Raw.normalizeSigns_pos hp⟩
  · refine ⟨_, (Raw.normalizeSigns_clean_nonpos (by omega)).2 ⟨?_, ?_, rfl⟩⟩ <;>
    · have := min_signed hs
      obtain ⟨⟨_, _⟩, ⟨_, _⟩⟩ := hf
      constructor <;> omega

example : Denotes ⟨6, -4⟩ (-3/2) ∧ (⟨6, -4⟩ : Raw).normalizeSigns i32 ⇓ ⟨-6, 4⟩ ∧
    (⟨-2147483648, -1⟩ : Raw).normalizeSigns i32 = .fault .overflow :=
  ⟨by norm_num [Denotes], by decide, by decide⟩

/-- **C70** Constructors keep the parts. -/
theorem C70_constructors (n d : ℤ) (f : Raw) :
    (Fraction.mk n d).num = n ∧ (Fraction.mk n d).den = d ∧ (Fraction.mk n).num = n ∧
    (Fraction.mk n).den = 1 ∧ Fraction.default.num = 0 ∧ Fraction.default.den = 1 ∧
    (Fraction.ofRaw f).num = f.num ∧ (Fraction.ofRaw f).den = f.den ∧
    Denotes (Fraction.mk n) n ∧ Denotes Fraction.default 0 :=
  ⟨rfl, rfl, rfl, rfl, rfl, rfl, rfl, rfl, by simp [Denotes, Fraction.mk],
    by simp [Denotes, Fraction.default]⟩

/-- **C70** `are_identical` is exactly equality of both parts, hence an equivalence
relation; `are_different` is its negation; and on defined fractions it is finer than `==`. -/
theorem C70_are_identical (f g : Raw) :
    (f.areIdentical g = true ↔ f.num = g.num ∧ f.den = g.den) ∧
    (f.areIdentical g = true ↔ f = g) ∧ f.areDifferent g = !f.areIdentical g ∧
    (f.areIdentical g = true → f.den ≠ 0 → SameValue f g) := by
  have h1 : f.areIdentical g = true ↔ f.num = g.num ∧ f.den = g.den := by
    simp [Raw.areIdentical]
  have h2 : f.areIdentical g = true ↔ f = g := by rw [h1]; cases f; cases g; simp
  refine ⟨h1, h2, rfl, fun h h0 => ?_⟩
  rw [← h2.1 h]
  exact ⟨_, denotes_self h0, denotes_self h0⟩

example : (⟨1, 2⟩ : Raw).areIdentical ⟨1, 2⟩ = true ∧ (⟨1, 2⟩ : Raw).areIdentical ⟨2, 4⟩ = false ∧
    Fraction.mk 3 4 = ⟨3, 4⟩ := by decide

/-- **C71** Every arithmetic operation, unary minus, `reduce` and conversion that returns
at all (cleanly or after wrap-around) on in-range operands returns in-range parts. -/
theorem C71_results_in_range {w : Bool} :
    (∀ {a : Args} {op : ArithOp}, a.InRange T → o.arith T op a = .ok r w → r.InRange T) ∧
    (f.InRange T → o.negate T f = .ok r w → r.InRange T) ∧
    (∀ {mode : ReduceMode}, f.reduce T mode = .ok r w → r.InRange T) ∧
    (f.conv T = .ok r w → r.InRange T) := by
  refine ⟨Ops.arith_inRange, Ops.negate_inRange, Raw.reduce_inRange, fun h => ?_⟩
  have key : ∀ {x y : ℤ} {w}, T.conv x = .ok y w → T.InRange y := by
    intro x y w h
    unfold IntTy.conv at h
    split at h <;> simp only [Res.ok.injEq] at h
    · rw [← h.1]; assumption
    · rw [← h.1]; exact wrap_inRange _
  simp only [Raw.conv, bind_eq_ok, pure_eq_ok] at h
  obtain ⟨n, _, _, h1, ⟨d, _, _, h2, ⟨rfl, rfl⟩, -⟩, -⟩ := h
  exact ⟨key h1, key h2⟩

example : (Args.ff ⟨4000000000, 1⟩ ⟨4000000000, 1⟩).InRange u32 ∧
    Ops.fast.arith u32 .plus (.ff ⟨4000000000, 1⟩ ⟨4000000000, 1⟩) = .ok ⟨3705032704, 1⟩ true :=
  ⟨by unfold Args.InRange; decide, by decide⟩

end Ieme
