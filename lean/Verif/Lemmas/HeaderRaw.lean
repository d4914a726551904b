import Verif.Lemmas.HeaderEval

/-!
# The text of `numbers.hpp`, `math_utilities.hpp` and the `raw_fraction` headers, evaluated

Each lemma says what a call evaluates to; `n` bounds the depth of calls.
-/

namespace Ieme.Header

variable {n : Nat}

@[exec_header] theorem number_ok (h : 1 ≤ n) (k : Nat) (T : IntTy) :
    value (invoke library n .global none N.«number» [.num k, .int T] []) =
      Val.int T <$> T.conv k := by
  step n
  go []

@[exec_header] theorem zero_ok (h : 2 ≤ n) (T : IntTy) :
    value (invoke library n .global none N.«_0» [.int T] []) =
      pure (Val.int T 0) := by
  step n
  go []

@[exec_header] theorem one_ok (h : 2 ≤ n) (T : IntTy) :
    value (invoke library n .global none N.«_1» [.int T] []) =
      pure (Val.int T 1) := by
  step n
  go []

@[exec_header] theorem two_ok (h : 2 ≤ n) (T : IntTy) :
    value (invoke library n .global none N.«_2» [.int T] []) =
      pure (Val.int T 2) := by
  step n
  go []

@[exec_header] theorem abs_ok (h : 3 ≤ n) (T : IntTy) (v : Int) :
    value (invoke library n ⟨N.«math_utilities», []⟩ none N.«abs» [] [.int T v]) =
      Val.int T <$> mathAbs T v := by
  step n
  go [mathAbs]
  cases_agree

@[exec_header] theorem pow2_ok (h : 3 ≤ n) (T : IntTy) (v : Int) :
    value (invoke library n ⟨N.«math_utilities», []⟩ none N.«pow2» [] [.int T v]) =
      Val.int T <$> mathPow2 T v := by
  step n
  go [mathPow2]

@[exec_header] theorem rawTwo_ok (h : 1 ≤ n) (T : IntTy) (a b : Int) :
    value (invoke library n ⟨N.«raw_fraction», [.int T]⟩ none N.«raw_fraction» [] [.int T a, .int T b]) =
      pure (Val.raw T ⟨a, b⟩) := by
  step n
  go []

@[exec_header] theorem rawConv_ok (h : 2 ≤ n) (T S : IntTy) (r : Raw) :
    value (invoke library n ⟨N.«raw_fraction», [.int T]⟩ none N.«raw_fraction» [] [.raw S r]) =
      Val.raw T <$> Raw.conv T r := by
  step n
  go [Raw.conv]

@[exec_header] theorem isDefined_ok (h : 3 ≤ n) (T : IntTy) (r : Raw) :
    value (invoke library n .global none N.«is_defined» [] [.raw T r]) =
      pure (Val.bool (r.isDefined)) := by
  step n
  go [Raw.isDefined]
  cases_agree

@[exec_header] theorem isUndefined_ok (h : 4 ≤ n) (T : IntTy) (r : Raw) :
    value (invoke library n .global none N.«is_undefined» [] [.raw T r]) =
      pure (Val.bool (r.isUndefined)) := by
  step n
  go [Raw.isUndefined]

@[exec_header] theorem isPositive_ok (h : 3 ≤ n) (T : IntTy) (r : Raw) :
    value (invoke library n .global none N.«is_positive» [] [.raw T r]) =
      pure (Val.bool (r.isPositive)) := by
  step n
  go [Raw.isPositive]

@[exec_header] theorem isNonNegative_ok (h : 3 ≤ n) (T : IntTy) (r : Raw) :
    value (invoke library n .global none N.«is_non_negative» [] [.raw T r]) =
      pure (Val.bool (r.isNonNegative)) := by
  step n
  go [Raw.isNonNegative]

@[exec_header] theorem isZero_ok (h : 4 ≤ n) (T : IntTy) (r : Raw) :
    value (invoke library n .global none N.«is_zero» [] [.raw T r]) =
      pure (Val.bool (r.isZero)) := by
  step n
  go [Raw.isZero]
  cases_agree

@[exec_header] theorem isNonPositive_ok (h : 3 ≤ n) (T : IntTy) (r : Raw) :
    value (invoke library n .global none N.«is_non_positive» [] [.raw T r]) =
      pure (Val.bool (r.isNonPositive)) := by
  step n
  go [Raw.isNonPositive]

@[exec_header] theorem isNegative_ok (h : 3 ≤ n) (T : IntTy) (r : Raw) :
    value (invoke library n .global none N.«is_negative» [] [.raw T r]) =
      pure (Val.bool (r.isNegative)) := by
  step n
  go [Raw.isNegative]

@[exec_header] theorem isInteger_ok (h : 4 ≤ n) (T : IntTy) (r : Raw) :
    value (invoke library n .global none N.«is_integer» [] [.raw T r]) =
      Val.bool <$> r.isInteger T := by
  step n
  go [Raw.isInteger]
  cases_agree

@[exec_header] theorem isUnitFraction_ok (h : 4 ≤ n) (T : IntTy) (r : Raw) :
    value (invoke library n .global none N.«is_unit_fraction» [] [.raw T r]) =
      Val.bool <$> r.isUnitFraction T := by
  step n
  go [Raw.isUnitFraction]
  cases_agree

@[exec_header] theorem isReducedIgnoreSigns_ok (h : 4 ≤ n) (T : IntTy) (r : Raw) :
    value (invoke library n .global none N.«is_reduced_ignore_signs» [] [.raw T r]) =
      Val.bool <$> r.isReducedIgnoreSigns T := by
  step n
  go [Raw.isReducedIgnoreSigns]
  cases_agree

@[exec_header] theorem isReduced_ok (h : 5 ≤ n) (T : IntTy) (r : Raw) :
    value (invoke library n .global none N.«is_reduced» [] [.raw T r]) =
      Val.bool <$> r.isReduced T := by
  step n
  go [Raw.isReduced]
  cases_agree

@[exec_header] theorem isProper_ok (h : 4 ≤ n) (T : IntTy) (r : Raw) :
    value (invoke library n .global none N.«is_proper» [] [.raw T r]) =
      Val.bool <$> r.isProper T := by
  step n
  go [Raw.isProper]

@[exec_header] theorem isImproper_ok (h : 5 ≤ n) (T : IntTy) (r : Raw) :
    value (invoke library n .global none N.«is_improper» [] [.raw T r]) =
      Val.bool <$> r.isImproper T := by
  step n
  go [Raw.isImproper]

@[exec_header] theorem areIdentical_ok (h : 1 ≤ n) (T : IntTy) (l r : Raw) :
    value (invoke library n .global none N.«are_identical» [] [.raw T l, .raw T r]) =
      pure (Val.bool (Raw.areIdentical l r)) := by
  step n
  go [Raw.areIdentical]
  cases_agree

@[exec_header] theorem areDifferent_ok (h : 2 ≤ n) (T : IntTy) (l r : Raw) :
    value (invoke library n .global none N.«are_different» [] [.raw T l, .raw T r]) =
      pure (Val.bool (Raw.areDifferent l r)) := by
  step n
  go [Raw.areDifferent]

@[exec_header] theorem reciprocal_ok (h : 2 ≤ n) (T : IntTy) (r : Raw) :
    value (invoke library n .global none N.«reciprocal» [] [.raw T r]) =
      pure (Val.raw T r.reciprocal) := by
  step n
  go [Raw.reciprocal]

@[exec_header] theorem normalizeSigns_ok (h : 3 ≤ n) (T : IntTy) (r : Raw) :
    value (invoke library n .global none N.«normalize_signs» [] [.raw T r]) =
      Val.raw T <$> r.normalizeSigns T := by
  step n
  go [Raw.normalizeSigns]
  cases_agree

@[exec_header] theorem reduceIgnoreSigns_ok (h : 5 ≤ n) (T : IntTy) (r : Raw) :
    value (invoke library n .global none N.«reduce_ignore_signs» [] [.raw T r]) =
      Val.raw T <$> r.reduceIgnoreSigns T := by
  step n
  go [Raw.reduceIgnoreSigns]
  cases_agree

@[exec_header] theorem reduceNormalizeSigns_ok (h : 6 ≤ n) (T : IntTy) (r : Raw) :
    value (invoke library n .global none N.«reduce_normalize_signs» [] [.raw T r]) =
      Val.raw T <$> r.reduceNormalizeSigns T := by
  step n
  go [Raw.reduceNormalizeSigns]

@[exec_header] theorem reduce_ok (h : 7 ≤ n) (T : IntTy) (r : Raw) (m : ReduceMode) :
    value (invoke library n .global none N.«reduce» [] [.raw T r, .mode m]) =
      Val.raw T <$> r.reduce T m := by
  cases m
  all_goals
    step n
    go [Raw.reduce]

@[exec_header] theorem reduceDefault_ok (h : 7 ≤ n) (T : IntTy) (r : Raw) :
    value (invoke library n .global none N.«reduce» [] [.raw T r]) =
      Val.raw T <$> r.reduceNormalizeSigns T := by
  step n
  go []

section Pow

variable (T : IntTy)

theorem inRange_half {e : Int} (he : T.InRange e) : T.InRange (e.tdiv 2) := by
  have h0 := T.min_le_zero
  have h1 := T.max_pos
  unfold IntTy.InRange at *
  rcases Int.le_total 0 e with h | h
  · rw [Int.tdiv_eq_ediv_of_nonneg h]; omega
  · have h2 : (-e).tdiv 2 = -(e.tdiv 2) := Int.neg_tdiv ..
    rw [Int.tdiv_eq_ediv_of_nonneg (by omega)] at h2
    omega

theorem mod_two {e : Int} (he : T.InRange e) : T.mod e 2 = pure (e.tmod 2) := by
  simp [IntTy.mod, inRange_half T he]; rfl

theorem div_two {e : Int} (he : T.InRange e) : T.div e 2 = pure (e.tdiv 2) := by
  simp [IntTy.div, inRange_half T he]; rfl

theorem inRange_pred {e : Int} (he : T.InRange e) (h1 : e.tmod 2 = 1) : T.InRange (e - 1) := by
  have h0 := T.min_le_zero
  unfold IntTy.InRange at *
  rcases Int.lt_or_le 0 e with h | h
  · omega
  · exfalso
    have h2 : (-e).tmod 2 = -(e.tmod 2) := Int.neg_tmod ..
    rw [Int.tmod_eq_emod_of_nonneg (by omega)] at h2
    omega

theorem sub_one {e : Int} (he : T.InRange e) (h1 : e.tmod 2 = 1) : T.sub e 1 = pure (e - 1) := by
  simp [IntTy.sub, IntTy.arith, inRange_pred T he h1]; rfl

theorem pow_ok (b : Int) : ∀ (k : Nat) (e : Int), e.natAbs ≤ k → T.InRange e → ∀ n, k + 3 ≤ n →
    value (invoke library n ⟨N.«math_utilities», []⟩ none N.«pow» [] [.int T b, .int T e]) =
      Val.int T <$> mathPow T b e := by
  intro k
  induction k with
  | zero =>
    intro e hk he n h
    obtain rfl : e = 0 := by omega
    rw [mathPow]
    step n
    go [if_pos rfl]
  | succ k ih =>
    intro e hk he n h
    rw [mathPow]
    step n
    by_cases h0 : e = 0
    · go [h0]
    · by_cases h1 : e.tmod 2 = 1
      · have hp : (e - 1).natAbs ≤ k := by
          have := inRange_pred T he h1
          rcases Int.lt_or_le 0 e with h | h
          · omega
          · exfalso
            have h2 : (-e).tmod 2 = -(e.tmod 2) := Int.neg_tmod ..
            rw [Int.tmod_eq_emod_of_nonneg (by omega)] at h2
            omega
        have := ih (e - 1) hp (inRange_pred T he h1)
        go [h0, h1, mod_two T he, sub_one T he h1, this]
      · have hp : (e.tdiv 2).natAbs ≤ k := by
          have h3 : (e.tdiv 2).natAbs = e.natAbs / 2 := Int.natAbs_tdiv ..
          omega
        have := ih (e.tdiv 2) hp (inRange_half T he)
        go [h0, h1, mod_two T he, div_two T he, this]

end Pow

end Ieme.Header
