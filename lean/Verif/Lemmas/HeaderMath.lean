import Verif.Lemmas.HeaderFraction

/-!
# The text of the queries and functions on `fraction`, evaluated
-/

namespace Ieme.Header

variable {n : Nat}

@[exec_header] theorem fraction_isDefined_ok (T : IntTy) (o : Ops) (f : Raw) (h : 7 ≤ n) :
    value (invoke library n .global none N.«is_defined» [] [.frac T o f]) =
      pure (Val.bool f.isDefined) := by
  step n
  go []

@[exec_header] theorem fraction_isUndefined_ok (T : IntTy) (o : Ops) (f : Raw) (h : 7 ≤ n) :
    value (invoke library n .global none N.«is_undefined» [] [.frac T o f]) =
      pure (Val.bool f.isUndefined) := by
  step n
  go []

@[exec_header] theorem fraction_isPositive_ok (T : IntTy) (o : Ops) (f : Raw) (h : 7 ≤ n) :
    value (invoke library n .global none N.«is_positive» [] [.frac T o f]) =
      pure (Val.bool f.isPositive) := by
  step n
  go []

@[exec_header] theorem fraction_isNonNegative_ok (T : IntTy) (o : Ops) (f : Raw) (h : 7 ≤ n) :
    value (invoke library n .global none N.«is_non_negative» [] [.frac T o f]) =
      pure (Val.bool f.isNonNegative) := by
  step n
  go []

@[exec_header] theorem fraction_isZero_ok (T : IntTy) (o : Ops) (f : Raw) (h : 7 ≤ n) :
    value (invoke library n .global none N.«is_zero» [] [.frac T o f]) =
      pure (Val.bool f.isZero) := by
  step n
  go []

@[exec_header] theorem fraction_isNonPositive_ok (T : IntTy) (o : Ops) (f : Raw) (h : 7 ≤ n) :
    value (invoke library n .global none N.«is_non_positive» [] [.frac T o f]) =
      pure (Val.bool f.isNonPositive) := by
  step n
  go []

@[exec_header] theorem fraction_isNegative_ok (T : IntTy) (o : Ops) (f : Raw) (h : 7 ≤ n) :
    value (invoke library n .global none N.«is_negative» [] [.frac T o f]) =
      pure (Val.bool f.isNegative) := by
  step n
  go []

@[exec_header] theorem fraction_isInteger_ok (T : IntTy) (o : Ops) (f : Raw) (h : 7 ≤ n) :
    value (invoke library n .global none N.«is_integer» [] [.frac T o f]) =
      Val.bool <$> f.isInteger T := by
  step n
  go []

@[exec_header] theorem fraction_isUnitFraction_ok (T : IntTy) (o : Ops) (f : Raw) (h : 7 ≤ n) :
    value (invoke library n .global none N.«is_unit_fraction» [] [.frac T o f]) =
      Val.bool <$> f.isUnitFraction T := by
  step n
  go []

@[exec_header] theorem fraction_isReducedIgnoreSigns_ok (T : IntTy) (o : Ops) (f : Raw) (h : 7 ≤ n) :
    value (invoke library n .global none N.«is_reduced_ignore_signs» [] [.frac T o f]) =
      Val.bool <$> f.isReducedIgnoreSigns T := by
  step n
  go []

@[exec_header] theorem fraction_isReduced_ok (T : IntTy) (o : Ops) (f : Raw) (h : 7 ≤ n) :
    value (invoke library n .global none N.«is_reduced» [] [.frac T o f]) =
      Val.bool <$> f.isReduced T := by
  step n
  go []

@[exec_header] theorem fraction_isProper_ok (T : IntTy) (o : Ops) (f : Raw) (h : 7 ≤ n) :
    value (invoke library n .global none N.«is_proper» [] [.frac T o f]) =
      Val.bool <$> f.isProper T := by
  step n
  go []

@[exec_header] theorem fraction_isImproper_ok (T : IntTy) (o : Ops) (f : Raw) (h : 7 ≤ n) :
    value (invoke library n .global none N.«is_improper» [] [.frac T o f]) =
      Val.bool <$> f.isImproper T := by
  step n
  go []

@[exec_header] theorem fraction_areIdentical_ok (T : IntTy) (o p : Ops) (l r : Raw) (h : 7 ≤ n) :
    value (invoke library n .global none N.«are_identical» [] [.frac T o l, .frac T p r]) =
      pure (Val.bool (l.areIdentical r)) := by
  step n
  go []

@[exec_header] theorem fraction_areDifferent_ok (T : IntTy) (o p : Ops) (l r : Raw) (h : 7 ≤ n) :
    value (invoke library n .global none N.«are_different» [] [.frac T o l, .frac T p r]) =
      pure (Val.bool (l.areDifferent r)) := by
  step n
  go []

@[exec_header] theorem fraction_reciprocal_ok (T : IntTy) (o : Ops) (f : Raw) (h : 8 ≤ n) :
    value (invoke library n .global none N.«reciprocal» [] [.frac T o f]) =
      pure (Val.frac T o f.reciprocal) := by
  step n
  go [Fraction.ofRaw]

@[exec_header] theorem fraction_normalizeSigns_ok (T : IntTy) (o : Ops) (f : Raw) (h : 8 ≤ n) :
    value (invoke library n .global none N.«normalize_signs» [] [.frac T o f]) =
      Val.frac T o <$> f.normalizeSigns T := by
  step n
  go [Fraction.ofRaw]

@[exec_header] theorem fraction_reduceIgnoreSigns_ok (T : IntTy) (o : Ops) (f : Raw) (h : 8 ≤ n) :
    value (invoke library n .global none N.«reduce_ignore_signs» [] [.frac T o f]) =
      Val.frac T o <$> f.reduceIgnoreSigns T := by
  step n
  go [Fraction.ofRaw]

@[exec_header] theorem fraction_reduceNormalizeSigns_ok (T : IntTy) (o : Ops) (f : Raw) (h : 8 ≤ n) :
    value (invoke library n .global none N.«reduce_normalize_signs» [] [.frac T o f]) =
      Val.frac T o <$> f.reduceNormalizeSigns T := by
  step n
  go [Fraction.ofRaw]

@[exec_header] theorem fraction_reduce_ok (T : IntTy) (o : Ops) (f : Raw) (m : ReduceMode) (h : 8 ≤ n) :
    value (invoke library n .global none N.«reduce» [] [.frac T o f, .mode m]) =
      Val.frac T o <$> f.reduce T m := by
  step n
  go [Fraction.ofRaw]

@[exec_header] theorem fraction_reduceDefault_ok (T : IntTy) (o : Ops) (f : Raw) (h : 8 ≤ n) :
    value (invoke library n .global none N.«reduce» [] [.frac T o f]) =
      Val.frac T o <$> f.reduce T .normalizeSigns := by
  step n
  go [Fraction.ofRaw]

@[exec_header] theorem fraction_abs_ok (T : IntTy) (o : Ops) (f : Raw) (h : opsDepth o + 2 ≤ n) :
    value (invoke library n .global none N.«abs» [] [.frac T o f]) =
      Val.frac T o <$> Fraction.abs T o f := by
  have := opsDepth_ge o
  step n
  go [Fraction.abs]
  cases_agree

@[exec_header] theorem fraction_trunc_ok (T : IntTy) (o : Ops) (f : Raw) (h : opsDepth o + 2 ≤ n) :
    value (invoke library n .global none N.«trunc» [] [.frac T o f]) =
      Val.int T <$> Fraction.trunc T f := by
  have := opsDepth_ge o
  step n
  go [Fraction.trunc]

@[exec_header] theorem fraction_ceil_ok (T : IntTy) (o : Ops) (f : Raw) (h : opsDepth o + 3 ≤ n) :
    value (invoke library n .global none N.«ceil» [] [.frac T o f]) =
      Val.int T <$> Fraction.ceil T f := by
  have := opsDepth_ge o
  step n
  go [Fraction.ceil]
  simp only [ite_bind, pure_bind]

@[exec_header] theorem fraction_floor_ok (T : IntTy) (o : Ops) (f : Raw) (h : opsDepth o + 3 ≤ n) :
    value (invoke library n .global none N.«floor» [] [.frac T o f]) =
      Val.int T <$> Fraction.floor T f := by
  have := opsDepth_ge o
  step n
  go [Fraction.floor]
  simp only [ite_bind, pure_bind]

@[exec_header] theorem fraction_round_ok (T : IntTy) (o : Ops) (f : Raw) (h : opsDepth o + 4 ≤ n) :
    value (invoke library n .global none N.«round» [] [.frac T o f]) =
      Val.int T <$> Fraction.round T o f := by
  have := opsDepth_ge o
  step n
  go [Fraction.round, Fraction.mk]
  simp only [ite_bind, pure_bind]

@[exec_header] theorem fraction_truncRedenominate_ok (T : IntTy) (o : Ops) (f : Raw) (d : Int) (h : opsDepth o + 5 ≤ n) :
    value (invoke library n .global none N.«trunc_redenominate» [] [.frac T o f, .int T d]) =
      Val.frac T o <$> Fraction.truncRedenominate T o f d := by
  have := opsDepth_ge o
  step n
  go [Fraction.truncRedenominate]

@[exec_header] theorem fraction_ceilRedenominate_ok (T : IntTy) (o : Ops) (f : Raw) (d : Int) (h : opsDepth o + 5 ≤ n) :
    value (invoke library n .global none N.«ceil_redenominate» [] [.frac T o f, .int T d]) =
      Val.frac T o <$> Fraction.ceilRedenominate T o f d := by
  have := opsDepth_ge o
  step n
  go [Fraction.ceilRedenominate]
  simp only [ite_bind, pure_bind, bind_assoc]

@[exec_header] theorem fraction_floorRedenominate_ok (T : IntTy) (o : Ops) (f : Raw) (d : Int) (h : opsDepth o + 5 ≤ n) :
    value (invoke library n .global none N.«floor_redenominate» [] [.frac T o f, .int T d]) =
      Val.frac T o <$> Fraction.floorRedenominate T o f d := by
  have := opsDepth_ge o
  step n
  go [Fraction.floorRedenominate]
  simp only [ite_bind, pure_bind, bind_assoc]

@[exec_header] theorem fraction_roundRedenominate_ok (T : IntTy) (o : Ops) (f : Raw) (d : Int) (h : opsDepth o + 5 ≤ n) :
    value (invoke library n .global none N.«round_redenominate» [] [.frac T o f, .int T d]) =
      Val.frac T o <$> Fraction.roundRedenominate T o f d := by
  have := opsDepth_ge o
  step n
  go [Fraction.roundRedenominate]

theorem fraction_toWhole_named_ok (T : IntTy) (o : Ops) (f : Raw) (mode : RoundMode) (hmode : mode ≠ .other) (h : opsDepth o + 6 ≤ n) :
    value (invoke library n .global none N.«to_whole» [] [.frac T o f, .rmode mode]) =
      Val.int T <$> Fraction.toWhole T o f mode := by
  have := opsDepth_ge o
  obtain ⟨m, hm⟩ : ∃ m, n = m + 1 := ⟨n - 1, by omega⟩
  subst hm
  rw [invoke_succ]
  cases mode
  case other => exact absurd rfl hmode
  all_goals
    simp [pick]
    go [Fraction.toWhole]

@[exec_header] theorem fraction_toWhole_default_ok (T : IntTy) (o : Ops) (f : Raw) (h : opsDepth o + 6 ≤ n) :
    value (invoke library n .global none N.«to_whole» [] [.frac T o f]) =
      Val.int T <$> Fraction.toWhole T o f := by
  have := opsDepth_ge o
  step n
  go [Fraction.toWhole]

@[exec_header] theorem fraction_toWhole_ok (T : IntTy) (o : Ops) (f : Raw) (mode : RoundMode) (h : opsDepth o + 7 ≤ n) :
    value (invoke library n .global none N.«to_whole» [] [.frac T o f, .rmode mode]) =
      Val.int T <$> Fraction.toWhole T o f mode := by
  by_cases hmode : mode = .other
  · have := opsDepth_ge o
    subst hmode
    step n
    go [Fraction.toWhole]
  · exact fraction_toWhole_named_ok T o f mode hmode (by omega)

theorem fraction_redenominate_named_ok (T : IntTy) (o : Ops) (f : Raw) (d : Int) (mode : RoundMode) (hmode : mode ≠ .other) (h : opsDepth o + 6 ≤ n) :
    value (invoke library n .global none N.«redenominate» [] [.frac T o f, .int T d, .rmode mode]) =
      Val.frac T o <$> Fraction.redenominate T o f d mode := by
  have := opsDepth_ge o
  obtain ⟨m, hm⟩ : ∃ m, n = m + 1 := ⟨n - 1, by omega⟩
  subst hm
  rw [invoke_succ]
  cases mode
  case other => exact absurd rfl hmode
  all_goals
    simp [pick]
    go [Fraction.redenominate]

@[exec_header] theorem fraction_redenominate_default_ok (T : IntTy) (o : Ops) (f : Raw) (d : Int) (h : opsDepth o + 6 ≤ n) :
    value (invoke library n .global none N.«redenominate» [] [.frac T o f, .int T d]) =
      Val.frac T o <$> Fraction.redenominate T o f d := by
  have := opsDepth_ge o
  step n
  go [Fraction.redenominate]

@[exec_header] theorem fraction_redenominate_ok (T : IntTy) (o : Ops) (f : Raw) (d : Int) (mode : RoundMode) (h : opsDepth o + 7 ≤ n) :
    value (invoke library n .global none N.«redenominate» [] [.frac T o f, .int T d, .rmode mode]) =
      Val.frac T o <$> Fraction.redenominate T o f d mode := by
  by_cases hmode : mode = .other
  · have := opsDepth_ge o
    subst hmode
    step n
    go [Fraction.redenominate]
  · exact fraction_redenominate_named_ok T o f d mode hmode (by omega)

@[exec_header] theorem fraction_pow2_ok (h : 6 ≤ n) (T : IntTy) (o : Ops) (e : Int) :
    value (invoke library n .global none N.«pow2» [.int T, .ops o] [.int i32 e]) =
      Val.frac T o <$> Fraction.pow2 T e := by
  step n
  go [Fraction.pow2, Fraction.mk]
  cases_agree

theorem conv_split (T : IntTy) (x : Int) :
    ∃ (w : Bool) (v : Int), T.InRange v ∧ T.conv x = Res.ok () w >>= fun _ => pure v := by
  unfold IntTy.conv
  split
  · exact ⟨false, x, by assumption, by simp; rfl⟩
  · refine ⟨true, _, T.wrap_inRange x, ?_⟩
    rfl

theorem fraction_pow_ok (T : IntTy) (o : Ops) (b e : Int) : ∃ k, ∀ n, k ≤ n →
    value (invoke library n .global none N.«pow» [.int T, .ops o] [.int T b, .int i32 e]) =
      Val.frac T o <$> Fraction.pow T b e := by
  by_cases he : e ≥ 0
  · obtain ⟨w, v, hv, hc⟩ := conv_split T e
    have hp := pow_ok T b v.natAbs v (Nat.le_refl _) hv
    refine ⟨v.natAbs + 6, fun n h => ?_⟩
    step n
    go [Fraction.pow, Fraction.mk, he, hc, hp]
  · cases hn : i32.neg e with
    | fault f =>
      refine ⟨6, fun n h => ?_⟩
      step n
      go [Fraction.pow, Fraction.mk, he, hn]
      simp [seq]
    | ok m w' =>
      replace hn : i32.neg e = Res.ok () w' >>= fun _ => pure m := by cases w' <;> exact hn
      obtain ⟨w, v, hv, hc⟩ := conv_split T m
      have hp := pow_ok T b v.natAbs v (Nat.le_refl _) hv
      refine ⟨v.natAbs + 6, fun n h => ?_⟩
      step n
      go [Fraction.pow, Fraction.mk, he, hn, hc, hp]

end Ieme.Header
