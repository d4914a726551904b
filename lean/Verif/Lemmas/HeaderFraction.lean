import Verif.Lemmas.HeaderPolicy

/-!
# The text of `fraction`, evaluated
-/

namespace Ieme.Header

variable {n : Nat}

attribute [exec_header] TVal.int.injEq TVal.raw.injEq TVal.frac.injEq TVal.ops.injEq toTy

local notation "fractionOf" T:max o:max => (Scope.mk N.«fraction» [TVal.int T, TVal.ops o])

@[exec_header] theorem fraction_numerator_ok (h : 1 ≤ n) (T : IntTy) (o : Ops) (r : Raw) :
    value (invoke library n (fractionOf T o) (some (.frac T o r)) N.«numerator» [] []) =
      pure (Val.int T r.num) := by
  step n
  go []

@[exec_header] theorem fraction_denominator_ok (h : 1 ≤ n) (T : IntTy) (o : Ops) (r : Raw) :
    value (invoke library n (fractionOf T o) (some (.frac T o r)) N.«denominator» [] []) =
      pure (Val.int T r.den) := by
  step n
  go []

@[exec_header] theorem fraction_num_ok (h : 2 ≤ n) (T : IntTy) (o : Ops) (r : Raw) :
    value (invoke library n (fractionOf T o) (some (.frac T o r)) N.«num» [] []) =
      pure (Val.int T r.num) := by
  step n
  go []

@[exec_header] theorem fraction_den_ok (h : 2 ≤ n) (T : IntTy) (o : Ops) (r : Raw) :
    value (invoke library n (fractionOf T o) (some (.frac T o r)) N.«den» [] []) =
      pure (Val.int T r.den) := by
  step n
  go []

@[exec_header] theorem fraction_raw_ok (h : 1 ≤ n) (T : IntTy) (o : Ops) (r : Raw) :
    value (invoke library n (fractionOf T o) (some (.frac T o r)) N.«raw» [] []) =
      pure (Val.raw T r) := by
  step n
  go []

@[exec_header] theorem fraction_ofRaw_ok (h : 1 ≤ n) (T : IntTy) (o : Ops) (r : Raw) :
    value (invoke library n (fractionOf T o) none N.«fraction» [] [.raw T r]) =
      pure (Val.frac T o (Fraction.ofRaw r)) := by
  step n
  go [Fraction.ofRaw]

@[exec_header] theorem fraction_mk_ok (h : 2 ≤ n) (T A B : IntTy) (o : Ops) (x y : Int) :
    value (invoke library n (fractionOf T o) none N.«fraction» [] [.int A x, .int B y]) =
      Val.frac T o <$> (toTy T A x >>= fun x => toTy T B y >>= fun y => pure (Fraction.mk x y)) := by
  step n
  go [Fraction.mk]

@[exec_header] theorem fraction_mk_one_ok (h : 2 ≤ n) (T A : IntTy) (o : Ops) (x : Int) :
    value (invoke library n (fractionOf T o) none N.«fraction» [] [.int A x]) =
      Val.frac T o <$> (toTy T A x >>= fun x => pure (Fraction.mk x)) := by
  step n
  go [Fraction.mk]
  cases_agree

@[exec_header] theorem fraction_ofOther_ok (h : 4 ≤ n) (T S : IntTy) (o o' : Ops) (r : Raw) :
    value (invoke library n (fractionOf T o) none N.«fraction» [] [.frac S o' r]) =
      Val.frac T o <$> if S = T then pure r else Fraction.ofOther T r := by
  step n
  by_cases hT : S = T
  · subst hT
    by_cases ho : o = o'
    · subst ho
      simp
      go []
    · simp [ho]
      go []
  · by_cases ho : o = o'
    · subst ho
      simp
      go [Fraction.ofOther, hT]
    · simp [ho]
      go [Fraction.ofOther, hT]

@[exec_header] theorem fraction_pos_ok (T : IntTy) (o : Ops) (f : Raw) (h : opsDepth o + 1 ≤ n) :
    value (invoke library n .global none N.«operator+» [] [.frac T o f]) =
      pure (Val.frac T o (Fraction.pos f)) := by
  have := opsDepth_ge o
  step n
  go [Fraction.pos]

@[exec_header] theorem fraction_neg_ok (T : IntTy) (o : Ops) (f : Raw) (h : opsDepth o + 1 ≤ n) :
    value (invoke library n .global none N.«operator-» [] [.frac T o f]) =
      Val.frac T o <$> Fraction.neg T o f := by
  have := opsDepth_ge o
  step n
  go [Fraction.neg, Fraction.ofRaw]

@[exec_header] theorem fraction_plusFF_ok (L R : IntTy) (o : Ops) (l r : Raw) (h : opsDepth o + 1 ≤ n) :
    value (invoke library n .global none N.«operator+» [] [.frac L o l, .frac R o r]) =
      Val.frac (L.common R) o <$> Fraction.arith L R o .plus (.ff l r) := by
  have := opsDepth_ge o
  step n
  by_cases hLR : L = R
  · subst hLR
    go [Fraction.arith, Fraction.toCommon, Fraction.ofRaw]
  · by_cases hL : L.common R = L
    · go [Fraction.arith, Fraction.toCommon, Fraction.ofRaw, hL, hLR, Ne.symm hLR]
    · by_cases hR : L.common R = R
      · go [Fraction.arith, Fraction.toCommon, Fraction.ofRaw, hR, hLR, Ne.symm hLR]
      · go [Fraction.arith, Fraction.toCommon, Fraction.ofRaw, hL, hR, hLR, Ne.symm hL, Ne.symm hR]

@[exec_header] theorem fraction_plusFR_ok (L R : IntTy) (o : Ops) (l : Raw) (r : Int) (h : opsDepth o + 1 ≤ n) :
    value (invoke library n .global none N.«operator+» [] [.frac L o l, .int R r]) =
      Val.frac (L.common R) o <$> Fraction.arith L R o .plus (.fr l r) := by
  have := opsDepth_ge o
  step n
  by_cases hLR : L = R
  · subst hLR
    go [Fraction.arith, Fraction.toCommon, Fraction.ofRaw]
  · by_cases hL : L.common R = L
    · go [Fraction.arith, Fraction.toCommon, Fraction.ofRaw, hL, hLR, Ne.symm hLR]
    · by_cases hR : L.common R = R
      · go [Fraction.arith, Fraction.toCommon, Fraction.ofRaw, hR, hLR, Ne.symm hLR]
      · go [Fraction.arith, Fraction.toCommon, Fraction.ofRaw, hL, hR, hLR, Ne.symm hL, Ne.symm hR]

@[exec_header] theorem fraction_plusRF_ok (L R : IntTy) (o : Ops) (l : Int) (r : Raw) (h : opsDepth o + 1 ≤ n) :
    value (invoke library n .global none N.«operator+» [] [.int L l, .frac R o r]) =
      Val.frac (L.common R) o <$> Fraction.arith L R o .plus (.rf l r) := by
  have := opsDepth_ge o
  step n
  by_cases hLR : L = R
  · subst hLR
    go [Fraction.arith, Fraction.toCommon, Fraction.ofRaw]
  · by_cases hL : L.common R = L
    · go [Fraction.arith, Fraction.toCommon, Fraction.ofRaw, hL, hLR, Ne.symm hLR]
    · by_cases hR : L.common R = R
      · go [Fraction.arith, Fraction.toCommon, Fraction.ofRaw, hR, hLR, Ne.symm hLR]
      · go [Fraction.arith, Fraction.toCommon, Fraction.ofRaw, hL, hR, hLR, Ne.symm hL, Ne.symm hR]

@[exec_header] theorem fraction_minusFF_ok (L R : IntTy) (o : Ops) (l r : Raw) (h : opsDepth o + 1 ≤ n) :
    value (invoke library n .global none N.«operator-» [] [.frac L o l, .frac R o r]) =
      Val.frac (L.common R) o <$> Fraction.arith L R o .minus (.ff l r) := by
  have := opsDepth_ge o
  step n
  by_cases hLR : L = R
  · subst hLR
    go [Fraction.arith, Fraction.toCommon, Fraction.ofRaw]
  · by_cases hL : L.common R = L
    · go [Fraction.arith, Fraction.toCommon, Fraction.ofRaw, hL, hLR, Ne.symm hLR]
    · by_cases hR : L.common R = R
      · go [Fraction.arith, Fraction.toCommon, Fraction.ofRaw, hR, hLR, Ne.symm hLR]
      · go [Fraction.arith, Fraction.toCommon, Fraction.ofRaw, hL, hR, hLR, Ne.symm hL, Ne.symm hR]

@[exec_header] theorem fraction_minusFR_ok (L R : IntTy) (o : Ops) (l : Raw) (r : Int) (h : opsDepth o + 1 ≤ n) :
    value (invoke library n .global none N.«operator-» [] [.frac L o l, .int R r]) =
      Val.frac (L.common R) o <$> Fraction.arith L R o .minus (.fr l r) := by
  have := opsDepth_ge o
  step n
  by_cases hLR : L = R
  · subst hLR
    go [Fraction.arith, Fraction.toCommon, Fraction.ofRaw]
  · by_cases hL : L.common R = L
    · go [Fraction.arith, Fraction.toCommon, Fraction.ofRaw, hL, hLR, Ne.symm hLR]
    · by_cases hR : L.common R = R
      · go [Fraction.arith, Fraction.toCommon, Fraction.ofRaw, hR, hLR, Ne.symm hLR]
      · go [Fraction.arith, Fraction.toCommon, Fraction.ofRaw, hL, hR, hLR, Ne.symm hL, Ne.symm hR]

@[exec_header] theorem fraction_minusRF_ok (L R : IntTy) (o : Ops) (l : Int) (r : Raw) (h : opsDepth o + 1 ≤ n) :
    value (invoke library n .global none N.«operator-» [] [.int L l, .frac R o r]) =
      Val.frac (L.common R) o <$> Fraction.arith L R o .minus (.rf l r) := by
  have := opsDepth_ge o
  step n
  by_cases hLR : L = R
  · subst hLR
    go [Fraction.arith, Fraction.toCommon, Fraction.ofRaw]
  · by_cases hL : L.common R = L
    · go [Fraction.arith, Fraction.toCommon, Fraction.ofRaw, hL, hLR, Ne.symm hLR]
    · by_cases hR : L.common R = R
      · go [Fraction.arith, Fraction.toCommon, Fraction.ofRaw, hR, hLR, Ne.symm hLR]
      · go [Fraction.arith, Fraction.toCommon, Fraction.ofRaw, hL, hR, hLR, Ne.symm hL, Ne.symm hR]

@[exec_header] theorem fraction_multipliesFF_ok (L R : IntTy) (o : Ops) (l r : Raw) (h : opsDepth o + 1 ≤ n) :
    value (invoke library n .global none N.«operator*» [] [.frac L o l, .frac R o r]) =
      Val.frac (L.common R) o <$> Fraction.arith L R o .multiplies (.ff l r) := by
  have := opsDepth_ge o
  step n
  by_cases hLR : L = R
  · subst hLR
    go [Fraction.arith, Fraction.toCommon, Fraction.ofRaw]
  · by_cases hL : L.common R = L
    · go [Fraction.arith, Fraction.toCommon, Fraction.ofRaw, hL, hLR, Ne.symm hLR]
    · by_cases hR : L.common R = R
      · go [Fraction.arith, Fraction.toCommon, Fraction.ofRaw, hR, hLR, Ne.symm hLR]
      · go [Fraction.arith, Fraction.toCommon, Fraction.ofRaw, hL, hR, hLR, Ne.symm hL, Ne.symm hR]

@[exec_header] theorem fraction_multipliesFR_ok (L R : IntTy) (o : Ops) (l : Raw) (r : Int) (h : opsDepth o + 1 ≤ n) :
    value (invoke library n .global none N.«operator*» [] [.frac L o l, .int R r]) =
      Val.frac (L.common R) o <$> Fraction.arith L R o .multiplies (.fr l r) := by
  have := opsDepth_ge o
  step n
  by_cases hLR : L = R
  · subst hLR
    go [Fraction.arith, Fraction.toCommon, Fraction.ofRaw]
  · by_cases hL : L.common R = L
    · go [Fraction.arith, Fraction.toCommon, Fraction.ofRaw, hL, hLR, Ne.symm hLR]
    · by_cases hR : L.common R = R
      · go [Fraction.arith, Fraction.toCommon, Fraction.ofRaw, hR, hLR, Ne.symm hLR]
      · go [Fraction.arith, Fraction.toCommon, Fraction.ofRaw, hL, hR, hLR, Ne.symm hL, Ne.symm hR]

@[exec_header] theorem fraction_multipliesRF_ok (L R : IntTy) (o : Ops) (l : Int) (r : Raw) (h : opsDepth o + 1 ≤ n) :
    value (invoke library n .global none N.«operator*» [] [.int L l, .frac R o r]) =
      Val.frac (L.common R) o <$> Fraction.arith L R o .multiplies (.rf l r) := by
  have := opsDepth_ge o
  step n
  by_cases hLR : L = R
  · subst hLR
    go [Fraction.arith, Fraction.toCommon, Fraction.ofRaw]
  · by_cases hL : L.common R = L
    · go [Fraction.arith, Fraction.toCommon, Fraction.ofRaw, hL, hLR, Ne.symm hLR]
    · by_cases hR : L.common R = R
      · go [Fraction.arith, Fraction.toCommon, Fraction.ofRaw, hR, hLR, Ne.symm hLR]
      · go [Fraction.arith, Fraction.toCommon, Fraction.ofRaw, hL, hR, hLR, Ne.symm hL, Ne.symm hR]

@[exec_header] theorem fraction_dividesFF_ok (L R : IntTy) (o : Ops) (l r : Raw) (h : opsDepth o + 1 ≤ n) :
    value (invoke library n .global none N.«operator/» [] [.frac L o l, .frac R o r]) =
      Val.frac (L.common R) o <$> Fraction.arith L R o .divides (.ff l r) := by
  have := opsDepth_ge o
  step n
  by_cases hLR : L = R
  · subst hLR
    go [Fraction.arith, Fraction.toCommon, Fraction.ofRaw]
  · by_cases hL : L.common R = L
    · go [Fraction.arith, Fraction.toCommon, Fraction.ofRaw, hL, hLR, Ne.symm hLR]
    · by_cases hR : L.common R = R
      · go [Fraction.arith, Fraction.toCommon, Fraction.ofRaw, hR, hLR, Ne.symm hLR]
      · go [Fraction.arith, Fraction.toCommon, Fraction.ofRaw, hL, hR, hLR, Ne.symm hL, Ne.symm hR]

@[exec_header] theorem fraction_dividesFR_ok (L R : IntTy) (o : Ops) (l : Raw) (r : Int) (h : opsDepth o + 1 ≤ n) :
    value (invoke library n .global none N.«operator/» [] [.frac L o l, .int R r]) =
      Val.frac (L.common R) o <$> Fraction.arith L R o .divides (.fr l r) := by
  have := opsDepth_ge o
  step n
  by_cases hLR : L = R
  · subst hLR
    go [Fraction.arith, Fraction.toCommon, Fraction.ofRaw]
  · by_cases hL : L.common R = L
    · go [Fraction.arith, Fraction.toCommon, Fraction.ofRaw, hL, hLR, Ne.symm hLR]
    · by_cases hR : L.common R = R
      · go [Fraction.arith, Fraction.toCommon, Fraction.ofRaw, hR, hLR, Ne.symm hLR]
      · go [Fraction.arith, Fraction.toCommon, Fraction.ofRaw, hL, hR, hLR, Ne.symm hL, Ne.symm hR]

@[exec_header] theorem fraction_dividesRF_ok (L R : IntTy) (o : Ops) (l : Int) (r : Raw) (h : opsDepth o + 1 ≤ n) :
    value (invoke library n .global none N.«operator/» [] [.int L l, .frac R o r]) =
      Val.frac (L.common R) o <$> Fraction.arith L R o .divides (.rf l r) := by
  have := opsDepth_ge o
  step n
  by_cases hLR : L = R
  · subst hLR
    go [Fraction.arith, Fraction.toCommon, Fraction.ofRaw]
  · by_cases hL : L.common R = L
    · go [Fraction.arith, Fraction.toCommon, Fraction.ofRaw, hL, hLR, Ne.symm hLR]
    · by_cases hR : L.common R = R
      · go [Fraction.arith, Fraction.toCommon, Fraction.ofRaw, hR, hLR, Ne.symm hLR]
      · go [Fraction.arith, Fraction.toCommon, Fraction.ofRaw, hL, hR, hLR, Ne.symm hL, Ne.symm hR]

@[exec_header] theorem fraction_modulusFF_ok (L R : IntTy) (o : Ops) (l r : Raw) (h : opsDepth o + 1 ≤ n) :
    value (invoke library n .global none N.«operator%» [] [.frac L o l, .frac R o r]) =
      Val.frac (L.common R) o <$> Fraction.arith L R o .modulus (.ff l r) := by
  have := opsDepth_ge o
  step n
  by_cases hLR : L = R
  · subst hLR
    go [Fraction.arith, Fraction.toCommon, Fraction.ofRaw]
  · by_cases hL : L.common R = L
    · go [Fraction.arith, Fraction.toCommon, Fraction.ofRaw, hL, hLR, Ne.symm hLR]
    · by_cases hR : L.common R = R
      · go [Fraction.arith, Fraction.toCommon, Fraction.ofRaw, hR, hLR, Ne.symm hLR]
      · go [Fraction.arith, Fraction.toCommon, Fraction.ofRaw, hL, hR, hLR, Ne.symm hL, Ne.symm hR]

@[exec_header] theorem fraction_modulusFR_ok (L R : IntTy) (o : Ops) (l : Raw) (r : Int) (h : opsDepth o + 1 ≤ n) :
    value (invoke library n .global none N.«operator%» [] [.frac L o l, .int R r]) =
      Val.frac (L.common R) o <$> Fraction.arith L R o .modulus (.fr l r) := by
  have := opsDepth_ge o
  step n
  by_cases hLR : L = R
  · subst hLR
    go [Fraction.arith, Fraction.toCommon, Fraction.ofRaw]
  · by_cases hL : L.common R = L
    · go [Fraction.arith, Fraction.toCommon, Fraction.ofRaw, hL, hLR, Ne.symm hLR]
    · by_cases hR : L.common R = R
      · go [Fraction.arith, Fraction.toCommon, Fraction.ofRaw, hR, hLR, Ne.symm hLR]
      · go [Fraction.arith, Fraction.toCommon, Fraction.ofRaw, hL, hR, hLR, Ne.symm hL, Ne.symm hR]

@[exec_header] theorem fraction_modulusRF_ok (L R : IntTy) (o : Ops) (l : Int) (r : Raw) (h : opsDepth o + 1 ≤ n) :
    value (invoke library n .global none N.«operator%» [] [.int L l, .frac R o r]) =
      Val.frac (L.common R) o <$> Fraction.arith L R o .modulus (.rf l r) := by
  have := opsDepth_ge o
  step n
  by_cases hLR : L = R
  · subst hLR
    go [Fraction.arith, Fraction.toCommon, Fraction.ofRaw]
  · by_cases hL : L.common R = L
    · go [Fraction.arith, Fraction.toCommon, Fraction.ofRaw, hL, hLR, Ne.symm hLR]
    · by_cases hR : L.common R = R
      · go [Fraction.arith, Fraction.toCommon, Fraction.ofRaw, hR, hLR, Ne.symm hLR]
      · go [Fraction.arith, Fraction.toCommon, Fraction.ofRaw, hL, hR, hLR, Ne.symm hL, Ne.symm hR]

@[exec_header] theorem fraction_equalToFF_ok (L R : IntTy) (o : Ops) (l r : Raw) (h : opsDepth o + 1 ≤ n) :
    value (invoke library n .global none N.«operator==» [] [.frac L o l, .frac R o r]) =
      Val.bool <$> Fraction.cmp L R o .equalTo (.ff l r) := by
  have := opsDepth_ge o
  step n
  by_cases hLR : L = R
  · subst hLR
    go [Fraction.cmp, Fraction.toCommon, Fraction.ofRaw]
  · by_cases hL : L.common R = L
    · go [Fraction.cmp, Fraction.toCommon, Fraction.ofRaw, hL, hLR, Ne.symm hLR]
    · by_cases hR : L.common R = R
      · go [Fraction.cmp, Fraction.toCommon, Fraction.ofRaw, hR, hLR, Ne.symm hLR]
      · go [Fraction.cmp, Fraction.toCommon, Fraction.ofRaw, hL, hR, hLR, Ne.symm hL, Ne.symm hR]

@[exec_header] theorem fraction_equalToFR_ok (L R : IntTy) (o : Ops) (l : Raw) (r : Int) (h : opsDepth o + 1 ≤ n) :
    value (invoke library n .global none N.«operator==» [] [.frac L o l, .int R r]) =
      Val.bool <$> Fraction.cmp L R o .equalTo (.fr l r) := by
  have := opsDepth_ge o
  step n
  by_cases hLR : L = R
  · subst hLR
    go [Fraction.cmp, Fraction.toCommon, Fraction.ofRaw]
  · by_cases hL : L.common R = L
    · go [Fraction.cmp, Fraction.toCommon, Fraction.ofRaw, hL, hLR, Ne.symm hLR]
    · by_cases hR : L.common R = R
      · go [Fraction.cmp, Fraction.toCommon, Fraction.ofRaw, hR, hLR, Ne.symm hLR]
      · go [Fraction.cmp, Fraction.toCommon, Fraction.ofRaw, hL, hR, hLR, Ne.symm hL, Ne.symm hR]

@[exec_header] theorem fraction_equalToRF_ok (L R : IntTy) (o : Ops) (l : Int) (r : Raw) (h : opsDepth o + 1 ≤ n) :
    value (invoke library n .global none N.«operator==» [] [.int L l, .frac R o r]) =
      Val.bool <$> Fraction.cmp L R o .equalTo (.rf l r) := by
  have := opsDepth_ge o
  step n
  by_cases hLR : L = R
  · subst hLR
    go [Fraction.cmp, Fraction.toCommon, Fraction.ofRaw]
  · by_cases hL : L.common R = L
    · go [Fraction.cmp, Fraction.toCommon, Fraction.ofRaw, hL, hLR, Ne.symm hLR]
    · by_cases hR : L.common R = R
      · go [Fraction.cmp, Fraction.toCommon, Fraction.ofRaw, hR, hLR, Ne.symm hLR]
      · go [Fraction.cmp, Fraction.toCommon, Fraction.ofRaw, hL, hR, hLR, Ne.symm hL, Ne.symm hR]

@[exec_header] theorem fraction_notEqualToFF_ok (L R : IntTy) (o : Ops) (l r : Raw) (h : opsDepth o + 1 ≤ n) :
    value (invoke library n .global none N.«operator!=» [] [.frac L o l, .frac R o r]) =
      Val.bool <$> Fraction.cmp L R o .notEqualTo (.ff l r) := by
  have := opsDepth_ge o
  step n
  by_cases hLR : L = R
  · subst hLR
    go [Fraction.cmp, Fraction.toCommon, Fraction.ofRaw]
  · by_cases hL : L.common R = L
    · go [Fraction.cmp, Fraction.toCommon, Fraction.ofRaw, hL, hLR, Ne.symm hLR]
    · by_cases hR : L.common R = R
      · go [Fraction.cmp, Fraction.toCommon, Fraction.ofRaw, hR, hLR, Ne.symm hLR]
      · go [Fraction.cmp, Fraction.toCommon, Fraction.ofRaw, hL, hR, hLR, Ne.symm hL, Ne.symm hR]

@[exec_header] theorem fraction_notEqualToFR_ok (L R : IntTy) (o : Ops) (l : Raw) (r : Int) (h : opsDepth o + 1 ≤ n) :
    value (invoke library n .global none N.«operator!=» [] [.frac L o l, .int R r]) =
      Val.bool <$> Fraction.cmp L R o .notEqualTo (.fr l r) := by
  have := opsDepth_ge o
  step n
  by_cases hLR : L = R
  · subst hLR
    go [Fraction.cmp, Fraction.toCommon, Fraction.ofRaw]
  · by_cases hL : L.common R = L
    · go [Fraction.cmp, Fraction.toCommon, Fraction.ofRaw, hL, hLR, Ne.symm hLR]
    · by_cases hR : L.common R = R
      · go [Fraction.cmp, Fraction.toCommon, Fraction.ofRaw, hR, hLR, Ne.symm hLR]
      · go [Fraction.cmp, Fraction.toCommon, Fraction.ofRaw, hL, hR, hLR, Ne.symm hL, Ne.symm hR]

@[exec_header] theorem fraction_notEqualToRF_ok (L R : IntTy) (o : Ops) (l : Int) (r : Raw) (h : opsDepth o + 1 ≤ n) :
    value (invoke library n .global none N.«operator!=» [] [.int L l, .frac R o r]) =
      Val.bool <$> Fraction.cmp L R o .notEqualTo (.rf l r) := by
  have := opsDepth_ge o
  step n
  by_cases hLR : L = R
  · subst hLR
    go [Fraction.cmp, Fraction.toCommon, Fraction.ofRaw]
  · by_cases hL : L.common R = L
    · go [Fraction.cmp, Fraction.toCommon, Fraction.ofRaw, hL, hLR, Ne.symm hLR]
    · by_cases hR : L.common R = R
      · go [Fraction.cmp, Fraction.toCommon, Fraction.ofRaw, hR, hLR, Ne.symm hLR]
      · go [Fraction.cmp, Fraction.toCommon, Fraction.ofRaw, hL, hR, hLR, Ne.symm hL, Ne.symm hR]

@[exec_header] theorem fraction_lessFF_ok (L R : IntTy) (o : Ops) (l r : Raw) (h : opsDepth o + 1 ≤ n) :
    value (invoke library n .global none N.«operator<» [] [.frac L o l, .frac R o r]) =
      Val.bool <$> Fraction.cmp L R o .less (.ff l r) := by
  have := opsDepth_ge o
  step n
  by_cases hLR : L = R
  · subst hLR
    go [Fraction.cmp, Fraction.toCommon, Fraction.ofRaw]
  · by_cases hL : L.common R = L
    · go [Fraction.cmp, Fraction.toCommon, Fraction.ofRaw, hL, hLR, Ne.symm hLR]
    · by_cases hR : L.common R = R
      · go [Fraction.cmp, Fraction.toCommon, Fraction.ofRaw, hR, hLR, Ne.symm hLR]
      · go [Fraction.cmp, Fraction.toCommon, Fraction.ofRaw, hL, hR, hLR, Ne.symm hL, Ne.symm hR]

@[exec_header] theorem fraction_lessFR_ok (L R : IntTy) (o : Ops) (l : Raw) (r : Int) (h : opsDepth o + 1 ≤ n) :
    value (invoke library n .global none N.«operator<» [] [.frac L o l, .int R r]) =
      Val.bool <$> Fraction.cmp L R o .less (.fr l r) := by
  have := opsDepth_ge o
  step n
  by_cases hLR : L = R
  · subst hLR
    go [Fraction.cmp, Fraction.toCommon, Fraction.ofRaw]
  · by_cases hL : L.common R = L
    · go [Fraction.cmp, Fraction.toCommon, Fraction.ofRaw, hL, hLR, Ne.symm hLR]
    · by_cases hR : L.common R = R
      · go [Fraction.cmp, Fraction.toCommon, Fraction.ofRaw, hR, hLR, Ne.symm hLR]
      · go [Fraction.cmp, Fraction.toCommon, Fraction.ofRaw, hL, hR, hLR, Ne.symm hL, Ne.symm hR]

@[exec_header] theorem fraction_lessRF_ok (L R : IntTy) (o : Ops) (l : Int) (r : Raw) (h : opsDepth o + 1 ≤ n) :
    value (invoke library n .global none N.«operator<» [] [.int L l, .frac R o r]) =
      Val.bool <$> Fraction.cmp L R o .less (.rf l r) := by
  have := opsDepth_ge o
  step n
  by_cases hLR : L = R
  · subst hLR
    go [Fraction.cmp, Fraction.toCommon, Fraction.ofRaw]
  · by_cases hL : L.common R = L
    · go [Fraction.cmp, Fraction.toCommon, Fraction.ofRaw, hL, hLR, Ne.symm hLR]
    · by_cases hR : L.common R = R
      · go [Fraction.cmp, Fraction.toCommon, Fraction.ofRaw, hR, hLR, Ne.symm hLR]
      · go [Fraction.cmp, Fraction.toCommon, Fraction.ofRaw, hL, hR, hLR, Ne.symm hL, Ne.symm hR]

@[exec_header] theorem fraction_lessEqualFF_ok (L R : IntTy) (o : Ops) (l r : Raw) (h : opsDepth o + 1 ≤ n) :
    value (invoke library n .global none N.«operator<=» [] [.frac L o l, .frac R o r]) =
      Val.bool <$> Fraction.cmp L R o .lessEqual (.ff l r) := by
  have := opsDepth_ge o
  step n
  by_cases hLR : L = R
  · subst hLR
    go [Fraction.cmp, Fraction.toCommon, Fraction.ofRaw]
  · by_cases hL : L.common R = L
    · go [Fraction.cmp, Fraction.toCommon, Fraction.ofRaw, hL, hLR, Ne.symm hLR]
    · by_cases hR : L.common R = R
      · go [Fraction.cmp, Fraction.toCommon, Fraction.ofRaw, hR, hLR, Ne.symm hLR]
      · go [Fraction.cmp, Fraction.toCommon, Fraction.ofRaw, hL, hR, hLR, Ne.symm hL, Ne.symm hR]

@[exec_header] theorem fraction_lessEqualFR_ok (L R : IntTy) (o : Ops) (l : Raw) (r : Int) (h : opsDepth o + 1 ≤ n) :
    value (invoke library n .global none N.«operator<=» [] [.frac L o l, .int R r]) =
      Val.bool <$> Fraction.cmp L R o .lessEqual (.fr l r) := by
  have := opsDepth_ge o
  step n
  by_cases hLR : L = R
  · subst hLR
    go [Fraction.cmp, Fraction.toCommon, Fraction.ofRaw]
  · by_cases hL : L.common R = L
    · go [Fraction.cmp, Fraction.toCommon, Fraction.ofRaw, hL, hLR, Ne.symm hLR]
    · by_cases hR : L.common R = R
      · go [Fraction.cmp, Fraction.toCommon, Fraction.ofRaw, hR, hLR, Ne.symm hLR]
      · go [Fraction.cmp, Fraction.toCommon, Fraction.ofRaw, hL, hR, hLR, Ne.symm hL, Ne.symm hR]

@[exec_header] theorem fraction_lessEqualRF_ok (L R : IntTy) (o : Ops) (l : Int) (r : Raw) (h : opsDepth o + 1 ≤ n) :
    value (invoke library n .global none N.«operator<=» [] [.int L l, .frac R o r]) =
      Val.bool <$> Fraction.cmp L R o .lessEqual (.rf l r) := by
  have := opsDepth_ge o
  step n
  by_cases hLR : L = R
  · subst hLR
    go [Fraction.cmp, Fraction.toCommon, Fraction.ofRaw]
  · by_cases hL : L.common R = L
    · go [Fraction.cmp, Fraction.toCommon, Fraction.ofRaw, hL, hLR, Ne.symm hLR]
    · by_cases hR : L.common R = R
      · go [Fraction.cmp, Fraction.toCommon, Fraction.ofRaw, hR, hLR, Ne.symm hLR]
      · go [Fraction.cmp, Fraction.toCommon, Fraction.ofRaw, hL, hR, hLR, Ne.symm hL, Ne.symm hR]

@[exec_header] theorem fraction_greaterFF_ok (L R : IntTy) (o : Ops) (l r : Raw) (h : opsDepth o + 1 ≤ n) :
    value (invoke library n .global none N.«operator>» [] [.frac L o l, .frac R o r]) =
      Val.bool <$> Fraction.cmp L R o .greater (.ff l r) := by
  have := opsDepth_ge o
  step n
  by_cases hLR : L = R
  · subst hLR
    go [Fraction.cmp, Fraction.toCommon, Fraction.ofRaw]
  · by_cases hL : L.common R = L
    · go [Fraction.cmp, Fraction.toCommon, Fraction.ofRaw, hL, hLR, Ne.symm hLR]
    · by_cases hR : L.common R = R
      · go [Fraction.cmp, Fraction.toCommon, Fraction.ofRaw, hR, hLR, Ne.symm hLR]
      · go [Fraction.cmp, Fraction.toCommon, Fraction.ofRaw, hL, hR, hLR, Ne.symm hL, Ne.symm hR]

@[exec_header] theorem fraction_greaterFR_ok (L R : IntTy) (o : Ops) (l : Raw) (r : Int) (h : opsDepth o + 1 ≤ n) :
    value (invoke library n .global none N.«operator>» [] [.frac L o l, .int R r]) =
      Val.bool <$> Fraction.cmp L R o .greater (.fr l r) := by
  have := opsDepth_ge o
  step n
  by_cases hLR : L = R
  · subst hLR
    go [Fraction.cmp, Fraction.toCommon, Fraction.ofRaw]
  · by_cases hL : L.common R = L
    · go [Fraction.cmp, Fraction.toCommon, Fraction.ofRaw, hL, hLR, Ne.symm hLR]
    · by_cases hR : L.common R = R
      · go [Fraction.cmp, Fraction.toCommon, Fraction.ofRaw, hR, hLR, Ne.symm hLR]
      · go [Fraction.cmp, Fraction.toCommon, Fraction.ofRaw, hL, hR, hLR, Ne.symm hL, Ne.symm hR]

@[exec_header] theorem fraction_greaterRF_ok (L R : IntTy) (o : Ops) (l : Int) (r : Raw) (h : opsDepth o + 1 ≤ n) :
    value (invoke library n .global none N.«operator>» [] [.int L l, .frac R o r]) =
      Val.bool <$> Fraction.cmp L R o .greater (.rf l r) := by
  have := opsDepth_ge o
  step n
  by_cases hLR : L = R
  · subst hLR
    go [Fraction.cmp, Fraction.toCommon, Fraction.ofRaw]
  · by_cases hL : L.common R = L
    · go [Fraction.cmp, Fraction.toCommon, Fraction.ofRaw, hL, hLR, Ne.symm hLR]
    · by_cases hR : L.common R = R
      · go [Fraction.cmp, Fraction.toCommon, Fraction.ofRaw, hR, hLR, Ne.symm hLR]
      · go [Fraction.cmp, Fraction.toCommon, Fraction.ofRaw, hL, hR, hLR, Ne.symm hL, Ne.symm hR]

@[exec_header] theorem fraction_greaterEqualFF_ok (L R : IntTy) (o : Ops) (l r : Raw) (h : opsDepth o + 1 ≤ n) :
    value (invoke library n .global none N.«operator>=» [] [.frac L o l, .frac R o r]) =
      Val.bool <$> Fraction.cmp L R o .greaterEqual (.ff l r) := by
  have := opsDepth_ge o
  step n
  by_cases hLR : L = R
  · subst hLR
    go [Fraction.cmp, Fraction.toCommon, Fraction.ofRaw]
  · by_cases hL : L.common R = L
    · go [Fraction.cmp, Fraction.toCommon, Fraction.ofRaw, hL, hLR, Ne.symm hLR]
    · by_cases hR : L.common R = R
      · go [Fraction.cmp, Fraction.toCommon, Fraction.ofRaw, hR, hLR, Ne.symm hLR]
      · go [Fraction.cmp, Fraction.toCommon, Fraction.ofRaw, hL, hR, hLR, Ne.symm hL, Ne.symm hR]

@[exec_header] theorem fraction_greaterEqualFR_ok (L R : IntTy) (o : Ops) (l : Raw) (r : Int) (h : opsDepth o + 1 ≤ n) :
    value (invoke library n .global none N.«operator>=» [] [.frac L o l, .int R r]) =
      Val.bool <$> Fraction.cmp L R o .greaterEqual (.fr l r) := by
  have := opsDepth_ge o
  step n
  by_cases hLR : L = R
  · subst hLR
    go [Fraction.cmp, Fraction.toCommon, Fraction.ofRaw]
  · by_cases hL : L.common R = L
    · go [Fraction.cmp, Fraction.toCommon, Fraction.ofRaw, hL, hLR, Ne.symm hLR]
    · by_cases hR : L.common R = R
      · go [Fraction.cmp, Fraction.toCommon, Fraction.ofRaw, hR, hLR, Ne.symm hLR]
      · go [Fraction.cmp, Fraction.toCommon, Fraction.ofRaw, hL, hR, hLR, Ne.symm hL, Ne.symm hR]

@[exec_header] theorem fraction_greaterEqualRF_ok (L R : IntTy) (o : Ops) (l : Int) (r : Raw) (h : opsDepth o + 1 ≤ n) :
    value (invoke library n .global none N.«operator>=» [] [.int L l, .frac R o r]) =
      Val.bool <$> Fraction.cmp L R o .greaterEqual (.rf l r) := by
  have := opsDepth_ge o
  step n
  by_cases hLR : L = R
  · subst hLR
    go [Fraction.cmp, Fraction.toCommon, Fraction.ofRaw]
  · by_cases hL : L.common R = L
    · go [Fraction.cmp, Fraction.toCommon, Fraction.ofRaw, hL, hLR, Ne.symm hLR]
    · by_cases hR : L.common R = R
      · go [Fraction.cmp, Fraction.toCommon, Fraction.ofRaw, hR, hLR, Ne.symm hLR]
      · go [Fraction.cmp, Fraction.toCommon, Fraction.ofRaw, hL, hR, hLR, Ne.symm hL, Ne.symm hR]

@[exec_header] theorem fraction_plus_assignF_value (L R : IntTy) (o : Ops) (l r : Raw) (h : opsDepth o + 2 ≤ n) :
    value (invoke library n .global none N.«operator+=» [] [.frac L o l, .frac R o r]) =
      Val.frac L o <$> Fraction.assignF L R o .plus l r := by
  have := opsDepth_ge o
  step n
  by_cases hLR : L = R
  · subst hLR
    go [Fraction.assignF]
  · go [Fraction.assignF, hLR, Ne.symm hLR]

@[exec_header] theorem fraction_plus_assignR_value (L R : IntTy) (o : Ops) (l : Raw) (r : Int) (h : opsDepth o + 2 ≤ n) :
    value (invoke library n .global none N.«operator+=» [] [.frac L o l, .int R r]) =
      Val.frac L o <$> Fraction.assignR L R o .plus l r := by
  have := opsDepth_ge o
  step n
  by_cases hLR : L = R
  · subst hLR
    go [Fraction.assignR]
  · go [Fraction.assignR, hLR, Ne.symm hLR]

@[exec_header] theorem fraction_plus_assignF_changed (L R : IntTy) (o : Ops) (l r : Raw) (h : opsDepth o + 2 ≤ n) :
    changed (invoke library n .global none N.«operator+=» [] [.frac L o l, .frac R o r]) =
      Val.frac L o <$> Fraction.assignF L R o .plus l r := by
  have := opsDepth_ge o
  step n
  by_cases hLR : L = R
  · subst hLR
    go [Fraction.assignF]
  · go [Fraction.assignF, hLR, Ne.symm hLR]

@[exec_header] theorem fraction_plus_assignR_changed (L R : IntTy) (o : Ops) (l : Raw) (r : Int) (h : opsDepth o + 2 ≤ n) :
    changed (invoke library n .global none N.«operator+=» [] [.frac L o l, .int R r]) =
      Val.frac L o <$> Fraction.assignR L R o .plus l r := by
  have := opsDepth_ge o
  step n
  by_cases hLR : L = R
  · subst hLR
    go [Fraction.assignR]
  · go [Fraction.assignR, hLR, Ne.symm hLR]

@[exec_header] theorem fraction_minus_assignF_value (L R : IntTy) (o : Ops) (l r : Raw) (h : opsDepth o + 2 ≤ n) :
    value (invoke library n .global none N.«operator-=» [] [.frac L o l, .frac R o r]) =
      Val.frac L o <$> Fraction.assignF L R o .minus l r := by
  have := opsDepth_ge o
  step n
  by_cases hLR : L = R
  · subst hLR
    go [Fraction.assignF]
  · go [Fraction.assignF, hLR, Ne.symm hLR]

@[exec_header] theorem fraction_minus_assignR_value (L R : IntTy) (o : Ops) (l : Raw) (r : Int) (h : opsDepth o + 2 ≤ n) :
    value (invoke library n .global none N.«operator-=» [] [.frac L o l, .int R r]) =
      Val.frac L o <$> Fraction.assignR L R o .minus l r := by
  have := opsDepth_ge o
  step n
  by_cases hLR : L = R
  · subst hLR
    go [Fraction.assignR]
  · go [Fraction.assignR, hLR, Ne.symm hLR]

@[exec_header] theorem fraction_minus_assignF_changed (L R : IntTy) (o : Ops) (l r : Raw) (h : opsDepth o + 2 ≤ n) :
    changed (invoke library n .global none N.«operator-=» [] [.frac L o l, .frac R o r]) =
      Val.frac L o <$> Fraction.assignF L R o .minus l r := by
  have := opsDepth_ge o
  step n
  by_cases hLR : L = R
  · subst hLR
    go [Fraction.assignF]
  · go [Fraction.assignF, hLR, Ne.symm hLR]

@[exec_header] theorem fraction_minus_assignR_changed (L R : IntTy) (o : Ops) (l : Raw) (r : Int) (h : opsDepth o + 2 ≤ n) :
    changed (invoke library n .global none N.«operator-=» [] [.frac L o l, .int R r]) =
      Val.frac L o <$> Fraction.assignR L R o .minus l r := by
  have := opsDepth_ge o
  step n
  by_cases hLR : L = R
  · subst hLR
    go [Fraction.assignR]
  · go [Fraction.assignR, hLR, Ne.symm hLR]

@[exec_header] theorem fraction_multiplies_assignF_value (L R : IntTy) (o : Ops) (l r : Raw) (h : opsDepth o + 2 ≤ n) :
    value (invoke library n .global none N.«operator*=» [] [.frac L o l, .frac R o r]) =
      Val.frac L o <$> Fraction.assignF L R o .multiplies l r := by
  have := opsDepth_ge o
  step n
  by_cases hLR : L = R
  · subst hLR
    go [Fraction.assignF]
  · go [Fraction.assignF, hLR, Ne.symm hLR]

@[exec_header] theorem fraction_multiplies_assignR_value (L R : IntTy) (o : Ops) (l : Raw) (r : Int) (h : opsDepth o + 2 ≤ n) :
    value (invoke library n .global none N.«operator*=» [] [.frac L o l, .int R r]) =
      Val.frac L o <$> Fraction.assignR L R o .multiplies l r := by
  have := opsDepth_ge o
  step n
  by_cases hLR : L = R
  · subst hLR
    go [Fraction.assignR]
  · go [Fraction.assignR, hLR, Ne.symm hLR]

@[exec_header] theorem fraction_multiplies_assignF_changed (L R : IntTy) (o : Ops) (l r : Raw) (h : opsDepth o + 2 ≤ n) :
    changed (invoke library n .global none N.«operator*=» [] [.frac L o l, .frac R o r]) =
      Val.frac L o <$> Fraction.assignF L R o .multiplies l r := by
  have := opsDepth_ge o
  step n
  by_cases hLR : L = R
  · subst hLR
    go [Fraction.assignF]
  · go [Fraction.assignF, hLR, Ne.symm hLR]

@[exec_header] theorem fraction_multiplies_assignR_changed (L R : IntTy) (o : Ops) (l : Raw) (r : Int) (h : opsDepth o + 2 ≤ n) :
    changed (invoke library n .global none N.«operator*=» [] [.frac L o l, .int R r]) =
      Val.frac L o <$> Fraction.assignR L R o .multiplies l r := by
  have := opsDepth_ge o
  step n
  by_cases hLR : L = R
  · subst hLR
    go [Fraction.assignR]
  · go [Fraction.assignR, hLR, Ne.symm hLR]

@[exec_header] theorem fraction_divides_assignF_value (L R : IntTy) (o : Ops) (l r : Raw) (h : opsDepth o + 2 ≤ n) :
    value (invoke library n .global none N.«operator/=» [] [.frac L o l, .frac R o r]) =
      Val.frac L o <$> Fraction.assignF L R o .divides l r := by
  have := opsDepth_ge o
  step n
  by_cases hLR : L = R
  · subst hLR
    go [Fraction.assignF]
  · go [Fraction.assignF, hLR, Ne.symm hLR]

@[exec_header] theorem fraction_divides_assignR_value (L R : IntTy) (o : Ops) (l : Raw) (r : Int) (h : opsDepth o + 2 ≤ n) :
    value (invoke library n .global none N.«operator/=» [] [.frac L o l, .int R r]) =
      Val.frac L o <$> Fraction.assignR L R o .divides l r := by
  have := opsDepth_ge o
  step n
  by_cases hLR : L = R
  · subst hLR
    go [Fraction.assignR]
  · go [Fraction.assignR, hLR, Ne.symm hLR]

@[exec_header] theorem fraction_divides_assignF_changed (L R : IntTy) (o : Ops) (l r : Raw) (h : opsDepth o + 2 ≤ n) :
    changed (invoke library n .global none N.«operator/=» [] [.frac L o l, .frac R o r]) =
      Val.frac L o <$> Fraction.assignF L R o .divides l r := by
  have := opsDepth_ge o
  step n
  by_cases hLR : L = R
  · subst hLR
    go [Fraction.assignF]
  · go [Fraction.assignF, hLR, Ne.symm hLR]

@[exec_header] theorem fraction_divides_assignR_changed (L R : IntTy) (o : Ops) (l : Raw) (r : Int) (h : opsDepth o + 2 ≤ n) :
    changed (invoke library n .global none N.«operator/=» [] [.frac L o l, .int R r]) =
      Val.frac L o <$> Fraction.assignR L R o .divides l r := by
  have := opsDepth_ge o
  step n
  by_cases hLR : L = R
  · subst hLR
    go [Fraction.assignR]
  · go [Fraction.assignR, hLR, Ne.symm hLR]

@[exec_header] theorem fraction_modulus_assignF_value (L R : IntTy) (o : Ops) (l r : Raw) (h : opsDepth o + 2 ≤ n) :
    value (invoke library n .global none N.«operator%=» [] [.frac L o l, .frac R o r]) =
      Val.frac L o <$> Fraction.assignF L R o .modulus l r := by
  have := opsDepth_ge o
  step n
  by_cases hLR : L = R
  · subst hLR
    go [Fraction.assignF]
  · go [Fraction.assignF, hLR, Ne.symm hLR]

@[exec_header] theorem fraction_modulus_assignR_value (L R : IntTy) (o : Ops) (l : Raw) (r : Int) (h : opsDepth o + 2 ≤ n) :
    value (invoke library n .global none N.«operator%=» [] [.frac L o l, .int R r]) =
      Val.frac L o <$> Fraction.assignR L R o .modulus l r := by
  have := opsDepth_ge o
  step n
  by_cases hLR : L = R
  · subst hLR
    go [Fraction.assignR]
  · go [Fraction.assignR, hLR, Ne.symm hLR]

@[exec_header] theorem fraction_modulus_assignF_changed (L R : IntTy) (o : Ops) (l r : Raw) (h : opsDepth o + 2 ≤ n) :
    changed (invoke library n .global none N.«operator%=» [] [.frac L o l, .frac R o r]) =
      Val.frac L o <$> Fraction.assignF L R o .modulus l r := by
  have := opsDepth_ge o
  step n
  by_cases hLR : L = R
  · subst hLR
    go [Fraction.assignF]
  · go [Fraction.assignF, hLR, Ne.symm hLR]

@[exec_header] theorem fraction_modulus_assignR_changed (L R : IntTy) (o : Ops) (l : Raw) (r : Int) (h : opsDepth o + 2 ≤ n) :
    changed (invoke library n .global none N.«operator%=» [] [.frac L o l, .int R r]) =
      Val.frac L o <$> Fraction.assignR L R o .modulus l r := by
  have := opsDepth_ge o
  step n
  by_cases hLR : L = R
  · subst hLR
    go [Fraction.assignR]
  · go [Fraction.assignR, hLR, Ne.symm hLR]

end Ieme.Header
