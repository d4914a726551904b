import Verif.Lemmas.HeaderSafe
import Verif.Lemmas.HeaderFast

/-!
# The text of the policies, evaluated

By induction on the policy: the members of `reduced_input` and `reduced_output` call those of the
policy they wrap.
-/

namespace Ieme.Header

/-- The depth of the calls that a member of a policy makes. -/
def opsDepth : Ops → Nat
  | .safe => 13
  | .fast => 13
  | .reducedInput o _ => opsDepth o + 1
  | .reducedOutput o _ => opsDepth o + 1

theorem opsDepth_ge (o : Ops) : 13 ≤ opsDepth o := by
  induction o <;> simp only [opsDepth] <;> omega

@[exec_header] theorem call_ops_type {p : Program} {inv : Invoke} {sc : Scope}
    {tys : List (Nat × TVal)} {ents : List (Nat × Val)} (f : Nat) (ts : List TVal)
    (args : List Val) :
    call p inv ⟨sc, tys, ents⟩ N.«ops_type» f ts args =
      seq (orIll (policyScope (tys.lookup N.«ops_type»))) fun sc => value (inv sc none f ts args) :=
  call_policy _ _ _ _ (by decide) (by decide) (by decide)

variable {n : Nat}

@[exec_header] theorem ops_negate_ok (T : IntTy) (o : Ops) (h : opsDepth o ≤ n) (v : Raw) :
    value (invoke library n (opsScope o) none N.«negate» [] [.raw T v]) =
      Val.raw T <$> o.negate T v := by
  induction o generalizing n v with
  | safe => exact safe_negate_ok (by simp only [opsDepth] at h; omega) T v
  | fast => exact fast_negate_ok (by simp only [opsDepth] at h; omega) T v
  | reducedInput o m ih =>
    have := opsDepth_ge o
    simp only [opsDepth] at h
    step n
    go [ih, Ops.negate, Raw.reduce]
  | reducedOutput o m ih =>
    have := opsDepth_ge o
    simp only [opsDepth] at h
    step n
    go [ih, Ops.negate, Raw.reduce]

@[exec_header] theorem ops_plusFF_ok (T : IntTy) (o : Ops) (h : opsDepth o ≤ n) (l r : Raw) :
    value (invoke library n (opsScope o) none N.«plus» [] [.raw T l, .raw T r]) =
      Val.raw T <$> o.arith T .plus (.ff l r) := by
  induction o generalizing n l r with
  | safe => exact safe_plusFF_ok (by simp only [opsDepth] at h; omega) T l r
  | fast => exact fast_plusFF_ok (by simp only [opsDepth] at h; omega) T l r
  | reducedInput o m ih =>
    have := opsDepth_ge o
    simp only [opsDepth] at h
    step n
    go [ih, Ops.arith, Args.reduce]
  | reducedOutput o m ih =>
    have := opsDepth_ge o
    simp only [opsDepth] at h
    step n
    go [ih, Ops.arith, Args.reduce]

@[exec_header] theorem ops_plusFR_ok (T : IntTy) (o : Ops) (h : opsDepth o ≤ n) (l : Raw) (r : Int) :
    value (invoke library n (opsScope o) none N.«plus» [] [.raw T l, .int T r]) =
      Val.raw T <$> o.arith T .plus (.fr l r) := by
  induction o generalizing n l r with
  | safe => exact safe_plusFR_ok (by simp only [opsDepth] at h; omega) T l r
  | fast => exact fast_plusFR_ok (by simp only [opsDepth] at h; omega) T l r
  | reducedInput o m ih =>
    have := opsDepth_ge o
    simp only [opsDepth] at h
    step n
    go [ih, Ops.arith, Args.reduce]
  | reducedOutput o m ih =>
    have := opsDepth_ge o
    simp only [opsDepth] at h
    step n
    go [ih, Ops.arith, Args.reduce]

@[exec_header] theorem ops_plusRF_ok (T : IntTy) (o : Ops) (h : opsDepth o ≤ n) (l : Int) (r : Raw) :
    value (invoke library n (opsScope o) none N.«plus» [] [.int T l, .raw T r]) =
      Val.raw T <$> o.arith T .plus (.rf l r) := by
  induction o generalizing n l r with
  | safe => exact safe_plusRF_ok (by simp only [opsDepth] at h; omega) T l r
  | fast => exact fast_plusRF_ok (by simp only [opsDepth] at h; omega) T l r
  | reducedInput o m ih =>
    have := opsDepth_ge o
    simp only [opsDepth] at h
    step n
    go [ih, Ops.arith, Args.reduce]
  | reducedOutput o m ih =>
    have := opsDepth_ge o
    simp only [opsDepth] at h
    step n
    go [ih, Ops.arith, Args.reduce]

@[exec_header] theorem ops_minusFF_ok (T : IntTy) (o : Ops) (h : opsDepth o ≤ n) (l r : Raw) :
    value (invoke library n (opsScope o) none N.«minus» [] [.raw T l, .raw T r]) =
      Val.raw T <$> o.arith T .minus (.ff l r) := by
  induction o generalizing n l r with
  | safe => exact safe_minusFF_ok (by simp only [opsDepth] at h; omega) T l r
  | fast => exact fast_minusFF_ok (by simp only [opsDepth] at h; omega) T l r
  | reducedInput o m ih =>
    have := opsDepth_ge o
    simp only [opsDepth] at h
    step n
    go [ih, Ops.arith, Args.reduce]
  | reducedOutput o m ih =>
    have := opsDepth_ge o
    simp only [opsDepth] at h
    step n
    go [ih, Ops.arith, Args.reduce]

@[exec_header] theorem ops_minusFR_ok (T : IntTy) (o : Ops) (h : opsDepth o ≤ n) (l : Raw) (r : Int) :
    value (invoke library n (opsScope o) none N.«minus» [] [.raw T l, .int T r]) =
      Val.raw T <$> o.arith T .minus (.fr l r) := by
  induction o generalizing n l r with
  | safe => exact safe_minusFR_ok (by simp only [opsDepth] at h; omega) T l r
  | fast => exact fast_minusFR_ok (by simp only [opsDepth] at h; omega) T l r
  | reducedInput o m ih =>
    have := opsDepth_ge o
    simp only [opsDepth] at h
    step n
    go [ih, Ops.arith, Args.reduce]
  | reducedOutput o m ih =>
    have := opsDepth_ge o
    simp only [opsDepth] at h
    step n
    go [ih, Ops.arith, Args.reduce]

@[exec_header] theorem ops_minusRF_ok (T : IntTy) (o : Ops) (h : opsDepth o ≤ n) (l : Int) (r : Raw) :
    value (invoke library n (opsScope o) none N.«minus» [] [.int T l, .raw T r]) =
      Val.raw T <$> o.arith T .minus (.rf l r) := by
  induction o generalizing n l r with
  | safe => exact safe_minusRF_ok (by simp only [opsDepth] at h; omega) T l r
  | fast => exact fast_minusRF_ok (by simp only [opsDepth] at h; omega) T l r
  | reducedInput o m ih =>
    have := opsDepth_ge o
    simp only [opsDepth] at h
    step n
    go [ih, Ops.arith, Args.reduce]
  | reducedOutput o m ih =>
    have := opsDepth_ge o
    simp only [opsDepth] at h
    step n
    go [ih, Ops.arith, Args.reduce]

@[exec_header] theorem ops_multipliesFF_ok (T : IntTy) (o : Ops) (h : opsDepth o ≤ n) (l r : Raw) :
    value (invoke library n (opsScope o) none N.«multiplies» [] [.raw T l, .raw T r]) =
      Val.raw T <$> o.arith T .multiplies (.ff l r) := by
  induction o generalizing n l r with
  | safe => exact safe_multipliesFF_ok (by simp only [opsDepth] at h; omega) T l r
  | fast => exact fast_multipliesFF_ok (by simp only [opsDepth] at h; omega) T l r
  | reducedInput o m ih =>
    have := opsDepth_ge o
    simp only [opsDepth] at h
    step n
    go [ih, Ops.arith, Args.reduce]
  | reducedOutput o m ih =>
    have := opsDepth_ge o
    simp only [opsDepth] at h
    step n
    go [ih, Ops.arith, Args.reduce]

@[exec_header] theorem ops_multipliesFR_ok (T : IntTy) (o : Ops) (h : opsDepth o ≤ n) (l : Raw) (r : Int) :
    value (invoke library n (opsScope o) none N.«multiplies» [] [.raw T l, .int T r]) =
      Val.raw T <$> o.arith T .multiplies (.fr l r) := by
  induction o generalizing n l r with
  | safe => exact safe_multipliesFR_ok (by simp only [opsDepth] at h; omega) T l r
  | fast => exact fast_multipliesFR_ok (by simp only [opsDepth] at h; omega) T l r
  | reducedInput o m ih =>
    have := opsDepth_ge o
    simp only [opsDepth] at h
    step n
    go [ih, Ops.arith, Args.reduce]
  | reducedOutput o m ih =>
    have := opsDepth_ge o
    simp only [opsDepth] at h
    step n
    go [ih, Ops.arith, Args.reduce]

@[exec_header] theorem ops_multipliesRF_ok (T : IntTy) (o : Ops) (h : opsDepth o ≤ n) (l : Int) (r : Raw) :
    value (invoke library n (opsScope o) none N.«multiplies» [] [.int T l, .raw T r]) =
      Val.raw T <$> o.arith T .multiplies (.rf l r) := by
  induction o generalizing n l r with
  | safe => exact safe_multipliesRF_ok (by simp only [opsDepth] at h; omega) T l r
  | fast => exact fast_multipliesRF_ok (by simp only [opsDepth] at h; omega) T l r
  | reducedInput o m ih =>
    have := opsDepth_ge o
    simp only [opsDepth] at h
    step n
    go [ih, Ops.arith, Args.reduce]
  | reducedOutput o m ih =>
    have := opsDepth_ge o
    simp only [opsDepth] at h
    step n
    go [ih, Ops.arith, Args.reduce]

@[exec_header] theorem ops_dividesFF_ok (T : IntTy) (o : Ops) (h : opsDepth o ≤ n) (l r : Raw) :
    value (invoke library n (opsScope o) none N.«divides» [] [.raw T l, .raw T r]) =
      Val.raw T <$> o.arith T .divides (.ff l r) := by
  induction o generalizing n l r with
  | safe => exact safe_dividesFF_ok (by simp only [opsDepth] at h; omega) T l r
  | fast => exact fast_dividesFF_ok (by simp only [opsDepth] at h; omega) T l r
  | reducedInput o m ih =>
    have := opsDepth_ge o
    simp only [opsDepth] at h
    step n
    go [ih, Ops.arith, Args.reduce]
  | reducedOutput o m ih =>
    have := opsDepth_ge o
    simp only [opsDepth] at h
    step n
    go [ih, Ops.arith, Args.reduce]

@[exec_header] theorem ops_dividesFR_ok (T : IntTy) (o : Ops) (h : opsDepth o ≤ n) (l : Raw) (r : Int) :
    value (invoke library n (opsScope o) none N.«divides» [] [.raw T l, .int T r]) =
      Val.raw T <$> o.arith T .divides (.fr l r) := by
  induction o generalizing n l r with
  | safe => exact safe_dividesFR_ok (by simp only [opsDepth] at h; omega) T l r
  | fast => exact fast_dividesFR_ok (by simp only [opsDepth] at h; omega) T l r
  | reducedInput o m ih =>
    have := opsDepth_ge o
    simp only [opsDepth] at h
    step n
    go [ih, Ops.arith, Args.reduce]
  | reducedOutput o m ih =>
    have := opsDepth_ge o
    simp only [opsDepth] at h
    step n
    go [ih, Ops.arith, Args.reduce]

@[exec_header] theorem ops_dividesRF_ok (T : IntTy) (o : Ops) (h : opsDepth o ≤ n) (l : Int) (r : Raw) :
    value (invoke library n (opsScope o) none N.«divides» [] [.int T l, .raw T r]) =
      Val.raw T <$> o.arith T .divides (.rf l r) := by
  induction o generalizing n l r with
  | safe => exact safe_dividesRF_ok (by simp only [opsDepth] at h; omega) T l r
  | fast => exact fast_dividesRF_ok (by simp only [opsDepth] at h; omega) T l r
  | reducedInput o m ih =>
    have := opsDepth_ge o
    simp only [opsDepth] at h
    step n
    go [ih, Ops.arith, Args.reduce]
  | reducedOutput o m ih =>
    have := opsDepth_ge o
    simp only [opsDepth] at h
    step n
    go [ih, Ops.arith, Args.reduce]

@[exec_header] theorem ops_modulusFF_ok (T : IntTy) (o : Ops) (h : opsDepth o ≤ n) (l r : Raw) :
    value (invoke library n (opsScope o) none N.«modulus» [] [.raw T l, .raw T r]) =
      Val.raw T <$> o.arith T .modulus (.ff l r) := by
  induction o generalizing n l r with
  | safe => exact safe_modulusFF_ok (by simp only [opsDepth] at h; omega) T l r
  | fast => exact fast_modulusFF_ok (by simp only [opsDepth] at h; omega) T l r
  | reducedInput o m ih =>
    have := opsDepth_ge o
    simp only [opsDepth] at h
    step n
    go [ih, Ops.arith, Args.reduce]
  | reducedOutput o m ih =>
    have := opsDepth_ge o
    simp only [opsDepth] at h
    step n
    go [ih, Ops.arith, Args.reduce]

@[exec_header] theorem ops_modulusFR_ok (T : IntTy) (o : Ops) (h : opsDepth o ≤ n) (l : Raw) (r : Int) :
    value (invoke library n (opsScope o) none N.«modulus» [] [.raw T l, .int T r]) =
      Val.raw T <$> o.arith T .modulus (.fr l r) := by
  induction o generalizing n l r with
  | safe => exact safe_modulusFR_ok (by simp only [opsDepth] at h; omega) T l r
  | fast => exact fast_modulusFR_ok (by simp only [opsDepth] at h; omega) T l r
  | reducedInput o m ih =>
    have := opsDepth_ge o
    simp only [opsDepth] at h
    step n
    go [ih, Ops.arith, Args.reduce]
  | reducedOutput o m ih =>
    have := opsDepth_ge o
    simp only [opsDepth] at h
    step n
    go [ih, Ops.arith, Args.reduce]

@[exec_header] theorem ops_modulusRF_ok (T : IntTy) (o : Ops) (h : opsDepth o ≤ n) (l : Int) (r : Raw) :
    value (invoke library n (opsScope o) none N.«modulus» [] [.int T l, .raw T r]) =
      Val.raw T <$> o.arith T .modulus (.rf l r) := by
  induction o generalizing n l r with
  | safe => exact safe_modulusRF_ok (by simp only [opsDepth] at h; omega) T l r
  | fast => exact fast_modulusRF_ok (by simp only [opsDepth] at h; omega) T l r
  | reducedInput o m ih =>
    have := opsDepth_ge o
    simp only [opsDepth] at h
    step n
    go [ih, Ops.arith, Args.reduce]
  | reducedOutput o m ih =>
    have := opsDepth_ge o
    simp only [opsDepth] at h
    step n
    go [ih, Ops.arith, Args.reduce]

@[exec_header] theorem ops_equalToFF_ok (T : IntTy) (o : Ops) (h : opsDepth o ≤ n) (l r : Raw) :
    value (invoke library n (opsScope o) none N.«equal_to» [] [.raw T l, .raw T r]) =
      Val.bool <$> o.cmp T .equalTo (.ff l r) := by
  induction o generalizing n l r with
  | safe => exact safe_equalToFF_ok (by simp only [opsDepth] at h; omega) T l r
  | fast => exact fast_equalToFF_ok (by simp only [opsDepth] at h; omega) T l r
  | reducedInput o m ih =>
    have := opsDepth_ge o
    simp only [opsDepth] at h
    step n
    go [ih, Ops.cmp, Args.reduce]
  | reducedOutput o m ih =>
    have := opsDepth_ge o
    simp only [opsDepth] at h
    step n
    go [ih, Ops.cmp, Args.reduce]

@[exec_header] theorem ops_equalToFR_ok (T : IntTy) (o : Ops) (h : opsDepth o ≤ n) (l : Raw) (r : Int) :
    value (invoke library n (opsScope o) none N.«equal_to» [] [.raw T l, .int T r]) =
      Val.bool <$> o.cmp T .equalTo (.fr l r) := by
  induction o generalizing n l r with
  | safe => exact safe_equalToFR_ok (by simp only [opsDepth] at h; omega) T l r
  | fast => exact fast_equalToFR_ok (by simp only [opsDepth] at h; omega) T l r
  | reducedInput o m ih =>
    have := opsDepth_ge o
    simp only [opsDepth] at h
    step n
    go [ih, Ops.cmp, Args.reduce]
  | reducedOutput o m ih =>
    have := opsDepth_ge o
    simp only [opsDepth] at h
    step n
    go [ih, Ops.cmp, Args.reduce]

@[exec_header] theorem ops_equalToRF_ok (T : IntTy) (o : Ops) (h : opsDepth o ≤ n) (l : Int) (r : Raw) :
    value (invoke library n (opsScope o) none N.«equal_to» [] [.int T l, .raw T r]) =
      Val.bool <$> o.cmp T .equalTo (.rf l r) := by
  induction o generalizing n l r with
  | safe => exact safe_equalToRF_ok (by simp only [opsDepth] at h; omega) T l r
  | fast => exact fast_equalToRF_ok (by simp only [opsDepth] at h; omega) T l r
  | reducedInput o m ih =>
    have := opsDepth_ge o
    simp only [opsDepth] at h
    step n
    go [ih, Ops.cmp, Args.reduce]
  | reducedOutput o m ih =>
    have := opsDepth_ge o
    simp only [opsDepth] at h
    step n
    go [ih, Ops.cmp, Args.reduce]

@[exec_header] theorem ops_notEqualToFF_ok (T : IntTy) (o : Ops) (h : opsDepth o ≤ n) (l r : Raw) :
    value (invoke library n (opsScope o) none N.«not_equal_to» [] [.raw T l, .raw T r]) =
      Val.bool <$> o.cmp T .notEqualTo (.ff l r) := by
  induction o generalizing n l r with
  | safe => exact safe_notEqualToFF_ok (by simp only [opsDepth] at h; omega) T l r
  | fast => exact fast_notEqualToFF_ok (by simp only [opsDepth] at h; omega) T l r
  | reducedInput o m ih =>
    have := opsDepth_ge o
    simp only [opsDepth] at h
    step n
    go [ih, Ops.cmp, Args.reduce]
  | reducedOutput o m ih =>
    have := opsDepth_ge o
    simp only [opsDepth] at h
    step n
    go [ih, Ops.cmp, Args.reduce]

@[exec_header] theorem ops_notEqualToFR_ok (T : IntTy) (o : Ops) (h : opsDepth o ≤ n) (l : Raw) (r : Int) :
    value (invoke library n (opsScope o) none N.«not_equal_to» [] [.raw T l, .int T r]) =
      Val.bool <$> o.cmp T .notEqualTo (.fr l r) := by
  induction o generalizing n l r with
  | safe => exact safe_notEqualToFR_ok (by simp only [opsDepth] at h; omega) T l r
  | fast => exact fast_notEqualToFR_ok (by simp only [opsDepth] at h; omega) T l r
  | reducedInput o m ih =>
    have := opsDepth_ge o
    simp only [opsDepth] at h
    step n
    go [ih, Ops.cmp, Args.reduce]
  | reducedOutput o m ih =>
    have := opsDepth_ge o
    simp only [opsDepth] at h
    step n
    go [ih, Ops.cmp, Args.reduce]

@[exec_header] theorem ops_notEqualToRF_ok (T : IntTy) (o : Ops) (h : opsDepth o ≤ n) (l : Int) (r : Raw) :
    value (invoke library n (opsScope o) none N.«not_equal_to» [] [.int T l, .raw T r]) =
      Val.bool <$> o.cmp T .notEqualTo (.rf l r) := by
  induction o generalizing n l r with
  | safe => exact safe_notEqualToRF_ok (by simp only [opsDepth] at h; omega) T l r
  | fast => exact fast_notEqualToRF_ok (by simp only [opsDepth] at h; omega) T l r
  | reducedInput o m ih =>
    have := opsDepth_ge o
    simp only [opsDepth] at h
    step n
    go [ih, Ops.cmp, Args.reduce]
  | reducedOutput o m ih =>
    have := opsDepth_ge o
    simp only [opsDepth] at h
    step n
    go [ih, Ops.cmp, Args.reduce]

@[exec_header] theorem ops_lessFF_ok (T : IntTy) (o : Ops) (h : opsDepth o ≤ n) (l r : Raw) :
    value (invoke library n (opsScope o) none N.«less» [] [.raw T l, .raw T r]) =
      Val.bool <$> o.cmp T .less (.ff l r) := by
  induction o generalizing n l r with
  | safe => exact safe_lessFF_ok (by simp only [opsDepth] at h; omega) T l r
  | fast => exact fast_lessFF_ok (by simp only [opsDepth] at h; omega) T l r
  | reducedInput o m ih =>
    have := opsDepth_ge o
    simp only [opsDepth] at h
    step n
    go [ih, Ops.cmp, Args.reduce]
  | reducedOutput o m ih =>
    have := opsDepth_ge o
    simp only [opsDepth] at h
    step n
    go [ih, Ops.cmp, Args.reduce]

@[exec_header] theorem ops_lessFR_ok (T : IntTy) (o : Ops) (h : opsDepth o ≤ n) (l : Raw) (r : Int) :
    value (invoke library n (opsScope o) none N.«less» [] [.raw T l, .int T r]) =
      Val.bool <$> o.cmp T .less (.fr l r) := by
  induction o generalizing n l r with
  | safe => exact safe_lessFR_ok (by simp only [opsDepth] at h; omega) T l r
  | fast => exact fast_lessFR_ok (by simp only [opsDepth] at h; omega) T l r
  | reducedInput o m ih =>
    have := opsDepth_ge o
    simp only [opsDepth] at h
    step n
    go [ih, Ops.cmp, Args.reduce]
  | reducedOutput o m ih =>
    have := opsDepth_ge o
    simp only [opsDepth] at h
    step n
    go [ih, Ops.cmp, Args.reduce]

@[exec_header] theorem ops_lessRF_ok (T : IntTy) (o : Ops) (h : opsDepth o ≤ n) (l : Int) (r : Raw) :
    value (invoke library n (opsScope o) none N.«less» [] [.int T l, .raw T r]) =
      Val.bool <$> o.cmp T .less (.rf l r) := by
  induction o generalizing n l r with
  | safe => exact safe_lessRF_ok (by simp only [opsDepth] at h; omega) T l r
  | fast => exact fast_lessRF_ok (by simp only [opsDepth] at h; omega) T l r
  | reducedInput o m ih =>
    have := opsDepth_ge o
    simp only [opsDepth] at h
    step n
    go [ih, Ops.cmp, Args.reduce]
  | reducedOutput o m ih =>
    have := opsDepth_ge o
    simp only [opsDepth] at h
    step n
    go [ih, Ops.cmp, Args.reduce]

@[exec_header] theorem ops_lessEqualFF_ok (T : IntTy) (o : Ops) (h : opsDepth o ≤ n) (l r : Raw) :
    value (invoke library n (opsScope o) none N.«less_equal» [] [.raw T l, .raw T r]) =
      Val.bool <$> o.cmp T .lessEqual (.ff l r) := by
  induction o generalizing n l r with
  | safe => exact safe_lessEqualFF_ok (by simp only [opsDepth] at h; omega) T l r
  | fast => exact fast_lessEqualFF_ok (by simp only [opsDepth] at h; omega) T l r
  | reducedInput o m ih =>
    have := opsDepth_ge o
    simp only [opsDepth] at h
    step n
    go [ih, Ops.cmp, Args.reduce]
  | reducedOutput o m ih =>
    have := opsDepth_ge o
    simp only [opsDepth] at h
    step n
    go [ih, Ops.cmp, Args.reduce]

@[exec_header] theorem ops_lessEqualFR_ok (T : IntTy) (o : Ops) (h : opsDepth o ≤ n) (l : Raw) (r : Int) :
    value (invoke library n (opsScope o) none N.«less_equal» [] [.raw T l, .int T r]) =
      Val.bool <$> o.cmp T .lessEqual (.fr l r) := by
  induction o generalizing n l r with
  | safe => exact safe_lessEqualFR_ok (by simp only [opsDepth] at h; omega) T l r
  | fast => exact fast_lessEqualFR_ok (by simp only [opsDepth] at h; omega) T l r
  | reducedInput o m ih =>
    have := opsDepth_ge o
    simp only [opsDepth] at h
    step n
    go [ih, Ops.cmp, Args.reduce]
  | reducedOutput o m ih =>
    have := opsDepth_ge o
    simp only [opsDepth] at h
    step n
    go [ih, Ops.cmp, Args.reduce]

@[exec_header] theorem ops_lessEqualRF_ok (T : IntTy) (o : Ops) (h : opsDepth o ≤ n) (l : Int) (r : Raw) :
    value (invoke library n (opsScope o) none N.«less_equal» [] [.int T l, .raw T r]) =
      Val.bool <$> o.cmp T .lessEqual (.rf l r) := by
  induction o generalizing n l r with
  | safe => exact safe_lessEqualRF_ok (by simp only [opsDepth] at h; omega) T l r
  | fast => exact fast_lessEqualRF_ok (by simp only [opsDepth] at h; omega) T l r
  | reducedInput o m ih =>
    have := opsDepth_ge o
    simp only [opsDepth] at h
    step n
    go [ih, Ops.cmp, Args.reduce]
  | reducedOutput o m ih =>
    have := opsDepth_ge o
    simp only [opsDepth] at h
    step n
    go [ih, Ops.cmp, Args.reduce]

@[exec_header] theorem ops_greaterFF_ok (T : IntTy) (o : Ops) (h : opsDepth o ≤ n) (l r : Raw) :
    value (invoke library n (opsScope o) none N.«greater» [] [.raw T l, .raw T r]) =
      Val.bool <$> o.cmp T .greater (.ff l r) := by
  induction o generalizing n l r with
  | safe => exact safe_greaterFF_ok (by simp only [opsDepth] at h; omega) T l r
  | fast => exact fast_greaterFF_ok (by simp only [opsDepth] at h; omega) T l r
  | reducedInput o m ih =>
    have := opsDepth_ge o
    simp only [opsDepth] at h
    step n
    go [ih, Ops.cmp, Args.reduce]
  | reducedOutput o m ih =>
    have := opsDepth_ge o
    simp only [opsDepth] at h
    step n
    go [ih, Ops.cmp, Args.reduce]

@[exec_header] theorem ops_greaterFR_ok (T : IntTy) (o : Ops) (h : opsDepth o ≤ n) (l : Raw) (r : Int) :
    value (invoke library n (opsScope o) none N.«greater» [] [.raw T l, .int T r]) =
      Val.bool <$> o.cmp T .greater (.fr l r) := by
  induction o generalizing n l r with
  | safe => exact safe_greaterFR_ok (by simp only [opsDepth] at h; omega) T l r
  | fast => exact fast_greaterFR_ok (by simp only [opsDepth] at h; omega) T l r
  | reducedInput o m ih =>
    have := opsDepth_ge o
    simp only [opsDepth] at h
    step n
    go [ih, Ops.cmp, Args.reduce]
  | reducedOutput o m ih =>
    have := opsDepth_ge o
    simp only [opsDepth] at h
    step n
    go [ih, Ops.cmp, Args.reduce]

@[exec_header] theorem ops_greaterRF_ok (T : IntTy) (o : Ops) (h : opsDepth o ≤ n) (l : Int) (r : Raw) :
    value (invoke library n (opsScope o) none N.«greater» [] [.int T l, .raw T r]) =
      Val.bool <$> o.cmp T .greater (.rf l r) := by
  induction o generalizing n l r with
  | safe => exact safe_greaterRF_ok (by simp only [opsDepth] at h; omega) T l r
  | fast => exact fast_greaterRF_ok (by simp only [opsDepth] at h; omega) T l r
  | reducedInput o m ih =>
    have := opsDepth_ge o
    simp only [opsDepth] at h
    step n
    go [ih, Ops.cmp, Args.reduce]
  | reducedOutput o m ih =>
    have := opsDepth_ge o
    simp only [opsDepth] at h
    step n
    go [ih, Ops.cmp, Args.reduce]

@[exec_header] theorem ops_greaterEqualFF_ok (T : IntTy) (o : Ops) (h : opsDepth o ≤ n) (l r : Raw) :
    value (invoke library n (opsScope o) none N.«greater_equal» [] [.raw T l, .raw T r]) =
      Val.bool <$> o.cmp T .greaterEqual (.ff l r) := by
  induction o generalizing n l r with
  | safe => exact safe_greaterEqualFF_ok (by simp only [opsDepth] at h; omega) T l r
  | fast => exact fast_greaterEqualFF_ok (by simp only [opsDepth] at h; omega) T l r
  | reducedInput o m ih =>
    have := opsDepth_ge o
    simp only [opsDepth] at h
    step n
    go [ih, Ops.cmp, Args.reduce]
  | reducedOutput o m ih =>
    have := opsDepth_ge o
    simp only [opsDepth] at h
    step n
    go [ih, Ops.cmp, Args.reduce]

@[exec_header] theorem ops_greaterEqualFR_ok (T : IntTy) (o : Ops) (h : opsDepth o ≤ n) (l : Raw) (r : Int) :
    value (invoke library n (opsScope o) none N.«greater_equal» [] [.raw T l, .int T r]) =
      Val.bool <$> o.cmp T .greaterEqual (.fr l r) := by
  induction o generalizing n l r with
  | safe => exact safe_greaterEqualFR_ok (by simp only [opsDepth] at h; omega) T l r
  | fast => exact fast_greaterEqualFR_ok (by simp only [opsDepth] at h; omega) T l r
  | reducedInput o m ih =>
    have := opsDepth_ge o
    simp only [opsDepth] at h
    step n
    go [ih, Ops.cmp, Args.reduce]
  | reducedOutput o m ih =>
    have := opsDepth_ge o
    simp only [opsDepth] at h
    step n
    go [ih, Ops.cmp, Args.reduce]

@[exec_header] theorem ops_greaterEqualRF_ok (T : IntTy) (o : Ops) (h : opsDepth o ≤ n) (l : Int) (r : Raw) :
    value (invoke library n (opsScope o) none N.«greater_equal» [] [.int T l, .raw T r]) =
      Val.bool <$> o.cmp T .greaterEqual (.rf l r) := by
  induction o generalizing n l r with
  | safe => exact safe_greaterEqualRF_ok (by simp only [opsDepth] at h; omega) T l r
  | fast => exact fast_greaterEqualRF_ok (by simp only [opsDepth] at h; omega) T l r
  | reducedInput o m ih =>
    have := opsDepth_ge o
    simp only [opsDepth] at h
    step n
    go [ih, Ops.cmp, Args.reduce]
  | reducedOutput o m ih =>
    have := opsDepth_ge o
    simp only [opsDepth] at h
    step n
    go [ih, Ops.cmp, Args.reduce]

end Ieme.Header
