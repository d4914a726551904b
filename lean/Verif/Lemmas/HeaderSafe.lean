import Verif.Lemmas.HeaderRaw

/-!
# The text of `ops::safe`, evaluated
-/

namespace Ieme.Header

variable {n : Nat}

@[exec_header] theorem safe_negate_ok (h : 8 ≤ n) (T : IntTy) (v : Raw) :
    value (invoke library n ⟨N.«safe», []⟩ none N.«negate» [] [.raw T v]) =
      Val.raw T <$> Safe.negate T v := by
  step n
  go [Safe.negate]

@[exec_header] theorem safe_plusFF_ok (h : 8 ≤ n) (T : IntTy) (l r : Raw) :
    value (invoke library n ⟨N.«safe», []⟩ none N.«plus» [] [.raw T l, .raw T r]) =
      Val.raw T <$> Safe.plusFF T l r := by
  step n
  go [Safe.plusFF]

@[exec_header] theorem safe_plusFR_ok (h : 8 ≤ n) (T : IntTy) (l : Raw) (r : Int) :
    value (invoke library n ⟨N.«safe», []⟩ none N.«plus» [] [.raw T l, .int T r]) =
      Val.raw T <$> Safe.plusFR T l r := by
  step n
  go [Safe.plusFR]

@[exec_header] theorem safe_plusRF_ok (h : 9 ≤ n) (T : IntTy) (l : Int) (r : Raw) :
    value (invoke library n ⟨N.«safe», []⟩ none N.«plus» [] [.int T l, .raw T r]) =
      Val.raw T <$> Safe.plusRF T l r := by
  step n
  go [Safe.plusRF]

@[exec_header] theorem safe_minusFF_ok (h : 8 ≤ n) (T : IntTy) (l r : Raw) :
    value (invoke library n ⟨N.«safe», []⟩ none N.«minus» [] [.raw T l, .raw T r]) =
      Val.raw T <$> Safe.minusFF T l r := by
  step n
  go [Safe.minusFF]

@[exec_header] theorem safe_minusFR_ok (h : 8 ≤ n) (T : IntTy) (l : Raw) (r : Int) :
    value (invoke library n ⟨N.«safe», []⟩ none N.«minus» [] [.raw T l, .int T r]) =
      Val.raw T <$> Safe.minusFR T l r := by
  step n
  go [Safe.minusFR]

@[exec_header] theorem safe_minusRF_ok (h : 9 ≤ n) (T : IntTy) (l : Int) (r : Raw) :
    value (invoke library n ⟨N.«safe», []⟩ none N.«minus» [] [.int T l, .raw T r]) =
      Val.raw T <$> Safe.minusRF T l r := by
  step n
  go [Safe.minusRF]

@[exec_header] theorem safe_multipliesFF_ok (h : 8 ≤ n) (T : IntTy) (l r : Raw) :
    value (invoke library n ⟨N.«safe», []⟩ none N.«multiplies» [] [.raw T l, .raw T r]) =
      Val.raw T <$> Safe.multipliesFF T l r := by
  step n
  go [Safe.multipliesFF]

@[exec_header] theorem safe_multipliesFR_ok (h : 8 ≤ n) (T : IntTy) (l : Raw) (r : Int) :
    value (invoke library n ⟨N.«safe», []⟩ none N.«multiplies» [] [.raw T l, .int T r]) =
      Val.raw T <$> Safe.multipliesFR T l r := by
  step n
  go [Safe.multipliesFR]

@[exec_header] theorem safe_multipliesRF_ok (h : 9 ≤ n) (T : IntTy) (l : Int) (r : Raw) :
    value (invoke library n ⟨N.«safe», []⟩ none N.«multiplies» [] [.int T l, .raw T r]) =
      Val.raw T <$> Safe.multipliesRF T l r := by
  step n
  go [Safe.multipliesRF]

@[exec_header] theorem safe_dividesFF_ok (h : 8 ≤ n) (T : IntTy) (l r : Raw) :
    value (invoke library n ⟨N.«safe», []⟩ none N.«divides» [] [.raw T l, .raw T r]) =
      Val.raw T <$> Safe.dividesFF T l r := by
  step n
  go [Safe.dividesFF]

@[exec_header] theorem safe_dividesFR_ok (h : 8 ≤ n) (T : IntTy) (l : Raw) (r : Int) :
    value (invoke library n ⟨N.«safe», []⟩ none N.«divides» [] [.raw T l, .int T r]) =
      Val.raw T <$> Safe.dividesFR T l r := by
  step n
  go [Safe.dividesFR]

@[exec_header] theorem safe_dividesRF_ok (h : 9 ≤ n) (T : IntTy) (l : Int) (r : Raw) :
    value (invoke library n ⟨N.«safe», []⟩ none N.«divides» [] [.int T l, .raw T r]) =
      Val.raw T <$> Safe.dividesRF T l r := by
  step n
  go [Safe.dividesRF]

@[exec_header] theorem safe_modulusFF_ok (h : 8 ≤ n) (T : IntTy) (l r : Raw) :
    value (invoke library n ⟨N.«safe», []⟩ none N.«modulus» [] [.raw T l, .raw T r]) =
      Val.raw T <$> Safe.modulusFF T l r := by
  step n
  go [Safe.modulusFF]

@[exec_header] theorem safe_modulusFR_ok (h : 8 ≤ n) (T : IntTy) (l : Raw) (r : Int) :
    value (invoke library n ⟨N.«safe», []⟩ none N.«modulus» [] [.raw T l, .int T r]) =
      Val.raw T <$> Safe.modulusFR T l r := by
  step n
  go [Safe.modulusFR]

@[exec_header] theorem safe_modulusRF_ok (h : 9 ≤ n) (T : IntTy) (l : Int) (r : Raw) :
    value (invoke library n ⟨N.«safe», []⟩ none N.«modulus» [] [.int T l, .raw T r]) =
      Val.raw T <$> Safe.modulusRF T l r := by
  step n
  go [Safe.modulusRF]

@[exec_header] theorem safe_equalToFF_ok (h : 8 ≤ n) (T : IntTy) (l r : Raw) :
    value (invoke library n ⟨N.«safe», []⟩ none N.«equal_to» [] [.raw T l, .raw T r]) =
      Val.bool <$> Safe.equalToFF T l r := by
  step n
  go [Safe.equalToFF]
  cases_agree

@[exec_header] theorem safe_equalToFR_ok (h : 8 ≤ n) (T : IntTy) (l : Raw) (r : Int) :
    value (invoke library n ⟨N.«safe», []⟩ none N.«equal_to» [] [.raw T l, .int T r]) =
      Val.bool <$> Safe.equalToFR T l r := by
  step n
  go [Safe.equalToFR]

@[exec_header] theorem safe_equalToRF_ok (h : 9 ≤ n) (T : IntTy) (l : Int) (r : Raw) :
    value (invoke library n ⟨N.«safe», []⟩ none N.«equal_to» [] [.int T l, .raw T r]) =
      Val.bool <$> Safe.equalToRF T l r := by
  step n
  go [Safe.equalToRF]

@[exec_header] theorem safe_notEqualToFF_ok (h : 9 ≤ n) (T : IntTy) (l r : Raw) :
    value (invoke library n ⟨N.«safe», []⟩ none N.«not_equal_to» [] [.raw T l, .raw T r]) =
      Val.bool <$> Safe.notEqualToFF T l r := by
  step n
  go [Safe.notEqualToFF]

@[exec_header] theorem safe_notEqualToFR_ok (h : 9 ≤ n) (T : IntTy) (l : Raw) (r : Int) :
    value (invoke library n ⟨N.«safe», []⟩ none N.«not_equal_to» [] [.raw T l, .int T r]) =
      Val.bool <$> Safe.notEqualToFR T l r := by
  step n
  go [Safe.notEqualToFR]

@[exec_header] theorem safe_notEqualToRF_ok (h : 10 ≤ n) (T : IntTy) (l : Int) (r : Raw) :
    value (invoke library n ⟨N.«safe», []⟩ none N.«not_equal_to» [] [.int T l, .raw T r]) =
      Val.bool <$> Safe.notEqualToRF T l r := by
  step n
  go [Safe.notEqualToRF]

@[exec_header] theorem safe_lessFF_ok (h : 8 ≤ n) (T : IntTy) (l r : Raw) :
    value (invoke library n ⟨N.«safe», []⟩ none N.«less» [] [.raw T l, .raw T r]) =
      Val.bool <$> Safe.lessFF T l r := by
  step n
  go [Safe.lessFF]
  cases_agree

@[exec_header] theorem safe_lessFR_ok (h : 8 ≤ n) (T : IntTy) (l : Raw) (r : Int) :
    value (invoke library n ⟨N.«safe», []⟩ none N.«less» [] [.raw T l, .int T r]) =
      Val.bool <$> Safe.lessFR T l r := by
  step n
  go [Safe.lessFR]

@[exec_header] theorem safe_lessRF_ok (h : 9 ≤ n) (T : IntTy) (l : Int) (r : Raw) :
    value (invoke library n ⟨N.«safe», []⟩ none N.«less» [] [.int T l, .raw T r]) =
      Val.bool <$> Safe.lessRF T l r := by
  step n
  go [Safe.lessRF]

@[exec_header] theorem safe_lessEqualFF_ok (h : 10 ≤ n) (T : IntTy) (l r : Raw) :
    value (invoke library n ⟨N.«safe», []⟩ none N.«less_equal» [] [.raw T l, .raw T r]) =
      Val.bool <$> Safe.lessEqualFF T l r := by
  step n
  go [Safe.lessEqualFF]
  cases_agree

@[exec_header] theorem safe_lessEqualFR_ok (h : 10 ≤ n) (T : IntTy) (l : Raw) (r : Int) :
    value (invoke library n ⟨N.«safe», []⟩ none N.«less_equal» [] [.raw T l, .int T r]) =
      Val.bool <$> Safe.lessEqualFR T l r := by
  step n
  go [Safe.lessEqualFR]

@[exec_header] theorem safe_lessEqualRF_ok (h : 11 ≤ n) (T : IntTy) (l : Int) (r : Raw) :
    value (invoke library n ⟨N.«safe», []⟩ none N.«less_equal» [] [.int T l, .raw T r]) =
      Val.bool <$> Safe.lessEqualRF T l r := by
  step n
  go [Safe.lessEqualRF]

@[exec_header] theorem safe_greaterFF_ok (h : 12 ≤ n) (T : IntTy) (l r : Raw) :
    value (invoke library n ⟨N.«safe», []⟩ none N.«greater» [] [.raw T l, .raw T r]) =
      Val.bool <$> Safe.greaterFF T l r := by
  step n
  go [Safe.greaterFF]

@[exec_header] theorem safe_greaterFR_ok (h : 12 ≤ n) (T : IntTy) (l : Raw) (r : Int) :
    value (invoke library n ⟨N.«safe», []⟩ none N.«greater» [] [.raw T l, .int T r]) =
      Val.bool <$> Safe.greaterFR T l r := by
  step n
  go [Safe.greaterFR]

@[exec_header] theorem safe_greaterRF_ok (h : 12 ≤ n) (T : IntTy) (l : Int) (r : Raw) :
    value (invoke library n ⟨N.«safe», []⟩ none N.«greater» [] [.int T l, .raw T r]) =
      Val.bool <$> Safe.greaterRF T l r := by
  step n
  go [Safe.greaterRF]

@[exec_header] theorem safe_greaterEqualFF_ok (h : 13 ≤ n) (T : IntTy) (l r : Raw) :
    value (invoke library n ⟨N.«safe», []⟩ none N.«greater_equal» [] [.raw T l, .raw T r]) =
      Val.bool <$> Safe.greaterEqualFF T l r := by
  step n
  go [Safe.greaterEqualFF]

@[exec_header] theorem safe_greaterEqualFR_ok (h : 13 ≤ n) (T : IntTy) (l : Raw) (r : Int) :
    value (invoke library n ⟨N.«safe», []⟩ none N.«greater_equal» [] [.raw T l, .int T r]) =
      Val.bool <$> Safe.greaterEqualFR T l r := by
  step n
  go [Safe.greaterEqualFR]

@[exec_header] theorem safe_greaterEqualRF_ok (h : 13 ≤ n) (T : IntTy) (l : Int) (r : Raw) :
    value (invoke library n ⟨N.«safe», []⟩ none N.«greater_equal» [] [.int T l, .raw T r]) =
      Val.bool <$> Safe.greaterEqualRF T l r := by
  step n
  go [Safe.greaterEqualRF]

end Ieme.Header
