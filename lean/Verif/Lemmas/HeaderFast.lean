import Verif.Lemmas.HeaderRaw

/-!
# The text of `ops::fast`, evaluated
-/

namespace Ieme.Header

variable {n : Nat}

@[exec_header] theorem fast_negate_ok (h : 8 ≤ n) (T : IntTy) (v : Raw) :
    value (invoke library n ⟨N.«fast», []⟩ none N.«negate» [] [.raw T v]) =
      Val.raw T <$> Fast.negate T v := by
  step n
  go [Fast.negate]

@[exec_header] theorem fast_plusFF_ok (h : 8 ≤ n) (T : IntTy) (l r : Raw) :
    value (invoke library n ⟨N.«fast», []⟩ none N.«plus» [] [.raw T l, .raw T r]) =
      Val.raw T <$> Fast.plusFF T l r := by
  step n
  go [Fast.plusFF]

@[exec_header] theorem fast_plusFR_ok (h : 8 ≤ n) (T : IntTy) (l : Raw) (r : Int) :
    value (invoke library n ⟨N.«fast», []⟩ none N.«plus» [] [.raw T l, .int T r]) =
      Val.raw T <$> Fast.plusFR T l r := by
  step n
  go [Fast.plusFR]

@[exec_header] theorem fast_plusRF_ok (h : 9 ≤ n) (T : IntTy) (l : Int) (r : Raw) :
    value (invoke library n ⟨N.«fast», []⟩ none N.«plus» [] [.int T l, .raw T r]) =
      Val.raw T <$> Fast.plusRF T l r := by
  step n
  go [Fast.plusRF]

@[exec_header] theorem fast_minusFF_ok (h : 8 ≤ n) (T : IntTy) (l r : Raw) :
    value (invoke library n ⟨N.«fast», []⟩ none N.«minus» [] [.raw T l, .raw T r]) =
      Val.raw T <$> Fast.minusFF T l r := by
  step n
  go [Fast.minusFF]

@[exec_header] theorem fast_minusFR_ok (h : 8 ≤ n) (T : IntTy) (l : Raw) (r : Int) :
    value (invoke library n ⟨N.«fast», []⟩ none N.«minus» [] [.raw T l, .int T r]) =
      Val.raw T <$> Fast.minusFR T l r := by
  step n
  go [Fast.minusFR]

@[exec_header] theorem fast_minusRF_ok (h : 9 ≤ n) (T : IntTy) (l : Int) (r : Raw) :
    value (invoke library n ⟨N.«fast», []⟩ none N.«minus» [] [.int T l, .raw T r]) =
      Val.raw T <$> Fast.minusRF T l r := by
  step n
  go [Fast.minusRF]

@[exec_header] theorem fast_multipliesFF_ok (h : 8 ≤ n) (T : IntTy) (l r : Raw) :
    value (invoke library n ⟨N.«fast», []⟩ none N.«multiplies» [] [.raw T l, .raw T r]) =
      Val.raw T <$> Fast.multipliesFF T l r := by
  step n
  go [Fast.multipliesFF]

@[exec_header] theorem fast_multipliesFR_ok (h : 8 ≤ n) (T : IntTy) (l : Raw) (r : Int) :
    value (invoke library n ⟨N.«fast», []⟩ none N.«multiplies» [] [.raw T l, .int T r]) =
      Val.raw T <$> Fast.multipliesFR T l r := by
  step n
  go [Fast.multipliesFR]

@[exec_header] theorem fast_multipliesRF_ok (h : 9 ≤ n) (T : IntTy) (l : Int) (r : Raw) :
    value (invoke library n ⟨N.«fast», []⟩ none N.«multiplies» [] [.int T l, .raw T r]) =
      Val.raw T <$> Fast.multipliesRF T l r := by
  step n
  go [Fast.multipliesRF]

@[exec_header] theorem fast_dividesFF_ok (h : 8 ≤ n) (T : IntTy) (l r : Raw) :
    value (invoke library n ⟨N.«fast», []⟩ none N.«divides» [] [.raw T l, .raw T r]) =
      Val.raw T <$> Fast.dividesFF T l r := by
  step n
  go [Fast.dividesFF]

@[exec_header] theorem fast_dividesFR_ok (h : 8 ≤ n) (T : IntTy) (l : Raw) (r : Int) :
    value (invoke library n ⟨N.«fast», []⟩ none N.«divides» [] [.raw T l, .int T r]) =
      Val.raw T <$> Fast.dividesFR T l r := by
  step n
  go [Fast.dividesFR]

@[exec_header] theorem fast_dividesRF_ok (h : 9 ≤ n) (T : IntTy) (l : Int) (r : Raw) :
    value (invoke library n ⟨N.«fast», []⟩ none N.«divides» [] [.int T l, .raw T r]) =
      Val.raw T <$> Fast.dividesRF T l r := by
  step n
  go [Fast.dividesRF]

@[exec_header] theorem fast_modulusFF_ok (h : 8 ≤ n) (T : IntTy) (l r : Raw) :
    value (invoke library n ⟨N.«fast», []⟩ none N.«modulus» [] [.raw T l, .raw T r]) =
      Val.raw T <$> Fast.modulusFF T l r := by
  step n
  go [Fast.modulusFF]

@[exec_header] theorem fast_modulusFR_ok (h : 8 ≤ n) (T : IntTy) (l : Raw) (r : Int) :
    value (invoke library n ⟨N.«fast», []⟩ none N.«modulus» [] [.raw T l, .int T r]) =
      Val.raw T <$> Fast.modulusFR T l r := by
  step n
  go [Fast.modulusFR]

@[exec_header] theorem fast_modulusRF_ok (h : 9 ≤ n) (T : IntTy) (l : Int) (r : Raw) :
    value (invoke library n ⟨N.«fast», []⟩ none N.«modulus» [] [.int T l, .raw T r]) =
      Val.raw T <$> Fast.modulusRF T l r := by
  step n
  go [Fast.modulusRF]

@[exec_header] theorem fast_equalToFF_ok (h : 8 ≤ n) (T : IntTy) (l r : Raw) :
    value (invoke library n ⟨N.«fast», []⟩ none N.«equal_to» [] [.raw T l, .raw T r]) =
      Val.bool <$> Fast.equalToFF T l r := by
  step n
  go [Fast.equalToFF]

@[exec_header] theorem fast_equalToFR_ok (h : 8 ≤ n) (T : IntTy) (l : Raw) (r : Int) :
    value (invoke library n ⟨N.«fast», []⟩ none N.«equal_to» [] [.raw T l, .int T r]) =
      Val.bool <$> Fast.equalToFR T l r := by
  step n
  go [Fast.equalToFR]

@[exec_header] theorem fast_equalToRF_ok (h : 9 ≤ n) (T : IntTy) (l : Int) (r : Raw) :
    value (invoke library n ⟨N.«fast», []⟩ none N.«equal_to» [] [.int T l, .raw T r]) =
      Val.bool <$> Fast.equalToRF T l r := by
  step n
  go [Fast.equalToRF]

@[exec_header] theorem fast_notEqualToFF_ok (h : 9 ≤ n) (T : IntTy) (l r : Raw) :
    value (invoke library n ⟨N.«fast», []⟩ none N.«not_equal_to» [] [.raw T l, .raw T r]) =
      Val.bool <$> Fast.notEqualToFF T l r := by
  step n
  go [Fast.notEqualToFF]

@[exec_header] theorem fast_notEqualToFR_ok (h : 9 ≤ n) (T : IntTy) (l : Raw) (r : Int) :
    value (invoke library n ⟨N.«fast», []⟩ none N.«not_equal_to» [] [.raw T l, .int T r]) =
      Val.bool <$> Fast.notEqualToFR T l r := by
  step n
  go [Fast.notEqualToFR]

@[exec_header] theorem fast_notEqualToRF_ok (h : 10 ≤ n) (T : IntTy) (l : Int) (r : Raw) :
    value (invoke library n ⟨N.«fast», []⟩ none N.«not_equal_to» [] [.int T l, .raw T r]) =
      Val.bool <$> Fast.notEqualToRF T l r := by
  step n
  go [Fast.notEqualToRF]

@[exec_header] theorem fast_lessFF_ok (h : 8 ≤ n) (T : IntTy) (l r : Raw) :
    value (invoke library n ⟨N.«fast», []⟩ none N.«less» [] [.raw T l, .raw T r]) =
      Val.bool <$> Fast.lessFF T l r := by
  step n
  go [Fast.lessFF]

@[exec_header] theorem fast_lessFR_ok (h : 8 ≤ n) (T : IntTy) (l : Raw) (r : Int) :
    value (invoke library n ⟨N.«fast», []⟩ none N.«less» [] [.raw T l, .int T r]) =
      Val.bool <$> Fast.lessFR T l r := by
  step n
  go [Fast.lessFR]

@[exec_header] theorem fast_lessRF_ok (h : 9 ≤ n) (T : IntTy) (l : Int) (r : Raw) :
    value (invoke library n ⟨N.«fast», []⟩ none N.«less» [] [.int T l, .raw T r]) =
      Val.bool <$> Fast.lessRF T l r := by
  step n
  go [Fast.lessRF]

@[exec_header] theorem fast_lessEqualFF_ok (h : 10 ≤ n) (T : IntTy) (l r : Raw) :
    value (invoke library n ⟨N.«fast», []⟩ none N.«less_equal» [] [.raw T l, .raw T r]) =
      Val.bool <$> Fast.lessEqualFF T l r := by
  step n
  go [Fast.lessEqualFF]

@[exec_header] theorem fast_lessEqualFR_ok (h : 10 ≤ n) (T : IntTy) (l : Raw) (r : Int) :
    value (invoke library n ⟨N.«fast», []⟩ none N.«less_equal» [] [.raw T l, .int T r]) =
      Val.bool <$> Fast.lessEqualFR T l r := by
  step n
  go [Fast.lessEqualFR]

@[exec_header] theorem fast_lessEqualRF_ok (h : 11 ≤ n) (T : IntTy) (l : Int) (r : Raw) :
    value (invoke library n ⟨N.«fast», []⟩ none N.«less_equal» [] [.int T l, .raw T r]) =
      Val.bool <$> Fast.lessEqualRF T l r := by
  step n
  go [Fast.lessEqualRF]

@[exec_header] theorem fast_greaterFF_ok (h : 12 ≤ n) (T : IntTy) (l r : Raw) :
    value (invoke library n ⟨N.«fast», []⟩ none N.«greater» [] [.raw T l, .raw T r]) =
      Val.bool <$> Fast.greaterFF T l r := by
  step n
  go [Fast.greaterFF]

@[exec_header] theorem fast_greaterFR_ok (h : 12 ≤ n) (T : IntTy) (l : Raw) (r : Int) :
    value (invoke library n ⟨N.«fast», []⟩ none N.«greater» [] [.raw T l, .int T r]) =
      Val.bool <$> Fast.greaterFR T l r := by
  step n
  go [Fast.greaterFR]

@[exec_header] theorem fast_greaterRF_ok (h : 12 ≤ n) (T : IntTy) (l : Int) (r : Raw) :
    value (invoke library n ⟨N.«fast», []⟩ none N.«greater» [] [.int T l, .raw T r]) =
      Val.bool <$> Fast.greaterRF T l r := by
  step n
  go [Fast.greaterRF]

@[exec_header] theorem fast_greaterEqualFF_ok (h : 13 ≤ n) (T : IntTy) (l r : Raw) :
    value (invoke library n ⟨N.«fast», []⟩ none N.«greater_equal» [] [.raw T l, .raw T r]) =
      Val.bool <$> Fast.greaterEqualFF T l r := by
  step n
  go [Fast.greaterEqualFF]

@[exec_header] theorem fast_greaterEqualFR_ok (h : 13 ≤ n) (T : IntTy) (l : Raw) (r : Int) :
    value (invoke library n ⟨N.«fast», []⟩ none N.«greater_equal» [] [.raw T l, .int T r]) =
      Val.bool <$> Fast.greaterEqualFR T l r := by
  step n
  go [Fast.greaterEqualFR]

@[exec_header] theorem fast_greaterEqualRF_ok (h : 13 ≤ n) (T : IntTy) (l : Int) (r : Raw) :
    value (invoke library n ⟨N.«fast», []⟩ none N.«greater_equal» [] [.int T l, .raw T r]) =
      Val.bool <$> Fast.greaterEqualRF T l r := by
  step n
  go [Fast.greaterEqualRF]

end Ieme.Header
