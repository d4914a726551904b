import Verif.Model.Raw

/-!
# Operation policies

Models `/repo/include/ieme/ops.hpp`.  The suffixes `FF`, `FR`, `RF` name the three
overloads of each operation: fraction-fraction, fraction-integer, integer-fraction.
C++ leaves the evaluation order of operands open; the model goes left to right, which
can only change which fault is reported first.
-/

namespace Ieme

/-! ## `ops::safe`, lines 542-813 -/

namespace Safe

/-- `safe::negate`, lines 542-547. -/
def negate (T : IntTy) (v : Raw) : Res Raw := do
  let n ← T.neg v.num
  return ⟨n, v.den⟩

/-- `safe::plus`, lines 549-558. -/
def plusFF (T : IntTy) (l r : Raw) : Res Raw := do
  let lcm ← T.lcm l.den r.den
  let ql ← T.div lcm l.den
  let a ← T.mul ql l.num
  let qr ← T.div lcm r.den
  let b ← T.mul qr r.num
  let n ← T.add a b
  return ⟨n, lcm⟩

/-- `safe::plus`, lines 560-565. -/
def plusFR (T : IntTy) (l : Raw) (r : Int) : Res Raw := do
  let p ← T.mul r l.den
  let n ← T.add l.num p
  return ⟨n, l.den⟩

/-- `safe::plus`, lines 567-572. -/
def plusRF (T : IntTy) (l : Int) (r : Raw) : Res Raw := plusFR T r l

/-- `safe::minus`, lines 574-583. -/
def minusFF (T : IntTy) (l r : Raw) : Res Raw := do
  let lcm ← T.lcm l.den r.den
  let ql ← T.div lcm l.den
  let a ← T.mul ql l.num
  let qr ← T.div lcm r.den
  let b ← T.mul qr r.num
  let n ← T.sub a b
  return ⟨n, lcm⟩

/-- `safe::minus`, lines 585-590. -/
def minusFR (T : IntTy) (l : Raw) (r : Int) : Res Raw := do
  let p ← T.mul r l.den
  let n ← T.sub l.num p
  return ⟨n, l.den⟩

/-- `safe::minus`, lines 592-597. -/
def minusRF (T : IntTy) (l : Int) (r : Raw) : Res Raw := do
  let p ← T.mul l r.den
  let n ← T.sub p r.num
  return ⟨n, r.den⟩

/-- `safe::multiplies`, lines 599-606. -/
def multipliesFF (T : IntTy) (l r : Raw) : Res Raw := do
  let n ← T.mul l.num r.num
  let d ← T.mul l.den r.den
  return ⟨n, d⟩

/-- `safe::multiplies`, lines 608-613. -/
def multipliesFR (T : IntTy) (l : Raw) (r : Int) : Res Raw := do
  let n ← T.mul l.num r
  return ⟨n, l.den⟩

/-- `safe::multiplies`, lines 615-620. -/
def multipliesRF (T : IntTy) (l : Int) (r : Raw) : Res Raw := multipliesFR T r l

/-- `safe::divides`, lines 622-629. -/
def dividesFF (T : IntTy) (l r : Raw) : Res Raw := do
  let n ← T.mul l.num r.den
  let d ← T.mul l.den r.num
  return ⟨n, d⟩

/-- `safe::divides`, lines 631-636. -/
def dividesFR (T : IntTy) (l : Raw) (r : Int) : Res Raw := do
  let d ← T.mul l.den r
  return ⟨l.num, d⟩

/-- `safe::divides`, lines 638-643. -/
def dividesRF (T : IntTy) (l : Int) (r : Raw) : Res Raw := do
  let n ← T.mul l r.den
  return ⟨n, r.num⟩

/-- `safe::modulus`, lines 645-655. -/
def modulusFF (T : IntTy) (l r : Raw) : Res Raw := do
  let lcm ← T.lcm l.den r.den
  let ql ← T.div lcm l.den
  let a ← T.mul ql l.num
  let qr ← T.div lcm r.den
  let b ← T.mul qr r.num
  let n ← T.mod a b
  return ⟨n, lcm⟩

/-- `safe::modulus`, lines 657-662. -/
def modulusFR (T : IntTy) (l : Raw) (r : Int) : Res Raw := do
  let p ← T.mul l.den r
  let n ← T.mod l.num p
  return ⟨n, l.den⟩

/-- `safe::modulus`, lines 664-669. -/
def modulusRF (T : IntTy) (l : Int) (r : Raw) : Res Raw := do
  let p ← T.mul r.den l
  let n ← T.mod p r.num
  return ⟨n, r.den⟩

/-- `safe::equal_to`, lines 671-682. -/
def equalToFF (T : IntTy) (l r : Raw) : Res Bool :=
  if l.isUndefined || r.isUndefined then pure false
  else do
    let lcm ← T.lcm l.den r.den
    let ql ← T.div lcm l.den
    let a ← T.mul ql l.num
    let qr ← T.div lcm r.den
    let b ← T.mul qr r.num
    return decide (a = b)

/-- `safe::equal_to`, lines 684-689. -/
def equalToFR (T : IntTy) (l : Raw) (r : Int) : Res Bool := do
  let p ← T.mul r l.den
  return decide (l.num = p) && l.isDefined

/-- `safe::equal_to`, lines 691-696. -/
def equalToRF (T : IntTy) (l : Int) (r : Raw) : Res Bool := equalToFR T r l

/-- `safe::not_equal_to`, lines 698-703. -/
def notEqualToFF (T : IntTy) (l r : Raw) : Res Bool := do
  let b ← equalToFF T l r
  return !b

/-- `safe::not_equal_to`, lines 705-710. -/
def notEqualToFR (T : IntTy) (l : Raw) (r : Int) : Res Bool := do
  let b ← equalToFR T l r
  return !b

/-- `safe::not_equal_to`, lines 712-717. -/
def notEqualToRF (T : IntTy) (l : Int) (r : Raw) : Res Bool := notEqualToFR T r l

/-- `safe::less`, lines 719-730. -/
def lessFF (T : IntTy) (l r : Raw) : Res Bool :=
  if l.isUndefined || r.isUndefined then pure false
  else do
    let lcm ← T.lcm l.den r.den
    let ql ← T.div lcm l.den
    let a ← T.mul ql l.num
    let qr ← T.div lcm r.den
    let b ← T.mul qr r.num
    return decide (a < b)

/-- `safe::less`, lines 732-737. -/
def lessFR (T : IntTy) (l : Raw) (r : Int) : Res Bool := do
  let p ← T.mul r l.den
  return decide (l.num < p) && l.isDefined

/-- `safe::less`, lines 739-744. -/
def lessRF (T : IntTy) (l : Int) (r : Raw) : Res Bool := do
  let p ← T.mul l r.den
  return decide (p < r.num) && r.isDefined

/-- `safe::less_equal`, lines 746-757. -/
def lessEqualFF (T : IntTy) (l r : Raw) : Res Bool :=
  if l.isUndefined || r.isUndefined then pure false
  else do
    let lcm ← T.lcm l.den r.den
    let ql ← T.div lcm l.den
    let a ← T.mul ql l.num
    let qr ← T.div lcm r.den
    let b ← T.mul qr r.num
    return decide (a ≤ b)

/-- `safe::less_equal`, lines 759-764. -/
def lessEqualFR (T : IntTy) (l : Raw) (r : Int) : Res Bool := do
  let p ← T.mul r l.den
  return decide (l.num ≤ p) && l.isDefined

/-- `safe::less_equal`, lines 766-771. -/
def lessEqualRF (T : IntTy) (l : Int) (r : Raw) : Res Bool := do
  let p ← T.mul l r.den
  return decide (p ≤ r.num) && r.isDefined

/-- `safe::greater`, lines 773-778. -/
def greaterFF (T : IntTy) (l r : Raw) : Res Bool := lessFF T r l

/-- `safe::greater`, lines 780-785. -/
def greaterFR (T : IntTy) (l : Raw) (r : Int) : Res Bool := lessRF T r l

/-- `safe::greater`, lines 787-792. -/
def greaterRF (T : IntTy) (l : Int) (r : Raw) : Res Bool := lessFR T r l

/-- `safe::greater_equal`, lines 794-799. -/
def greaterEqualFF (T : IntTy) (l r : Raw) : Res Bool := lessEqualFF T r l

/-- `safe::greater_equal`, lines 801-806. -/
def greaterEqualFR (T : IntTy) (l : Raw) (r : Int) : Res Bool := lessEqualRF T r l

/-- `safe::greater_equal`, lines 808-813. -/
def greaterEqualRF (T : IntTy) (l : Int) (r : Raw) : Res Bool := lessEqualFR T r l

end Safe

/-! ## `ops::fast`, lines 816-1068 -/

namespace Fast

/-- `fast::negate`, lines 816-821. -/
def negate (T : IntTy) (v : Raw) : Res Raw := do
  let n ← T.neg v.num
  return ⟨n, v.den⟩

/-- `fast::plus`, lines 823-830. -/
def plusFF (T : IntTy) (l r : Raw) : Res Raw := do
  let a ← T.mul l.num r.den
  let b ← T.mul r.num l.den
  let n ← T.add a b
  let d ← T.mul l.den r.den
  return ⟨n, d⟩

/-- `fast::plus`, lines 832-837. -/
def plusFR (T : IntTy) (l : Raw) (r : Int) : Res Raw := do
  let p ← T.mul r l.den
  let n ← T.add l.num p
  return ⟨n, l.den⟩

/-- `fast::plus`, lines 839-844. -/
def plusRF (T : IntTy) (l : Int) (r : Raw) : Res Raw := plusFR T r l

/-- `fast::minus`, lines 846-853. -/
def minusFF (T : IntTy) (l r : Raw) : Res Raw := do
  let a ← T.mul l.num r.den
  let b ← T.mul r.num l.den
  let n ← T.sub a b
  let d ← T.mul l.den r.den
  return ⟨n, d⟩

/-- `fast::minus`, lines 855-860. -/
def minusFR (T : IntTy) (l : Raw) (r : Int) : Res Raw := do
  let p ← T.mul r l.den
  let n ← T.sub l.num p
  return ⟨n, l.den⟩

/-- `fast::minus`, lines 862-867. -/
def minusRF (T : IntTy) (l : Int) (r : Raw) : Res Raw := do
  let p ← T.mul l r.den
  let n ← T.sub p r.num
  return ⟨n, r.den⟩

/-- `fast::multiplies`, lines 869-876. -/
def multipliesFF (T : IntTy) (l r : Raw) : Res Raw := do
  let n ← T.mul l.num r.num
  let d ← T.mul l.den r.den
  return ⟨n, d⟩

/-- `fast::multiplies`, lines 878-883. -/
def multipliesFR (T : IntTy) (l : Raw) (r : Int) : Res Raw := do
  let n ← T.mul l.num r
  return ⟨n, l.den⟩

/-- `fast::multiplies`, lines 885-890. -/
def multipliesRF (T : IntTy) (l : Int) (r : Raw) : Res Raw := multipliesFR T r l

/-- `fast::divides`, lines 892-899. -/
def dividesFF (T : IntTy) (l r : Raw) : Res Raw := do
  let n ← T.mul l.num r.den
  let d ← T.mul l.den r.num
  return ⟨n, d⟩

/-- `fast::divides`, lines 901-906. -/
def dividesFR (T : IntTy) (l : Raw) (r : Int) : Res Raw := do
  let d ← T.mul l.den r
  return ⟨l.num, d⟩

/-- `fast::divides`, lines 908-913. -/
def dividesRF (T : IntTy) (l : Int) (r : Raw) : Res Raw := do
  let n ← T.mul l r.den
  return ⟨n, r.num⟩

/-- `fast::modulus`, lines 915-923. -/
def modulusFF (T : IntTy) (l r : Raw) : Res Raw := do
  let a ← T.mul l.num r.den
  let b ← T.mul r.num l.den
  let n ← T.mod a b
  let d ← T.mul l.den r.den
  return ⟨n, d⟩

/-- `fast::modulus`, lines 925-930. -/
def modulusFR (T : IntTy) (l : Raw) (r : Int) : Res Raw := do
  let p ← T.mul r l.den
  let n ← T.mod l.num p
  return ⟨n, l.den⟩

/-- `fast::modulus`, lines 932-937. -/
def modulusRF (T : IntTy) (l : Int) (r : Raw) : Res Raw := do
  let p ← T.mul l r.den
  let n ← T.mod p r.num
  return ⟨n, r.den⟩

/-- `fast::equal_to`, lines 939-946. -/
def equalToFF (T : IntTy) (l r : Raw) : Res Bool := do
  let a ← T.mul l.num r.den
  let b ← T.mul r.num l.den
  return decide (a = b) && l.isDefined && r.isDefined

/-- `fast::equal_to`, lines 948-953. -/
def equalToFR (T : IntTy) (l : Raw) (r : Int) : Res Bool := do
  let p ← T.mul r l.den
  return decide (l.num = p) && l.isDefined

/-- `fast::equal_to`, lines 955-960. -/
def equalToRF (T : IntTy) (l : Int) (r : Raw) : Res Bool := equalToFR T r l

/-- `fast::not_equal_to`, lines 962-967. -/
def notEqualToFF (T : IntTy) (l r : Raw) : Res Bool := do
  let b ← equalToFF T l r
  return !b

/-- `fast::not_equal_to`, lines 969-974. -/
def notEqualToFR (T : IntTy) (l : Raw) (r : Int) : Res Bool := do
  let b ← equalToFR T l r
  return !b

/-- `fast::not_equal_to`, lines 976-981. -/
def notEqualToRF (T : IntTy) (l : Int) (r : Raw) : Res Bool := do
  let b ← equalToRF T l r
  return !b

/-- `fast::less`, lines 983-989. -/
def lessFF (T : IntTy) (l r : Raw) : Res Bool := do
  let a ← T.mul l.num r.den
  let b ← T.mul r.num l.den
  return decide (a < b) && l.isDefined && r.isDefined

/-- `fast::less`, lines 991-996. -/
def lessFR (T : IntTy) (l : Raw) (r : Int) : Res Bool := do
  let p ← T.mul r l.den
  return decide (l.num < p) && l.isDefined

/-- `fast::less`, lines 998-1003. -/
def lessRF (T : IntTy) (l : Int) (r : Raw) : Res Bool := do
  let p ← T.mul l r.den
  return decide (p < r.num) && r.isDefined

/-- `fast::less_equal`, lines 1005-1012. -/
def lessEqualFF (T : IntTy) (l r : Raw) : Res Bool := do
  let a ← T.mul l.num r.den
  let b ← T.mul r.num l.den
  return decide (a ≤ b) && l.isDefined && r.isDefined

/-- `fast::less_equal`, lines 1014-1019. -/
def lessEqualFR (T : IntTy) (l : Raw) (r : Int) : Res Bool := do
  let p ← T.mul r l.den
  return decide (l.num ≤ p) && l.isDefined

/-- `fast::less_equal`, lines 1021-1026. -/
def lessEqualRF (T : IntTy) (l : Int) (r : Raw) : Res Bool := do
  let p ← T.mul l r.den
  return decide (p ≤ r.num) && r.isDefined

/-- `fast::greater`, lines 1028-1033. -/
def greaterFF (T : IntTy) (l r : Raw) : Res Bool := lessFF T r l

/-- `fast::greater`, lines 1035-1040. -/
def greaterFR (T : IntTy) (l : Raw) (r : Int) : Res Bool := lessRF T r l

/-- `fast::greater`, lines 1042-1047. -/
def greaterRF (T : IntTy) (l : Int) (r : Raw) : Res Bool := lessFR T r l

/-- `fast::greater_equal`, lines 1049-1054. -/
def greaterEqualFF (T : IntTy) (l r : Raw) : Res Bool := lessEqualFF T r l

/-- `fast::greater_equal`, lines 1056-1061. -/
def greaterEqualFR (T : IntTy) (l : Raw) (r : Int) : Res Bool := lessEqualRF T r l

/-- `fast::greater_equal`, lines 1063-1068. -/
def greaterEqualRF (T : IntTy) (l : Int) (r : Raw) : Res Bool := lessEqualFR T r l

end Fast

/-! ## Policies -/

/-- The policies a user can name: `safe`, `fast`, `reduced_input<Ops, Mode>`,
`reduced_output<Ops, Mode>`, nested at will. `/repo/include/ieme/ops.hpp:15-508`. -/
inductive Ops where
  | safe
  | fast
  | reducedInput (inner : Ops) (mode : ReduceMode)
  | reducedOutput (inner : Ops) (mode : ReduceMode)
deriving DecidableEq, Repr

namespace Ops

/-- `safe_reduced_i`, line 511 (default mode of `reduced_input` is `ignore_signs`). -/
def safeReducedI : Ops := .reducedInput .safe .ignoreSigns
/-- `safe_reduced_o`, line 512 (default mode of `reduced_output` is `normalize_signs`). -/
def safeReducedO : Ops := .reducedOutput .safe .normalizeSigns
/-- `safe_reduced_io`, line 513. -/
def safeReducedIO : Ops := .reducedInput safeReducedO .ignoreSigns
/-- `fast_reduced_i`, line 514. -/
def fastReducedI : Ops := .reducedInput .fast .ignoreSigns
/-- `fast_reduced_o`, line 515. -/
def fastReducedO : Ops := .reducedOutput .fast .normalizeSigns
/-- `fast_reduced_io`, line 516. -/
def fastReducedIO : Ops := .reducedInput fastReducedO .ignoreSigns
/-- `defaults` when no configuration macro is set, lines 518-536 with
`IEME_DEFAULT_OPS_FALLBACK` = `safe_reduced_io`. -/
def defaults : Ops := safeReducedIO

end Ops

/-- The binary arithmetic operations. -/
inductive ArithOp where
  | plus | minus | multiplies | divides | modulus
deriving DecidableEq, Repr

/-- The comparison operations. -/
inductive CmpOp where
  | equalTo | notEqualTo | less | lessEqual | greater | greaterEqual
deriving DecidableEq, Repr

/-- The operands of a binary operation, by overload. -/
inductive Args where
  | ff (l r : Raw)
  | fr (l : Raw) (r : Int)
  | rf (l : Int) (r : Raw)
deriving DecidableEq, Repr

/-- What every overload of `reduced_input` does to its operands: fractions are reduced
with the policy's mode, integers are passed on. `/repo/include/ieme/ops.hpp:1079-1371`. -/
def Args.reduce (T : IntTy) (mode : ReduceMode) : Args → Res Args
  | .ff l r => do
    let l' ← l.reduce T mode
    let r' ← r.reduce T mode
    return .ff l' r'
  | .fr l r => do
    let l' ← l.reduce T mode
    return .fr l' r
  | .rf l r => do
    let r' ← r.reduce T mode
    return .rf l r'

/-- Overload resolution among the arithmetic functions of `safe`, lines 549-669. -/
def Safe.arith (T : IntTy) : ArithOp → Args → Res Raw
  | .plus, .ff l r => plusFF T l r
  | .plus, .fr l r => plusFR T l r
  | .plus, .rf l r => plusRF T l r
  | .minus, .ff l r => minusFF T l r
  | .minus, .fr l r => minusFR T l r
  | .minus, .rf l r => minusRF T l r
  | .multiplies, .ff l r => multipliesFF T l r
  | .multiplies, .fr l r => multipliesFR T l r
  | .multiplies, .rf l r => multipliesRF T l r
  | .divides, .ff l r => dividesFF T l r
  | .divides, .fr l r => dividesFR T l r
  | .divides, .rf l r => dividesRF T l r
  | .modulus, .ff l r => modulusFF T l r
  | .modulus, .fr l r => modulusFR T l r
  | .modulus, .rf l r => modulusRF T l r

/-- Overload resolution among the comparison functions of `safe`, lines 671-813. -/
def Safe.cmp (T : IntTy) : CmpOp → Args → Res Bool
  | .equalTo, .ff l r => equalToFF T l r
  | .equalTo, .fr l r => equalToFR T l r
  | .equalTo, .rf l r => equalToRF T l r
  | .notEqualTo, .ff l r => notEqualToFF T l r
  | .notEqualTo, .fr l r => notEqualToFR T l r
  | .notEqualTo, .rf l r => notEqualToRF T l r
  | .less, .ff l r => lessFF T l r
  | .less, .fr l r => lessFR T l r
  | .less, .rf l r => lessRF T l r
  | .lessEqual, .ff l r => lessEqualFF T l r
  | .lessEqual, .fr l r => lessEqualFR T l r
  | .lessEqual, .rf l r => lessEqualRF T l r
  | .greater, .ff l r => greaterFF T l r
  | .greater, .fr l r => greaterFR T l r
  | .greater, .rf l r => greaterRF T l r
  | .greaterEqual, .ff l r => greaterEqualFF T l r
  | .greaterEqual, .fr l r => greaterEqualFR T l r
  | .greaterEqual, .rf l r => greaterEqualRF T l r

/-- Overload resolution among the arithmetic functions of `fast`, lines 823-937. -/
def Fast.arith (T : IntTy) : ArithOp → Args → Res Raw
  | .plus, .ff l r => plusFF T l r
  | .plus, .fr l r => plusFR T l r
  | .plus, .rf l r => plusRF T l r
  | .minus, .ff l r => minusFF T l r
  | .minus, .fr l r => minusFR T l r
  | .minus, .rf l r => minusRF T l r
  | .multiplies, .ff l r => multipliesFF T l r
  | .multiplies, .fr l r => multipliesFR T l r
  | .multiplies, .rf l r => multipliesRF T l r
  | .divides, .ff l r => dividesFF T l r
  | .divides, .fr l r => dividesFR T l r
  | .divides, .rf l r => dividesRF T l r
  | .modulus, .ff l r => modulusFF T l r
  | .modulus, .fr l r => modulusFR T l r
  | .modulus, .rf l r => modulusRF T l r

/-- Overload resolution among the comparison functions of `fast`, lines 939-1068. -/
def Fast.cmp (T : IntTy) : CmpOp → Args → Res Bool
  | .equalTo, .ff l r => equalToFF T l r
  | .equalTo, .fr l r => equalToFR T l r
  | .equalTo, .rf l r => equalToRF T l r
  | .notEqualTo, .ff l r => notEqualToFF T l r
  | .notEqualTo, .fr l r => notEqualToFR T l r
  | .notEqualTo, .rf l r => notEqualToRF T l r
  | .less, .ff l r => lessFF T l r
  | .less, .fr l r => lessFR T l r
  | .less, .rf l r => lessRF T l r
  | .lessEqual, .ff l r => lessEqualFF T l r
  | .lessEqual, .fr l r => lessEqualFR T l r
  | .lessEqual, .rf l r => lessEqualRF T l r
  | .greater, .ff l r => greaterFF T l r
  | .greater, .fr l r => greaterFR T l r
  | .greater, .rf l r => greaterRF T l r
  | .greaterEqual, .ff l r => greaterEqualFF T l r
  | .greaterEqual, .fr l r => greaterEqualFR T l r
  | .greaterEqual, .rf l r => greaterEqualRF T l r

namespace Ops

/-- `Ops::negate`.  `reduced_input` (lines 1071-1077) calls `reduce` with its default mode
`normalize_signs`, whatever the policy's own mode; `reduced_output` is lines 1374-1380. -/
def negate (T : IntTy) : Ops → Raw → Res Raw
  | .safe, v => Safe.negate T v
  | .fast, v => Fast.negate T v
  | .reducedInput o _, v => do
    let v' ← v.reduce T .normalizeSigns
    o.negate T v'
  | .reducedOutput o mode, v => do
    let r ← o.negate T v
    r.reduce T mode

/-- `Ops::plus`, `minus`, `multiplies`, `divides`, `modulus`.  `reduced_input` is lines
1079-1212 (every overload reduces its fraction operands and forwards), `reduced_output`
lines 1382-1421 (every function reduces the inner result). -/
def arith (T : IntTy) : Ops → ArithOp → Args → Res Raw
  | .safe, op, a => Safe.arith T op a
  | .fast, op, a => Fast.arith T op a
  | .reducedInput o mode, op, a => do
    let a' ← a.reduce T mode
    o.arith T op a'
  | .reducedOutput o mode, op, a => do
    let r ← o.arith T op a
    r.reduce T mode

/-- `Ops::equal_to`, ..., `greater_equal`.  `reduced_input` is lines 1214-1371 (reduces its
fraction operands and forwards), `reduced_output` lines 1423-1472 (forwards unchanged). -/
def cmp (T : IntTy) : Ops → CmpOp → Args → Res Bool
  | .safe, op, a => Safe.cmp T op a
  | .fast, op, a => Fast.cmp T op a
  | .reducedInput o mode, op, a => do
    let a' ← a.reduce T mode
    o.cmp T op a'
  | .reducedOutput o _, op, a => o.cmp T op a

end Ops
end Ieme
