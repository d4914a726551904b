import Verif.Model.Policy

/-!
# `reduce_mode` values that are not enumerators

`enum class reduce_mode { normalize_signs, ignore_signs };`
(`/repo/include/ieme/reduce_mode.hpp:8`) has the underlying type `int`, so that every `int` cast
to it is a value of the type; it can be passed to `reduce` and as the argument `Mode` of the two
policy templates.  `Model/Raw` and `Model/Ops` know the two enumerators only; here a mode is the
number.
-/

namespace Ieme

/-- The number of an enumerator. `/repo/include/ieme/reduce_mode.hpp:8`. -/
def ReduceMode.number : ReduceMode → Int
  | .normalizeSigns => 0
  | .ignoreSigns => 1

namespace Raw

/-- `reduce(value, static_cast<reduce_mode>(mode))`: the `switch` and the `return` after it.
`/repo/include/ieme/raw_fraction_math.hpp:53-66`. -/
def reduceCast (T : IntTy) (mode : Int) (f : Raw) : Res Raw :=
  if mode = ReduceMode.normalizeSigns.number then f.reduceNormalizeSigns T
  else if mode = ReduceMode.ignoreSigns.number then f.reduceIgnoreSigns T
  else pure ⟨0, 0⟩

end Raw

/-- What the overloads of `reduced_input` do to their operands.
`/repo/include/ieme/ops.hpp:1079-1371`. -/
def Args.reduceCast (T : IntTy) (mode : Int) : Args → Res Args
  | .ff l r => do
    let l' ← l.reduceCast T mode
    let r' ← r.reduceCast T mode
    return .ff l' r'
  | .fr l r => do
    let l' ← l.reduceCast T mode
    return .fr l' r
  | .rf l r => do
    let r' ← r.reduceCast T mode
    return .rf l r'

namespace Policy

/-- `ops::reduced_input<Ops, static_cast<reduce_mode>(mode)>`; `negate` calls `reduce` with its
default mode. `/repo/include/ieme/ops.hpp:1071-1371`. -/
def reducedInputCast (p : Policy) (mode : Int) : Policy where
  negate T v := do
    let v' ← v.reduceCast T ReduceMode.normalizeSigns.number
    p.negate T v'
  arith T op a := do
    let a' ← a.reduceCast T mode
    p.arith T op a'
  cmp T op a := do
    let a' ← a.reduceCast T mode
    p.cmp T op a'

/-- `ops::reduced_output<Ops, static_cast<reduce_mode>(mode)>`.
`/repo/include/ieme/ops.hpp:1374-1472`. -/
def reducedOutputCast (p : Policy) (mode : Int) : Policy where
  negate T v := do
    let r ← p.negate T v
    r.reduceCast T mode
  arith T op a := do
    let r ← p.arith T op a
    r.reduceCast T mode
  cmp T op a := p.cmp T op a

end Policy
end Ieme
