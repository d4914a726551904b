import Verif.Model.Fraction

/-!
# `fraction_math.hpp` and `math_utilities.hpp`

Models `/repo/include/ieme/fraction_math.hpp` and `pow2`, `pow` of
`/repo/include/ieme/math_utilities.hpp`.  The overloads of `reciprocal`,
`normalize_signs`, `reduce`, `reduce_normalize_signs`, `reduce_ignore_signs` for `fraction`
(lines 94-127) forward to the raw ones (`Raw.reciprocal`, …) and are not repeated.
-/

namespace Ieme

/-- `math_utilities::pow2<Int>`. `/repo/include/ieme/math_utilities.hpp:32-38`:
the shift is done in the unsigned type and the result is cast back. -/
def mathPow2 (T : IntTy) (exponent : Int) : Res Int := do
  let U := T.toUnsigned
  let n ← U.conv exponent
  let s ← U.shl 1 n
  T.conv s

/-- `math_utilities::pow<Int>`. `/repo/include/ieme/math_utilities.hpp:40-52`.
The exponent arithmetic (`exponent % 2`, `exponent - 1` for odd positive exponents,
`exponent / 2`) can not leave the range of the type and is done on `Int` directly. -/
def mathPow (T : IntTy) (base exponent : Int) : Res Int :=
  if exponent = 0 then pure 1
  else if exponent.tmod 2 = 1 then do
    let p ← mathPow T base (exponent - 1)
    T.mul base p
  else do
    let squareRoot ← mathPow T base (exponent.tdiv 2)
    T.mul squareRoot squareRoot
termination_by exponent.natAbs
decreasing_by
  · rename_i h0 h1
    rcases Int.lt_or_le exponent 0 with h | h
    · have h2 := Int.neg_tmod (-exponent) 2
      have h3 := Int.tmod_nonneg 2 (a := -exponent) (by omega)
      rw [Int.neg_neg] at h2
      omega
    · omega
  · rename_i h0 h1
    rw [Int.natAbs_tdiv]
    exact Nat.div_lt_self (by omega) (by decide)

/-- `enum class round_mode`. `/repo/include/ieme/fraction_math.hpp:15`; `other` stands for
any value outside the four enumerators, which a cast can produce. -/
inductive RoundMode where
  | trunc | ceil | floor | round | other
deriving DecidableEq, Repr

namespace Fraction

/-- `abs`, lines 129-133. -/
def abs (T : IntTy) (o : Ops) (f : Raw) : Res Raw :=
  if f.isNonNegative then pure f else neg T o f

/-- `trunc`, lines 154-158. -/
def trunc (T : IntTy) (f : Raw) : Res Int := T.div f.num f.den

/-- `ceil`, lines 160-167. -/
def ceil (T : IntTy) (f : Raw) : Res Int := do
  let truncated ← trunc T f
  let i ← f.isInteger T
  if i || decide (truncated < 0) then return truncated
  else T.add truncated 1

/-- `floor`, lines 169-176. -/
def floor (T : IntTy) (f : Raw) : Res Int := do
  let truncated ← trunc T f
  let i ← f.isInteger T
  if i || decide (truncated ≥ 0) then return truncated
  else T.sub truncated 1

/-- `round`, lines 178-186. -/
def round (T : IntTy) (o : Ops) (f : Raw) : Res Int := do
  let floored ← floor T f
  let d ← arith T T o .minus (.fr f floored)
  let lt ← cmp T T o .less (.ff d (mk 1 2))
  if lt then return floored else T.add floored 1

/-- `to_whole`, lines 135-152. -/
def toWhole (T : IntTy) (o : Ops) (f : Raw) (mode : RoundMode := .round) : Res Int :=
  match mode with
  | .trunc => trunc T f
  | .ceil => ceil T f
  | .floor => floor T f
  | .round => round T o f
  | .other => round T o f

/-- `trunc_redenominate`, lines 208-213. -/
def truncRedenominate (T : IntTy) (o : Ops) (f : Raw) (d : Int) : Res Raw := do
  let p ← arith T T o .multiplies (.fr f d)
  let n ← trunc T p
  return mk n d

/-- `ceil_redenominate`, lines 215-222. -/
def ceilRedenominate (T : IntTy) (o : Ops) (f : Raw) (d : Int) : Res Raw :=
  if d ≥ 0 then do
    let p ← arith T T o .multiplies (.fr f d)
    let n ← ceil T p
    return mk n d
  else do
    let m ← T.neg d
    let p ← arith T T o .multiplies (.fr f m)
    let c ← ceil T p
    let n ← T.neg c
    return mk n d

/-- `floor_redenominate`, lines 224-231. -/
def floorRedenominate (T : IntTy) (o : Ops) (f : Raw) (d : Int) : Res Raw :=
  if d ≥ 0 then do
    let p ← arith T T o .multiplies (.fr f d)
    let n ← floor T p
    return mk n d
  else do
    let m ← T.neg d
    let p ← arith T T o .multiplies (.fr f m)
    let c ← floor T p
    let n ← T.neg c
    return mk n d

/-- `round_redenominate`, lines 233-238. -/
def roundRedenominate (T : IntTy) (o : Ops) (f : Raw) (d : Int) : Res Raw := do
  let p ← arith T T o .multiplies (.fr f d)
  let n ← round T o p
  return mk n d

/-- `redenominate`, lines 188-206. -/
def redenominate (T : IntTy) (o : Ops) (f : Raw) (d : Int) (mode : RoundMode := .round) :
    Res Raw :=
  match mode with
  | .trunc => truncRedenominate T o f d
  | .ceil => ceilRedenominate T o f d
  | .floor => floorRedenominate T o f d
  | .round => roundRedenominate T o f d
  | .other => roundRedenominate T o f d

/-- `pow2`, lines 240-248. `int` is `i32`. -/
def pow2 (T : IntTy) (exponent : Int) : Res Raw :=
  if exponent ≥ 0 then do
    let e ← T.conv exponent
    let p ← mathPow2 T e
    return mk p
  else do
    let m ← i32.neg exponent
    let e ← T.conv m
    let p ← mathPow2 T e
    return mk 1 p

/-- `pow`, lines 250-258. -/
def pow (T : IntTy) (base exponent : Int) : Res Raw :=
  if exponent ≥ 0 then do
    let e ← T.conv exponent
    let p ← mathPow T base e
    return mk p
  else do
    let m ← i32.neg exponent
    let e ← T.conv m
    let p ← mathPow T base e
    return mk 1 p

end Fraction
end Ieme
