import Verif.Model.FractionMath

/-!
# Representation types narrower than `int`

`signed char`, `short` and their unsigned counterparts are promoted to `int` by every arithmetic
operator ([conv.prom], [expr.arith.conv]), which changes what the templates of
`/repo/include/ieme` do:

* a result of type `int` in braces is a narrowing conversion, so the program is ill-formed
  ([dcl.init.list]/7); this concerns all arithmetic of two operands of the same narrow type
  and `negate` (`/repo/include/ieme/ops.hpp:542-669` and `816-937`) and `reduce_ignore_signs`
  (`/repo/include/ieme/raw_fraction_math.hpp:75-85`), hence everything that reduces;
* `math_utilities::pow` (`/repo/include/ieme/math_utilities.hpp:40-52`) calls itself with an
  argument of the narrow type and one of type `int`, so that template argument deduction fails;
* everything else compiles and computes in `int`; a `return` or an initialisation in parentheses
  converts back.

Compilers may accept the narrowing with a warning; the model follows the standard.
-/

namespace Ieme

/-- An integer type narrower than `int`, which has 32 bits. -/
structure NarrowTy where
  signed : Bool
  bits : Nat
  pos : 0 < bits
  narrow : bits < 32
deriving DecidableEq

namespace NarrowTy

/-- `std::numeric_limits<T>::min()` -/
def min (N : NarrowTy) : Int := if N.signed then -((2 ^ (N.bits - 1) : Nat) : Int) else 0

/-- `std::numeric_limits<T>::max()` -/
def max (N : NarrowTy) : Int :=
  if N.signed then ((2 ^ (N.bits - 1) : Nat) : Int) - 1 else ((2 ^ N.bits : Nat) : Int) - 1

/-- The value `x` is representable in the type. -/
def InRange (N : NarrowTy) (x : Int) : Prop := N.min ≤ x ∧ x ≤ N.max

instance (N : NarrowTy) (x : Int) : Decidable (N.InRange x) :=
  inferInstanceAs (Decidable (_ ∧ _))

/-- The value of the type congruent to `x` modulo `2^bits`. -/
def wrap (N : NarrowTy) (x : Int) : Int :=
  if N.signed then Int.bmod x (2 ^ N.bits) else x % ((2 ^ N.bits : Nat) : Int)

/-- `std::make_unsigned_t<T>` -/
def toUnsigned (N : NarrowTy) : NarrowTy := ⟨false, N.bits, N.pos, N.narrow⟩

/-- Conversion from `int` ([conv.integral]/3). -/
def conv (N : NarrowTy) (x : Int) : Res Int :=
  if N.InRange x then .ok x false else .ok (N.wrap x) true

/-- `std::gcd(m, n)`: the precondition concerns the common type of the arguments, the narrow type
([numeric.ops.gcd]). -/
def gcd (N : NarrowTy) (m n : Int) : Res Int :=
  if N.InRange m.natAbs ∧ N.InRange n.natAbs then .ok (Int.gcd m n) false
  else .fault .gcdPrecond

/-- `std::lcm(m, n)`, likewise ([numeric.ops.lcm]). -/
def lcm (N : NarrowTy) (m n : Int) : Res Int :=
  if N.InRange m.natAbs ∧ N.InRange n.natAbs ∧ N.InRange (Int.lcm m n) then
    .ok (Int.lcm m n) false
  else .fault .lcmPrecond

end NarrowTy

/-- `signed char` / `std::int8_t` -/
def i8 : NarrowTy := ⟨true, 8, by decide, by decide⟩
/-- `unsigned char` / `std::uint8_t` -/
def u8 : NarrowTy := ⟨false, 8, by decide, by decide⟩
/-- `short` / `std::int16_t` -/
def i16 : NarrowTy := ⟨true, 16, by decide, by decide⟩
/-- `unsigned short` / `std::uint16_t` -/
def u16 : NarrowTy := ⟨false, 16, by decide, by decide⟩

/-- Both parts are values of the type. -/
def Raw.InNarrow (N : NarrowTy) (f : Raw) : Prop := N.InRange f.num ∧ N.InRange f.den

instance (N : NarrowTy) (f : Raw) : Decidable (f.InNarrow N) :=
  inferInstanceAs (Decidable (_ ∧ _))

namespace Narrow

variable (N : NarrowTy)

/-- `math_utilities::abs`, `/repo/include/ieme/math_utilities.hpp:26-30`: the conditional
expression has type `int` and is converted back. -/
def mathAbs (v : Int) : Res Int :=
  if v ≥ 0 then pure v
  else do
    let n ← i32.neg v
    N.conv n

/-- `math_utilities::pow2`, `/repo/include/ieme/math_utilities.hpp:32-38`: the exponent is converted
to the unsigned narrow type, the shift is done in `int`, and the result is cast back. -/
def mathPow2 (exponent : Int) : Res Int := do
  let n ← N.toUnsigned.conv exponent
  if n < 32 then do
    let s ← i32.conv ((2 ^ n.toNat : Nat) : Int)
    N.conv s
  else .fault .shiftRange

/-- `is_integer`, `/repo/include/ieme/raw_fraction_queries.hpp:111-115`. -/
def isInteger (f : Raw) : Res Bool :=
  if f.isDefined then do
    let m ← i32.mod f.num f.den
    return m == 0
  else pure false

/-- `is_unit_fraction`, `/repo/include/ieme/raw_fraction_queries.hpp:117-123`. -/
def isUnitFraction (f : Raw) : Res Bool :=
  if f.isDefined && f.num != 0 then do
    let m ← i32.mod f.den f.num
    return m == 0
  else pure false

/-- `is_reduced`, `/repo/include/ieme/raw_fraction_queries.hpp:125-139`. -/
def isReduced (f : Raw) : Res Bool :=
  if decide (f.num > 0) || decide (f.den > 0) then
    if f.isDefined then do
      let g ← N.gcd f.num f.den
      return g == 1
    else pure false
  else pure false

/-- `is_proper`, `/repo/include/ieme/raw_fraction_queries.hpp:141-146`. -/
def isProper (f : Raw) : Res Bool := do
  let n ← mathAbs N f.num
  let d ← mathAbs N f.den
  return decide (n < d)

/-- `normalize_signs`, `/repo/include/ieme/raw_fraction_math.hpp:44-51`: parentheses allow
narrowing. -/
def normalizeSigns (f : Raw) : Res Raw :=
  if f.den > 0 then pure f
  else do
    let n ← i32.neg f.num
    let n' ← N.conv n
    let d ← i32.neg f.den
    let d' ← N.conv d
    return ⟨n', d'⟩

/-- `trunc`, `/repo/include/ieme/fraction_math.hpp:154-158`. -/
def trunc (f : Raw) : Res Int := do
  let q ← i32.div f.num f.den
  N.conv q

/-- `ceil`, `/repo/include/ieme/fraction_math.hpp:160-167`. -/
def ceil (f : Raw) : Res Int := do
  let truncated ← trunc N f
  let i ← isInteger f
  if i || decide (truncated < 0) then return truncated
  else do
    let n ← i32.add truncated 1
    N.conv n

/-- `floor`, `/repo/include/ieme/fraction_math.hpp:169-176`. -/
def floor (f : Raw) : Res Int := do
  let truncated ← trunc N f
  let i ← isInteger f
  if i || decide (truncated ≥ 0) then return truncated
  else do
    let n ← i32.sub truncated 1
    N.conv n

/-- The comparisons of `fast`, `/repo/include/ieme/ops.hpp:939-1068`: all products are formed and
compared in `int`, as for `fraction<int>`. -/
def fastCmp (op : CmpOp) (a : Args) : Res Bool := Fast.cmp i32 op a

/-- A comparison of two fractions by `safe`, `/repo/include/ieme/ops.hpp:671-682,719-730,746-757`:
`std::lcm` returns the narrow type, the products are formed in `int`. -/
def overLcm (p : Int → Int → Bool) (l r : Raw) : Res Bool :=
  if l.isUndefined || r.isUndefined then pure false
  else do
    let lcm ← N.lcm l.den r.den
    let ql ← i32.div lcm l.den
    let a ← i32.mul ql l.num
    let qr ← i32.div lcm r.den
    let b ← i32.mul qr r.num
    return p a b

/-- The comparisons of `safe`, `/repo/include/ieme/ops.hpp:671-813`; those with an integer are the
same as for `fast`. -/
def safeCmp (op : CmpOp) (a : Args) : Res Bool :=
  match a with
  | .ff l r =>
    match op with
    | .equalTo => overLcm N (fun a b => decide (a = b)) l r
    | .notEqualTo => do
      let b ← overLcm N (fun a b => decide (a = b)) l r
      return !b
    | .less => overLcm N (fun a b => decide (a < b)) l r
    | .lessEqual => overLcm N (fun a b => decide (a ≤ b)) l r
    | .greater => overLcm N (fun a b => decide (a < b)) r l
    | .greaterEqual => overLcm N (fun a b => decide (a ≤ b)) r l
  | a => Safe.cmp i32 op a

/-- Comparison operators between operands of the same narrow type.  `reduced_output` forwards
(lines 1423-1472); `reduced_input` reduces, which does not compile. -/
def cmp : Ops → CmpOp → Args → Res Bool
  | .safe, op, a => safeCmp N op a
  | .fast, op, a => fastCmp op a
  | .reducedOutput o _, op, a => cmp o op a
  | .reducedInput _ _, _, _ => .fault .illFormed

end Narrow

/-! ## Operands of different types, at least one of them narrow -/

/-- An integer type of any width. -/
inductive AnyTy where
  | narrow (N : NarrowTy)
  | wide (T : IntTy)
deriving DecidableEq

namespace AnyTy

/-- Integral promotion ([conv.prom]). -/
def promote : AnyTy → IntTy
  | narrow _ => i32
  | wide T => T

/-- The value is representable. -/
def InRange : AnyTy → Int → Prop
  | narrow N, x => N.InRange x
  | wide T, x => T.InRange x

/-- The operators between operands of different types (`/repo/include/ieme/fraction.hpp:587-660`):
`std::common_type_t` promotes, and both operands are converted to the common type. -/
def arith (L R : AnyTy) (o : Ops) (op : ArithOp) (a : Args) : Res Raw :=
  if L = R then
    match L with
    | narrow _ => .fault .illFormed
    | wide T => Fraction.arith T T o op a
  else Fraction.arith L.promote R.promote o op a

/-- The comparisons, `/repo/include/ieme/fraction.hpp:587-629,690-718`. -/
def cmp (L R : AnyTy) (o : Ops) (op : CmpOp) (a : Args) : Res Bool :=
  if L = R then
    match L with
    | narrow N => Narrow.cmp N o op a
    | wide T => Fraction.cmp T T o op a
  else Fraction.cmp L.promote R.promote o op a

end AnyTy
end Ieme
