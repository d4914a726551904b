import Verif.Model.Ops

/-!
# `fraction<Rep, Ops>`

Models `/repo/include/ieme/fraction.hpp`.  A `fraction<Rep, Ops>` holds nothing but a
`raw_fraction<Rep>` (line 68), so a value of the class is a `Raw` and the template
arguments are parameters (`T`, `o`) of the functions.  `raw()`, `numerator()`,
`denominator()`, `num()`, `den()` (lines 50-65 and 551-573) are the projections of `Raw`.
The queries of `/repo/include/ieme/fraction_queries.hpp:63-153` forward to the raw ones
and are not repeated.  The operators between different policies are deleted in the source
and have no model.
-/

namespace Ieme

namespace Fraction

/-- Default constructor: `0/1`. `/repo/include/ieme/fraction.hpp:36,68`. -/
def default : Raw := ⟨0, 1⟩

/-- `fraction(raw)`, lines 513-517. -/
def ofRaw (raw : Raw) : Raw := raw

/-- `fraction(numerator, denominator = 1)`, lines 40 and 519-524. -/
def mk (n : Int) (d : Int := 1) : Raw := ⟨n, d⟩

/-- Converting constructors from another representation and/or policy, lines 526-540. -/
def ofOther (T : IntTy) (f : Raw) : Res Raw := f.conv T

/-- `std::ratio<N, D>` of the standard library: ill-formed for a zero denominator or when
an absolute value is not representable in `std::intmax_t`, otherwise lowest terms with
positive denominator ([ratio.ratio]). -/
def stdRatio (N D : Int) : Option (Int × Int) :=
  if D ≠ 0 ∧ i64.InRange N.natAbs ∧ i64.InRange D.natAbs then
    some (N.sign * D.sign * (N.natAbs / Int.gcd N D : Nat), (D.natAbs / Int.gcd N D : Nat))
  else none

/-- Constructor from `std::ratio`, lines 542-549: list-initialisation from constant
expressions, ill-formed when it would narrow. -/
def ofRatio (T : IntTy) (N D : Int) : Res Raw :=
  match stdRatio N D with
  | none => .fault .illFormed
  | some (n, d) => if T.InRange n ∧ T.InRange d then pure ⟨n, d⟩ else .fault .illFormed

/-- Unary `+`, lines 575-579. -/
def pos (f : Raw) : Raw := f

/-- Unary `-`, lines 581-585. -/
def neg (T : IntTy) (o : Ops) (f : Raw) : Res Raw := o.negate T f

/-- The operand conversions of `IEME_DO_FRACTION_AND_FRACTION_OP`,
`IEME_DO_FRACTION_AND_REP_OP` and `IEME_DO_REP_AND_FRACTION_OP`, lines 587-629: an operand
whose type is already the common type is passed as it is, any other is `static_cast`. -/
def toCommon (L R : IntTy) (a : Args) : Res Args :=
  let C := IntTy.common L R
  let castRaw (S : IntTy) (f : Raw) : Res Raw := if S = C then pure f else f.conv C
  let castRep (S : IntTy) (x : Int) : Res Int := if S = C then pure x else C.conv x
  match a with
  | .ff l r => do
    let l' ← castRaw L l
    let r' ← castRaw R r
    return .ff l' r'
  | .fr l r => do
    let l' ← castRaw L l
    let r' ← castRep R r
    return .fr l' r'
  | .rf l r => do
    let l' ← castRep L l
    let r' ← castRaw R r
    return .rf l' r'

/-- `operator+ - * / %` between operands of representation types `L` and `R`,
lines 631-660. -/
def arith (L R : IntTy) (o : Ops) (op : ArithOp) (a : Args) : Res Raw := do
  let a' ← toCommon L R a
  o.arith (IntTy.common L R) op a'

/-- `operator== != < <= > >=` between operands of representation types `L` and `R`,
lines 690-718. -/
def cmp (L R : IntTy) (o : Ops) (op : CmpOp) (a : Args) : Res Bool := do
  let a' ← toCommon L R a
  o.cmp (IntTy.common L R) op a'

/-- Compound assignment with a fraction on the right, lines 662-672: the new value of
`left`. -/
def assignF (L R : IntTy) (o : Ops) (op : ArithOp) (l r : Raw) : Res Raw :=
  if L = R then arith L R o op (.ff l r)
  else do
    let r' ← ofOther L r
    arith L L o op (.ff l r')

/-- Compound assignment with an integer on the right, lines 674-682: the new value of
`left`. -/
def assignR (L R : IntTy) (o : Ops) (op : ArithOp) (l : Raw) (r : Int) : Res Raw :=
  if L = R then arith L R o op (.fr l r)
  else do
    let r' ← L.conv r
    arith L L o op (.fr l r')

end Fraction
end Ieme
