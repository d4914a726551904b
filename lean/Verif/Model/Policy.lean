import Verif.Model.Expr
import Verif.Model.Assign
import Verif.Model.MixedNumber
import Verif.Model.Parse
import Verif.Model.FloatingPoint
import Verif.Model.Chrono

/-!
# User-defined policies

`fraction<Rep, Ops>` takes any class for `Ops` and reaches it only through
`Ops::negate(..)` (`/repo/include/ieme/fraction.hpp:584`) and the functions named in the
operators (lines 587-660 and 690-718).  Here the policy is an arbitrary `Policy`: one function
per member, for every representation type.  The functions below are those of
`Model/Fraction`, `Model/Expr`, `Model/Assign`, `Model/FractionMath`, `Model/MixedNumber`,
`Model/Parse`, `Model/FloatingPoint` and `Model/Chrono` whose source calls the policy, over such
a policy; the functions that do not call it are used as they are.  `C103_library_instances`
proves that for the policies of the library they are the same functions.

Simplification: a policy is a function of its operands; `Verif/Model/PolicyState.lean` has policies
with hidden state.  One without some of the members or one whose functions return another type than
`raw_fraction<Rep>` and `bool` has no model.
-/

namespace Ieme

/-- A class that can be used as `Ops`: the members called at
`/repo/include/ieme/fraction.hpp:575-718`. -/
structure Policy where
  negate : IntTy → Raw → Res Raw
  arith : IntTy → ArithOp → Args → Res Raw
  cmp : IntTy → CmpOp → Args → Res Bool

namespace Policy

/-- The policies of the library. `/repo/include/ieme/ops.hpp:15-508`. -/
def ofOps (o : Ops) : Policy := ⟨fun T => o.negate T, fun T => o.arith T, fun T => o.cmp T⟩

/-- `ops::reduced_input<Ops, Mode>`. `/repo/include/ieme/ops.hpp:1071-1371`. -/
def reducedInput (p : Policy) (mode : ReduceMode) : Policy where
  negate T v := do
    let v' ← v.reduce T .normalizeSigns
    p.negate T v'
  arith T op a := do
    let a' ← a.reduce T mode
    p.arith T op a'
  cmp T op a := do
    let a' ← a.reduce T mode
    p.cmp T op a'

/-- `ops::reduced_output<Ops, Mode>`. `/repo/include/ieme/ops.hpp:1374-1472`. -/
def reducedOutput (p : Policy) (mode : ReduceMode) : Policy where
  negate T v := do
    let r ← p.negate T v
    r.reduce T mode
  arith T op a := do
    let r ← p.arith T op a
    r.reduce T mode
  cmp T op a := p.cmp T op a

variable (p : Policy)

/-! ## `/repo/include/ieme/fraction.hpp` -/

/-- Unary `-`, lines 581-585. -/
def fNeg (T : IntTy) (f : Raw) : Res Raw := p.negate T f

/-- Binary arithmetic operators, lines 587-660. -/
def fArith (L R : IntTy) (op : ArithOp) (a : Args) : Res Raw := do
  let a' ← Fraction.toCommon L R a
  p.arith (IntTy.common L R) op a'

/-- Comparison operators, lines 587-629 and 690-718. -/
def fCmp (L R : IntTy) (op : CmpOp) (a : Args) : Res Bool := do
  let a' ← Fraction.toCommon L R a
  p.cmp (IntTy.common L R) op a'

/-- Compound assignment with a fraction on the right, lines 662-672. -/
def assignF (L R : IntTy) (op : ArithOp) (l r : Raw) : Res Raw :=
  if L = R then p.fArith L R op (.ff l r)
  else do
    let r' ← Fraction.ofOther L r
    p.fArith L L op (.ff l r')

/-- Compound assignment with an integer on the right, lines 674-682. -/
def assignR (L R : IntTy) (op : ArithOp) (l : Raw) (r : Int) : Res Raw :=
  if L = R then p.fArith L R op (.fr l r)
  else do
    let r' ← L.conv r
    p.fArith L L op (.fr l r')

/-- Evaluation of an expression, lines 575-660. -/
def eval (T : IntTy) : Expr → Res Raw
  | .lit f => pure f
  | .neg e => do
    let v ← eval T e
    p.fNeg T v
  | .pos e => do
    let v ← eval T e
    return Fraction.pos v
  | .ff op e1 e2 => do
    let v1 ← eval T e1
    let v2 ← eval T e2
    p.fArith T T op (.ff v1 v2)
  | .fr op e n => do
    let v ← eval T e
    p.fArith T T op (.fr v n)
  | .rf op n e => do
    let v ← eval T e
    p.fArith T T op (.rf n v)

/-- One compound assignment, lines 662-682. -/
def step (T : IntTy) (left : Raw) : Assign → Res Raw
  | .frac op r => p.assignF T T op left r
  | .int op r => p.assignR T T op left r

/-- A sequence of compound assignments, lines 662-682. -/
def run (T : IntTy) (left : Raw) : List Assign → Res Raw
  | [] => pure left
  | s :: rest => do
    let left' ← p.step T left s
    run T left' rest

/-! ## `/repo/include/ieme/fraction_math.hpp` -/

/-- `abs`, lines 129-133. -/
def abs (T : IntTy) (f : Raw) : Res Raw :=
  if f.isNonNegative then pure f else p.fNeg T f

/-- `round`, lines 178-186. -/
def round (T : IntTy) (f : Raw) : Res Int := do
  let floored ← Fraction.floor T f
  let d ← p.fArith T T .minus (.fr f floored)
  let lt ← p.fCmp T T .less (.ff d (Fraction.mk 1 2))
  if lt then return floored else T.add floored 1

/-- `trunc_redenominate`, lines 208-213. -/
def truncRedenominate (T : IntTy) (f : Raw) (d : Int) : Res Raw := do
  let q ← p.fArith T T .multiplies (.fr f d)
  let n ← Fraction.trunc T q
  return Fraction.mk n d

/-- `ceil_redenominate`, lines 215-222. -/
def ceilRedenominate (T : IntTy) (f : Raw) (d : Int) : Res Raw :=
  if d ≥ 0 then do
    let q ← p.fArith T T .multiplies (.fr f d)
    let n ← Fraction.ceil T q
    return Fraction.mk n d
  else do
    let m ← T.neg d
    let q ← p.fArith T T .multiplies (.fr f m)
    let c ← Fraction.ceil T q
    let n ← T.neg c
    return Fraction.mk n d

/-- `floor_redenominate`, lines 224-231. -/
def floorRedenominate (T : IntTy) (f : Raw) (d : Int) : Res Raw :=
  if d ≥ 0 then do
    let q ← p.fArith T T .multiplies (.fr f d)
    let n ← Fraction.floor T q
    return Fraction.mk n d
  else do
    let m ← T.neg d
    let q ← p.fArith T T .multiplies (.fr f m)
    let c ← Fraction.floor T q
    let n ← T.neg c
    return Fraction.mk n d

/-- `round_redenominate`, lines 233-238. -/
def roundRedenominate (T : IntTy) (f : Raw) (d : Int) : Res Raw := do
  let q ← p.fArith T T .multiplies (.fr f d)
  let n ← p.round T q
  return Fraction.mk n d

/-! ## `/repo/include/ieme/mixed_number.hpp` -/

/-- First step of `fix`, lines 155-161. -/
def fixImproper (W F : IntTy) (m : Mixed) : Res Mixed := do
  let i ← m.frac.isImproper F
  if i then do
    let t ← Fraction.trunc F m.frac
    let t' ← W.conv t
    let w ← W.add m.whole t'
    let f ← p.assignR F F .minus m.frac t
    return ⟨w, f⟩
  else return m

/-- Second step of `fix`, lines 163-172. -/
def fixSigns (W F : IntTy) (m : Mixed) : Res Mixed :=
  if m.whole > 0 ∧ m.frac.isNegative then do
    let w ← W.sub m.whole 1
    let f ← p.fArith F F .plus (.rf 1 m.frac)
    return ⟨w, f⟩
  else if m.whole < 0 ∧ m.frac.isPositive then do
    let w ← W.add m.whole 1
    let n ← F.neg 1
    let f ← p.fArith F F .plus (.rf n m.frac)
    return ⟨w, f⟩
  else return m

/-- `fix`, lines 152-173. -/
def fix (W F : IntTy) (m : Mixed) : Res Mixed := do
  let m' ← p.fixImproper W F m
  p.fixSigns W F m'

/-- `mixed_number(whole, fractional)`, lines 96-103. -/
def mk' (W F : IntTy) (whole : Int) (frac : Raw) : Res Mixed := p.fix W F ⟨whole, frac⟩

/-- `mixed_number(fraction<S, Ops>)`, lines 105-112. -/
def ofFraction (W F S : IntTy) (v : Raw) : Res Mixed := do
  let t ← Fraction.trunc S v
  let w ← W.conv t
  let w' ← S.conv w
  let d ← p.fArith S S .minus (.fr v w')
  let f ← Fraction.ofOther F d
  return ⟨w, f⟩

/-- `as_fraction`, lines 122-136. -/
def asFraction (W F : IntTy) (m : Mixed) : Res Raw := do
  let C := IntTy.common W F
  let w ← C.conv m.whole
  let f ← Fraction.ofOther C m.frac
  p.fArith C C .plus (.rf w f)

/-- Unary `-`, lines 182-187. -/
def mNeg (W F : IntTy) (m : Mixed) : Res Mixed := do
  let w ← W.neg m.whole
  let f ← p.fNeg F m.frac
  p.mk' W F w f

/-- `mixed + mixed`, lines 189-209. -/
def mAdd (W₁ F₁ W₂ F₂ : IntTy) (l r : Mixed) : Res Mixed := do
  let W := IntTy.common W₁ W₂
  let F := IntTy.common F₁ F₂
  let lw ← W.conv l.whole
  let rw ← W.conv r.whole
  let w ← W.add lw rw
  let lf ← Fraction.ofOther F l.frac
  let rf ← Fraction.ofOther F r.frac
  let f ← p.fArith F F .plus (.ff lf rf)
  p.mk' W F w f

/-- `mixed + fraction`, lines 211-229. -/
def mAddFraction (W F₁ F₂ : IntTy) (l : Mixed) (r : Raw) : Res Mixed := do
  let r' ← p.ofFraction F₂ F₂ F₂ r
  p.mAdd W F₁ F₂ F₂ l r'

/-- `mixed + integer`, lines 231-249. -/
def mAddWhole (W₁ F W₂ : IntTy) (l : Mixed) (r : Int) : Res Mixed := do
  let W := IntTy.common W₁ W₂
  let lw ← W.conv l.whole
  let rw ← W.conv r
  let w ← W.add lw rw
  p.mk' W F w l.frac

/-- Evaluation of an expression over mixed numbers, lines 96-249. -/
def mEval : MExpr → Res Mixed
  | .dflt _ _ => pure Mixed.default
  | .mk W F w f => p.mk' W F w f
  | .ofFraction W F S f => p.ofFraction W F S f
  | .pos e => do
    let m ← mEval e
    return m.pos
  | .neg e => do
    let m ← mEval e
    p.mNeg e.ty.1 e.ty.2 m
  | .add l r => do
    let a ← mEval l
    let b ← mEval r
    p.mAdd l.ty.1 l.ty.2 r.ty.1 r.ty.2 a b
  | .addFraction e S f => do
    let a ← mEval e
    p.mAddFraction e.ty.1 e.ty.2 S a f
  | .addWhole e S n => do
    let a ← mEval e
    p.mAddWhole e.ty.1 e.ty.2 S a n

/-! ## `/repo/include/ieme/floating_point.hpp` -/

/-- `floating_point_string_to_fraction` after a successful scan, lines 101-128. -/
def scanValue (T : IntTy) (r : Parse.Scan) : Res Raw := do
  let base ← T.conv r.base
  let whole ← Parse.digitSequenceToInt T r.whole base
  let num ← Parse.digitSequenceToInt T r.fractional base
  let prec ← T.conv r.precision
  let den ← mathPow T base prec
  let exponentBase : Int := if r.base = 10 then 10 else 2
  let multiplier : Int := if r.negative then -1 else 1
  let e ← Parse.digitSequenceToInt i32 r.exponent 10
  let exponent ← i32.mul multiplier e
  let sum ← p.fArith T T .plus (.rf whole (Fraction.mk num den))
  let power ← Fraction.pow T exponentBase exponent
  p.fArith T T .multiplies (.ff sum power)

/-- `floating_point_string_to_fraction`, lines 91-129. -/
def ofString (T : IntTy) (string : List Char) : Res Raw := do
  match ← Parse.scan string with
  | none => return ⟨0, 0⟩
  | some r => p.scanValue T r

/-- Lines 192-209: the fraction for the three fields. -/
def assemble (T : IntTy) (bias den : Int) (signPart exponentPart mantissaPart : Nat) :
    Res Raw := do
  let sign ← FloatingPoint.signFactor T signPart
  let e ← i32.conv exponentPart
  let exponent ← i32.sub e bias
  let num ← T.conv mantissaPart
  let mantissa ← p.fArith T T .plus (.rf 1 (Fraction.mk num den))
  let signed ← p.fArith T T .multiplies (.rf sign mantissa)
  let power ← Fraction.pow2 T exponent
  p.fArith T T .multiplies (.ff signed power)

/-- `floating_point_to_fraction`, lines 131-210. -/
def ofFloat (E : FloatingPoint.Endian) (F : Fmt) (T : IntTy) (bits : Nat) : Res Raw := do
  let offs ← FloatingPoint.constant (FloatingPoint.offsets F E)
  let bias ← FloatingPoint.exponentBias F
  let den ← FloatingPoint.mantissaDenominator T F
  let signPart ← FloatingPoint.bitField F.uint bits offs.1 1
  let exponentPart ← FloatingPoint.bitField F.uint bits offs.2.1 F.exp
  let mantissaPart ← FloatingPoint.bitField F.uint bits offs.2.2 F.mant
  let ones ← FloatingPoint.repeatingOnes F.uint F.exp
  if (exponentPart : Int) = ones ∧ mantissaPart ≠ 0 then return Limits.undefined
  else p.assemble T bias den signPart exponentPart mantissaPart

/-! ## `/repo/include/ieme/chrono.hpp` -/

/-- `std::chrono::duration_cast` to a duration of fractions, as in `Chrono.durationCast`; the
conversions of lines 30-31, 85 and 92-106 are this function. -/
def durationCast (T : IntTy) (P Q : Chrono.Period) (c : Chrono.Count) : Res Raw :=
  match Chrono.ratioDivide P Q with
  | none => .fault .illFormed
  | some (n, d) => do
    let x ← c.cast T
    if n = 1 ∧ d = 1 then return x
    else if d = 1 then
      let n' ← Chrono.factor T n
      p.fArith T T .multiplies (.ff x n')
    else if n = 1 then
      let d' ← Chrono.factor T d
      p.fArith T T .divides (.ff x d')
    else
      let n' ← Chrono.factor T n
      let y ← p.fArith T T .multiplies (.ff x n')
      let d' ← Chrono.factor T d
      p.fArith T T .divides (.ff y d')

end Policy
end Ieme
