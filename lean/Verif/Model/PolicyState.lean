import Verif.Model.Policy

/-!
# Policies with hidden state

The functions of a policy are static (`/repo/include/ieme/ops.hpp:15-508`), but nothing keeps those of
a user-defined policy from reading and writing static variables: to count calls, to keep a record, to
raise a flag.  Here a policy is a `SPolicy`, whose functions also take the state of these variables
and return the next one.  The functions below are those of `Verif/Model/Policy.lean` over such a
policy.

Where the order of evaluation is unspecified they go from left to right; `Step` is the evaluation of an
expression in any order.

Simplification: a policy lacking some of the members and one whose
functions return another type than `raw_fraction<Rep>` and `bool` has no model; there is one thread.
-/

namespace Ieme

/-- A computation that uses the state and can fail as those without state can. -/
abbrev Act (σ α : Type) := StateT σ Res α

/-- A class that can be used as `Ops`, with the state of its variables: the members called at
`/repo/include/ieme/fraction.hpp:575-718`. -/
structure SPolicy (σ : Type) where
  negate : IntTy → Raw → Act σ Raw
  arith : IntTy → ArithOp → Args → Act σ Raw
  cmp : IntTy → CmpOp → Args → Act σ Bool

namespace SPolicy

variable {σ : Type}

/-- A policy without state. -/
def ofPolicy (p : Policy) : SPolicy σ :=
  ⟨fun T v => p.negate T v, fun T op a => p.arith T op a, fun T op a => p.cmp T op a⟩

/-- `ops::reduced_input<Ops, Mode>`. `/repo/include/ieme/ops.hpp:1071-1371`. -/
def reducedInput (P : SPolicy σ) (mode : ReduceMode) : SPolicy σ where
  negate T v := do
    let v' ← v.reduce T .normalizeSigns
    P.negate T v'
  arith T op a := do
    let a' ← a.reduce T mode
    P.arith T op a'
  cmp T op a := do
    let a' ← a.reduce T mode
    P.cmp T op a'

/-- `ops::reduced_output<Ops, Mode>`. `/repo/include/ieme/ops.hpp:1374-1472`. -/
def reducedOutput (P : SPolicy σ) (mode : ReduceMode) : SPolicy σ where
  negate T v := do
    let r ← P.negate T v
    r.reduce T mode
  arith T op a := do
    let r ← P.arith T op a
    r.reduce T mode
  cmp T op a := P.cmp T op a

variable (P : SPolicy σ)

/-! ## `/repo/include/ieme/fraction.hpp` -/

/-- Unary `-`, lines 581-585. -/
def fNeg (T : IntTy) (f : Raw) : Act σ Raw := P.negate T f

/-- Binary arithmetic operators, lines 587-660. -/
def fArith (L R : IntTy) (op : ArithOp) (a : Args) : Act σ Raw := do
  let a' ← Fraction.toCommon L R a
  P.arith (IntTy.common L R) op a'

/-- Comparison operators, lines 587-629 and 690-718. -/
def fCmp (L R : IntTy) (op : CmpOp) (a : Args) : Act σ Bool := do
  let a' ← Fraction.toCommon L R a
  P.cmp (IntTy.common L R) op a'

/-- Compound assignment with a fraction on the right, lines 662-672. -/
def assignF (L R : IntTy) (op : ArithOp) (l r : Raw) : Act σ Raw :=
  if L = R then P.fArith L R op (.ff l r)
  else do
    let r' ← Fraction.ofOther L r
    P.fArith L L op (.ff l r')

/-- Compound assignment with an integer on the right, lines 674-682. -/
def assignR (L R : IntTy) (op : ArithOp) (l : Raw) (r : Int) : Act σ Raw :=
  if L = R then P.fArith L R op (.fr l r)
  else do
    let r' ← L.conv r
    P.fArith L L op (.fr l r')

/-- Evaluation of an expression, lines 575-660. -/
def eval (T : IntTy) : Expr → Act σ Raw
  | .lit f => pure f
  | .neg e => do
    let v ← eval T e
    P.fNeg T v
  | .pos e => do
    let v ← eval T e
    return Fraction.pos v
  | .ff op e1 e2 => do
    let v1 ← eval T e1
    let v2 ← eval T e2
    P.fArith T T op (.ff v1 v2)
  | .fr op e n => do
    let v ← eval T e
    P.fArith T T op (.fr v n)
  | .rf op n e => do
    let v ← eval T e
    P.fArith T T op (.rf n v)

/-- One compound assignment, lines 662-682. -/
def step (T : IntTy) (left : Raw) : Assign → Act σ Raw
  | .frac op r => P.assignF T T op left r
  | .int op r => P.assignR T T op left r

/-- A sequence of compound assignments, lines 662-682. -/
def run (T : IntTy) (left : Raw) : List Assign → Act σ Raw
  | [] => pure left
  | s :: rest => do
    let left' ← P.step T left s
    run T left' rest

/-! ## `/repo/include/ieme/fraction_math.hpp` -/

/-- `abs`, lines 129-133. -/
def abs (T : IntTy) (f : Raw) : Act σ Raw :=
  if f.isNonNegative then pure f else P.fNeg T f

/-- `round`, lines 178-186. -/
def round (T : IntTy) (f : Raw) : Act σ Int := do
  let floored ← Fraction.floor T f
  let d ← P.fArith T T .minus (.fr f floored)
  let lt ← P.fCmp T T .less (.ff d (Fraction.mk 1 2))
  if lt then return floored else T.add floored 1

/-- `trunc_redenominate`, lines 208-213. -/
def truncRedenominate (T : IntTy) (f : Raw) (d : Int) : Act σ Raw := do
  let q ← P.fArith T T .multiplies (.fr f d)
  let n ← Fraction.trunc T q
  return Fraction.mk n d

/-- `ceil_redenominate`, lines 215-222. -/
def ceilRedenominate (T : IntTy) (f : Raw) (d : Int) : Act σ Raw :=
  if d ≥ 0 then do
    let q ← P.fArith T T .multiplies (.fr f d)
    let n ← Fraction.ceil T q
    return Fraction.mk n d
  else do
    let m ← T.neg d
    let q ← P.fArith T T .multiplies (.fr f m)
    let c ← Fraction.ceil T q
    let n ← T.neg c
    return Fraction.mk n d

/-- `floor_redenominate`, lines 224-231. -/
def floorRedenominate (T : IntTy) (f : Raw) (d : Int) : Act σ Raw :=
  if d ≥ 0 then do
    let q ← P.fArith T T .multiplies (.fr f d)
    let n ← Fraction.floor T q
    return Fraction.mk n d
  else do
    let m ← T.neg d
    let q ← P.fArith T T .multiplies (.fr f m)
    let c ← Fraction.floor T q
    let n ← T.neg c
    return Fraction.mk n d

/-- `round_redenominate`, lines 233-238. -/
def roundRedenominate (T : IntTy) (f : Raw) (d : Int) : Act σ Raw := do
  let q ← P.fArith T T .multiplies (.fr f d)
  let n ← P.round T q
  return Fraction.mk n d

/-! ## `/repo/include/ieme/mixed_number.hpp` -/

/-- First step of `fix`, lines 155-161. -/
def fixImproper (W F : IntTy) (m : Mixed) : Act σ Mixed := do
  let i ← m.frac.isImproper F
  if i then do
    let t ← Fraction.trunc F m.frac
    let t' ← W.conv t
    let w ← W.add m.whole t'
    let f ← P.assignR F F .minus m.frac t
    return ⟨w, f⟩
  else return m

/-- Second step of `fix`, lines 163-172. -/
def fixSigns (W F : IntTy) (m : Mixed) : Act σ Mixed :=
  if m.whole > 0 ∧ m.frac.isNegative then do
    let w ← W.sub m.whole 1
    let f ← P.fArith F F .plus (.rf 1 m.frac)
    return ⟨w, f⟩
  else if m.whole < 0 ∧ m.frac.isPositive then do
    let w ← W.add m.whole 1
    let n ← F.neg 1
    let f ← P.fArith F F .plus (.rf n m.frac)
    return ⟨w, f⟩
  else return m

/-- `fix`, lines 152-173. -/
def fix (W F : IntTy) (m : Mixed) : Act σ Mixed := do
  let m' ← P.fixImproper W F m
  P.fixSigns W F m'

/-- `mixed_number(whole, fractional)`, lines 96-103. -/
def mk' (W F : IntTy) (whole : Int) (frac : Raw) : Act σ Mixed := P.fix W F ⟨whole, frac⟩

/-- `mixed_number(fraction<S, Ops>)`, lines 105-112. -/
def ofFraction (W F S : IntTy) (v : Raw) : Act σ Mixed := do
  let t ← Fraction.trunc S v
  let w ← W.conv t
  let w' ← S.conv w
  let d ← P.fArith S S .minus (.fr v w')
  let f ← Fraction.ofOther F d
  return ⟨w, f⟩

/-- `as_fraction`, lines 122-136. -/
def asFraction (W F : IntTy) (m : Mixed) : Act σ Raw := do
  let C := IntTy.common W F
  let w ← C.conv m.whole
  let f ← Fraction.ofOther C m.frac
  P.fArith C C .plus (.rf w f)

/-- Unary `-`, lines 182-187. -/
def mNeg (W F : IntTy) (m : Mixed) : Act σ Mixed := do
  let w ← W.neg m.whole
  let f ← P.fNeg F m.frac
  P.mk' W F w f

/-- `mixed + mixed`, lines 189-209. -/
def mAdd (W₁ F₁ W₂ F₂ : IntTy) (l r : Mixed) : Act σ Mixed := do
  let W := IntTy.common W₁ W₂
  let F := IntTy.common F₁ F₂
  let lw ← W.conv l.whole
  let rw ← W.conv r.whole
  let w ← W.add lw rw
  let lf ← Fraction.ofOther F l.frac
  let rf ← Fraction.ofOther F r.frac
  let f ← P.fArith F F .plus (.ff lf rf)
  P.mk' W F w f

/-- `mixed + fraction`, lines 211-229. -/
def mAddFraction (W F₁ F₂ : IntTy) (l : Mixed) (r : Raw) : Act σ Mixed := do
  let r' ← P.ofFraction F₂ F₂ F₂ r
  P.mAdd W F₁ F₂ F₂ l r'

/-- `mixed + integer`, lines 231-249. -/
def mAddWhole (W₁ F W₂ : IntTy) (l : Mixed) (r : Int) : Act σ Mixed := do
  let W := IntTy.common W₁ W₂
  let lw ← W.conv l.whole
  let rw ← W.conv r
  let w ← W.add lw rw
  P.mk' W F w l.frac

/-- Evaluation of an expression over mixed numbers, lines 96-249. -/
def mEval : MExpr → Act σ Mixed
  | .dflt _ _ => pure Mixed.default
  | .mk W F w f => P.mk' W F w f
  | .ofFraction W F S f => P.ofFraction W F S f
  | .pos e => do
    let m ← mEval e
    return m.pos
  | .neg e => do
    let m ← mEval e
    P.mNeg e.ty.1 e.ty.2 m
  | .add l r => do
    let a ← mEval l
    let b ← mEval r
    P.mAdd l.ty.1 l.ty.2 r.ty.1 r.ty.2 a b
  | .addFraction e S f => do
    let a ← mEval e
    P.mAddFraction e.ty.1 e.ty.2 S a f
  | .addWhole e S n => do
    let a ← mEval e
    P.mAddWhole e.ty.1 e.ty.2 S a n

/-! ## `/repo/include/ieme/floating_point.hpp` -/

/-- `floating_point_string_to_fraction` after a successful scan, lines 101-128. -/
def scanValue (T : IntTy) (r : Parse.Scan) : Act σ Raw := do
  let base ← T.conv r.base
  let whole ← Parse.digitSequenceToInt T r.whole base
  let num ← Parse.digitSequenceToInt T r.fractional base
  let prec ← T.conv r.precision
  let den ← mathPow T base prec
  let exponentBase : Int := if r.base = 10 then 10 else 2
  let multiplier : Int := if r.negative then -1 else 1
  let e ← Parse.digitSequenceToInt i32 r.exponent 10
  let exponent ← i32.mul multiplier e
  let sum ← P.fArith T T .plus (.rf whole (Fraction.mk num den))
  let power ← Fraction.pow T exponentBase exponent
  P.fArith T T .multiplies (.ff sum power)

/-- `floating_point_string_to_fraction`, lines 91-129. -/
def ofString (T : IntTy) (string : List Char) : Act σ Raw := do
  match ← Parse.scan string with
  | none => return ⟨0, 0⟩
  | some r => P.scanValue T r

/-- Lines 192-209: the fraction for the three fields. -/
def assemble (T : IntTy) (bias den : Int) (signPart exponentPart mantissaPart : Nat) :
    Act σ Raw := do
  let sign ← FloatingPoint.signFactor T signPart
  let e ← i32.conv exponentPart
  let exponent ← i32.sub e bias
  let num ← T.conv mantissaPart
  let mantissa ← P.fArith T T .plus (.rf 1 (Fraction.mk num den))
  let signed ← P.fArith T T .multiplies (.rf sign mantissa)
  let power ← Fraction.pow2 T exponent
  P.fArith T T .multiplies (.ff signed power)

/-- `floating_point_to_fraction`, lines 131-210. -/
def ofFloat (E : FloatingPoint.Endian) (F : Fmt) (T : IntTy) (bits : Nat) : Act σ Raw := do
  let offs ← FloatingPoint.constant (FloatingPoint.offsets F E)
  let bias ← FloatingPoint.exponentBias F
  let den ← FloatingPoint.mantissaDenominator T F
  let signPart ← FloatingPoint.bitField F.uint bits offs.1 1
  let exponentPart ← FloatingPoint.bitField F.uint bits offs.2.1 F.exp
  let mantissaPart ← FloatingPoint.bitField F.uint bits offs.2.2 F.mant
  let ones ← FloatingPoint.repeatingOnes F.uint F.exp
  if (exponentPart : Int) = ones ∧ mantissaPart ≠ 0 then return Limits.undefined
  else P.assemble T bias den signPart exponentPart mantissaPart

/-! ## `/repo/include/ieme/chrono.hpp` -/

/-- `std::chrono::duration_cast` to a duration of fractions, as in `Chrono.durationCast`; the
conversions of lines 30-31, 85 and 92-106 are this function. -/
def durationCast (T : IntTy) (A B : Chrono.Period) (c : Chrono.Count) : Act σ Raw :=
  match Chrono.ratioDivide A B with
  | none => (Res.fault .illFormed : Res Raw)
  | some (n, d) => do
    let x ← c.cast T
    if n = 1 ∧ d = 1 then return x
    else if d = 1 then
      let n' ← Chrono.factor T n
      P.fArith T T .multiplies (.ff x n')
    else if n = 1 then
      let d' ← Chrono.factor T d
      P.fArith T T .divides (.ff x d')
    else
      let n' ← Chrono.factor T n
      let y ← P.fArith T T .multiplies (.ff x n')
      let d' ← Chrono.factor T d
      P.fArith T T .divides (.ff y d')

end SPolicy

/-! ## Any order -/

/-- One call of the policy, anywhere in the expression where the operands are ready: operands are
unsequenced ([intro.execution]), so calls from different operands can follow each other in any order.
The expression left over, the state and whether something wrapped.
`/repo/include/ieme/fraction.hpp:575-660`. -/
inductive SPolicy.Step {σ : Type} (P : SPolicy σ) (T : IntTy) :
    Expr → σ → Expr → σ → Bool → Prop
  | neg {v r s s' w} : P.fNeg T v s = .ok (r, s') w → Step P T (.neg (.lit v)) s (.lit r) s' w
  | pos {v s} : Step P T (.pos (.lit v)) s (.lit (Fraction.pos v)) s false
  | ff {op a b r s s' w} : P.fArith T T op (.ff a b) s = .ok (r, s') w →
      Step P T (.ff op (.lit a) (.lit b)) s (.lit r) s' w
  | fr {op a n r s s' w} : P.fArith T T op (.fr a n) s = .ok (r, s') w →
      Step P T (.fr op (.lit a) n) s (.lit r) s' w
  | rf {op a n r s s' w} : P.fArith T T op (.rf n a) s = .ok (r, s') w →
      Step P T (.rf op n (.lit a)) s (.lit r) s' w
  | inNeg {e e' s s' w} : Step P T e s e' s' w → Step P T (.neg e) s (.neg e') s' w
  | inPos {e e' s s' w} : Step P T e s e' s' w → Step P T (.pos e) s (.pos e') s' w
  | inLeft {op e e' f s s' w} : Step P T e s e' s' w → Step P T (.ff op e f) s (.ff op e' f) s' w
  | inRight {op e e' f s s' w} : Step P T e s e' s' w → Step P T (.ff op f e) s (.ff op f e') s' w
  | inFr {op e e' n s s' w} : Step P T e s e' s' w → Step P T (.fr op e n) s (.fr op e' n) s' w
  | inRf {op e e' n s s' w} : Step P T e s e' s' w → Step P T (.rf op n e) s (.rf op n e') s' w

/-- Any number of such calls. -/
inductive SPolicy.Steps {σ : Type} (P : SPolicy σ) (T : IntTy) :
    Expr → σ → Expr → σ → Bool → Prop
  | done {e s} : Steps P T e s e s false
  | step {e s e' s' e'' s'' w w'} : Step P T e s e' s' w → Steps P T e' s' e'' s'' w' →
      Steps P T e s e'' s'' (w || w')

end Ieme
