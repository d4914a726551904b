import Verif.Model.FractionMath

/-!
# `mixed_number<WRep, FRep, Ops>`

Models `/repo/include/ieme/mixed_number.hpp`.  The template arguments are the parameters
`W` (whole part), `F` (fractional part) and `o` of the functions.  The members are private
and only read through `whole()` and `fractional()` (lines 138-150), the projections of
`Mixed`; copying is the identity.
-/

namespace Ieme

/-- The data members, lines 45-46. -/
structure Mixed where
  whole : Int
  frac : Raw
deriving DecidableEq, Repr

namespace Mixed

/-- Default constructor, lines 22 and 45-46: zero and the default fraction. -/
def default : Mixed := ⟨0, Fraction.default⟩

/-- First step of `fix`, lines 155-161. -/
def fixImproper (W F : IntTy) (o : Ops) (m : Mixed) : Res Mixed := do
  let i ← m.frac.isImproper F
  if i then do
    let t ← Fraction.trunc F m.frac
    let t' ← W.conv t
    let w ← W.add m.whole t'
    let f ← Fraction.assignR F F o .minus m.frac t
    return ⟨w, f⟩
  else return m

/-- Second step of `fix`, lines 163-172. -/
def fixSigns (W F : IntTy) (o : Ops) (m : Mixed) : Res Mixed :=
  if m.whole > 0 ∧ m.frac.isNegative then do
    let w ← W.sub m.whole 1
    let f ← Fraction.arith F F o .plus (.rf 1 m.frac)
    return ⟨w, f⟩
  else if m.whole < 0 ∧ m.frac.isPositive then do
    let w ← W.add m.whole 1
    let n ← F.neg 1
    let f ← Fraction.arith F F o .plus (.rf n m.frac)
    return ⟨w, f⟩
  else return m

/-- `fix`, lines 152-173: the new value of the object. -/
def fix (W F : IntTy) (o : Ops) (m : Mixed) : Res Mixed := do
  let m' ← m.fixImproper W F o
  m'.fixSigns W F o

/-- `mixed_number(whole, fractional)`, lines 96-103; the default argument for the
fractional part (line 25) is the default fraction. -/
def mk' (W F : IntTy) (o : Ops) (whole : Int) (frac : Raw := Fraction.default) : Res Mixed :=
  fix W F o ⟨whole, frac⟩

/-- `mixed_number(fraction<S, Ops>)`, lines 105-112; the constructor from another policy
(lines 114-120) copies the parts into a `fraction<S, Ops>` and delegates to it. -/
def ofFraction (W F : IntTy) (o : Ops) (S : IntTy) (v : Raw) : Res Mixed := do
  let t ← Fraction.trunc S v
  let w ← W.conv t
  let w' ← S.conv w
  let d ← Fraction.arith S S o .minus (.fr v w')
  let f ← Fraction.ofOther F d
  return ⟨w, f⟩

/-- `as_fraction` and the conversion operator, lines 122-136. -/
def asFraction (W F : IntTy) (o : Ops) (m : Mixed) : Res Raw := do
  let C := IntTy.common W F
  let w ← C.conv m.whole
  let f ← Fraction.ofOther C m.frac
  Fraction.arith C C o .plus (.rf w f)

/-- Unary `+`, lines 175-180. -/
def pos (m : Mixed) : Mixed := m

/-- Unary `-`, lines 182-187. -/
def neg (W F : IntTy) (o : Ops) (m : Mixed) : Res Mixed := do
  let w ← W.neg m.whole
  let f ← Fraction.neg F o m.frac
  mk' W F o w f

/-- `mixed + mixed`, lines 189-209. -/
def add (W₁ F₁ W₂ F₂ : IntTy) (o : Ops) (l r : Mixed) : Res Mixed := do
  let W := IntTy.common W₁ W₂
  let F := IntTy.common F₁ F₂
  let lw ← W.conv l.whole
  let rw ← W.conv r.whole
  let w ← W.add lw rw
  let lf ← Fraction.ofOther F l.frac
  let rf ← Fraction.ofOther F r.frac
  let f ← Fraction.arith F F o .plus (.ff lf rf)
  mk' W F o w f

/-- `mixed + fraction` and `fraction + mixed`, lines 211-229. -/
def addFraction (W F₁ F₂ : IntTy) (o : Ops) (l : Mixed) (r : Raw) : Res Mixed := do
  let r' ← ofFraction F₂ F₂ o F₂ r
  add W F₁ F₂ F₂ o l r'

/-- `mixed + integer` and `integer + mixed`, lines 231-249. -/
def addWhole (W₁ F W₂ : IntTy) (o : Ops) (l : Mixed) (r : Int) : Res Mixed := do
  let W := IntTy.common W₁ W₂
  let lw ← W.conv l.whole
  let rw ← W.conv r
  let w ← W.add lw rw
  mk' W F o w l.frac

end Mixed

/-- Expressions over mixed numbers, built from the constructors and the operators. -/
inductive MExpr where
  /-- `mixed_number<W, F>()` -/
  | dflt (W F : IntTy)
  /-- `mixed_number<W, F>(whole, frac)` -/
  | mk (W F : IntTy) (whole : Int) (frac : Raw)
  /-- `mixed_number<W, F>(frac)` from a fraction of representation `S` -/
  | ofFraction (W F S : IntTy) (frac : Raw)
  | pos (e : MExpr)
  | neg (e : MExpr)
  | add (l r : MExpr)
  | addFraction (e : MExpr) (S : IntTy) (f : Raw)
  | addWhole (e : MExpr) (S : IntTy) (n : Int)

namespace MExpr

/-- The static type of an expression: whole and fractional representation. -/
def ty : MExpr → IntTy × IntTy
  | dflt W F => (W, F)
  | mk W F _ _ => (W, F)
  | ofFraction W F _ _ => (W, F)
  | pos e => e.ty
  | neg e => e.ty
  | add l r => (IntTy.common l.ty.1 r.ty.1, IntTy.common l.ty.2 r.ty.2)
  | addFraction e S _ => (IntTy.common e.ty.1 S, IntTy.common e.ty.2 S)
  | addWhole e S _ => (IntTy.common e.ty.1 S, e.ty.2)

/-- Evaluation, bottom-up, of the operators of `/repo/include/ieme/mixed_number.hpp`. -/
def eval (o : Ops) : MExpr → Res Mixed
  | dflt _ _ => pure Mixed.default
  | mk W F w f => Mixed.mk' W F o w f
  | ofFraction W F S f => Mixed.ofFraction W F o S f
  | pos e => do
    let m ← e.eval o
    return m.pos
  | neg e => do
    let m ← e.eval o
    m.neg e.ty.1 e.ty.2 o
  | add l r => do
    let a ← l.eval o
    let b ← r.eval o
    Mixed.add l.ty.1 l.ty.2 r.ty.1 r.ty.2 o a b
  | addFraction e S f => do
    let a ← e.eval o
    Mixed.addFraction e.ty.1 e.ty.2 S o a f
  | addWhole e S n => do
    let a ← e.eval o
    Mixed.addWhole e.ty.1 e.ty.2 S o a n

end MExpr
end Ieme
