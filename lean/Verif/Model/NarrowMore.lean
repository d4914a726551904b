import Verif.Model.Stream
import Verif.Model.Narrow
import Verif.Model.MixedNumber

/-!
# More with types narrower than `int`: streams of 16-bit fractions, narrow whole parts

The 8-bit types are characters to the standard streams (`Verif/Model/StreamChar.lean`).  For
`short`, [istream.extractors] reads a `long` and compares it with the limits of `short`; for
`unsigned short` the facet stores the number itself ([facet.num.get.virtuals]).

A mixed number may have a narrow whole part and a fractional part of at least the width of `int`
(`mixed_number<short, int>`); a narrow fractional part does not compile, because `fix` and the
constructor from a fraction subtract two operands of the same narrow type
(`/repo/include/ieme/mixed_number.hpp:105-112,158-160`, see `Verif/Model/Narrow.lean`).
-/

namespace Ieme.Stream

/-- `stream >> value` for a `short`: the number is read as a `long`, here `L`, and clamped with
`failbit`.  When nothing was read the variable keeps its value, which is within the limits. -/
def getShort (L : IntTy) (N : NarrowTy) (s : IStream) (old : Int) : Int × IStream :=
  let r := getInt L s old
  if r.1 < N.min then (N.min, { r.2 with fail := true })
  else if N.max < r.1 then (N.max, { r.2 with fail := true })
  else r

/-- `stream >> value` for an `unsigned short`: as `getInt` for the wider unsigned types. -/
def getUShort (N : NarrowTy) (s : IStream) (old : Int) : Int × IStream :=
  if s.eof || s.fail then (old, { s with fail := true })
  else
    let r := s.rest.dropWhile isSpace
    if r.isEmpty then (old, ⟨[], true, true⟩)
    else
      let sign := (splitSign r).1
      let body := (splitSign r).2
      let ds := body.takeWhile isDigit
      let after := body.dropWhile isDigit
      if ds.isEmpty then (0, ⟨after, after.isEmpty, true⟩)
      else
        let m := decimal ds
        if N.max < m then (N.max, ⟨after, after.isEmpty, true⟩)
        else (N.wrap (if sign then -m else m), ⟨after, after.isEmpty, false⟩)

/-- `stream >> value` for a narrow integer that is not a character type. -/
def getNarrow (L : IntTy) (N : NarrowTy) (s : IStream) (old : Int) : Int × IStream :=
  if N.signed then getShort L N s old else getUShort N s old

/-- `operator>>`, `/repo/include/ieme/raw_fraction.hpp:64-71`, for a 16-bit representation; `L` is
the type `long`. -/
def readNarrow (L : IntTy) (N : NarrowTy) (s : IStream) (value : Raw) : Raw × IStream :=
  let n := getNarrow L N s value.num
  let s' := ignore n.2 '/'
  let d := getNarrow L N s' value.den
  (⟨n.1, d.1⟩, d.2)

end Ieme.Stream

namespace Ieme.Narrow.Mixed

/-- First step of `fix`, `/repo/include/ieme/mixed_number.hpp:155-161`: `whole_ +=` computes in
`int` and converts back. -/
def fixImproper (N : NarrowTy) (F : IntTy) (o : Ops) (m : Ieme.Mixed) : Res Ieme.Mixed := do
  let i ← m.frac.isImproper F
  if i then do
    let t ← Fraction.trunc F m.frac
    let t' ← N.conv t
    let s ← i32.add m.whole t'
    let w ← N.conv s
    let f ← Fraction.assignR F F o .minus m.frac t
    return ⟨w, f⟩
  else return m

/-- Second step of `fix`, `/repo/include/ieme/mixed_number.hpp:163-172`. -/
def fixSigns (N : NarrowTy) (F : IntTy) (o : Ops) (m : Ieme.Mixed) : Res Ieme.Mixed :=
  if m.whole > 0 ∧ m.frac.isNegative then do
    let s ← i32.sub m.whole 1
    let w ← N.conv s
    let f ← Fraction.arith F F o .plus (.rf 1 m.frac)
    return ⟨w, f⟩
  else if m.whole < 0 ∧ m.frac.isPositive then do
    let s ← i32.add m.whole 1
    let w ← N.conv s
    let n ← F.neg 1
    let f ← Fraction.arith F F o .plus (.rf n m.frac)
    return ⟨w, f⟩
  else return m

/-- `mixed_number(whole, fractional)`, `/repo/include/ieme/mixed_number.hpp:96-103,152-173`. -/
def mk' (N : NarrowTy) (F : IntTy) (o : Ops) (whole : Int) (frac : Raw := Fraction.default) :
    Res Ieme.Mixed := do
  let m ← fixImproper N F o ⟨whole, frac⟩
  fixSigns N F o m

/-- `mixed_number(fraction<S, Ops>)`, `/repo/include/ieme/mixed_number.hpp:105-112`. -/
def ofFraction (N : NarrowTy) (F : IntTy) (o : Ops) (S : IntTy) (v : Raw) : Res Ieme.Mixed := do
  let t ← Fraction.trunc S v
  let w ← N.conv t
  let w' ← S.conv w
  let d ← Fraction.arith S S o .minus (.fr v w')
  let f ← Fraction.ofOther F d
  return ⟨w, f⟩

/-- `as_fraction`, `/repo/include/ieme/mixed_number.hpp:122-136`: the common type of a narrow type
and a wider one is that of `int` and the wider one. -/
def asFraction (_N : NarrowTy) (F : IntTy) (o : Ops) (m : Ieme.Mixed) : Res Raw :=
  Ieme.Mixed.asFraction i32 F o m

/-- Unary `-`, `/repo/include/ieme/mixed_number.hpp:182-187`: the negated whole part is an `int` in
braces, a narrowing conversion. -/
def neg (_N : NarrowTy) (_F : IntTy) (_o : Ops) (_m : Ieme.Mixed) : Res Ieme.Mixed :=
  .fault .illFormed

/-- `mixed + mixed`, `/repo/include/ieme/mixed_number.hpp:189-209`, with whole parts of any types:
with the same narrow type the sum of the whole parts is an `int` in braces, otherwise the common
type is at least as wide as `int`. -/
def add (L : AnyTy) (F₁ : IntTy) (R : AnyTy) (F₂ : IntTy) (o : Ops) (l r : Ieme.Mixed) :
    Res Ieme.Mixed :=
  match L, R with
  | .narrow M, .narrow N =>
    if M = N then .fault .illFormed else Ieme.Mixed.add i32 F₁ i32 F₂ o l r
  | L, R => Ieme.Mixed.add L.promote F₁ R.promote F₂ o l r

/-- `mixed + fraction`, `/repo/include/ieme/mixed_number.hpp:211-229`: the fraction becomes a
`mixed_number<F₂, F₂>`. -/
def addFraction (_N : NarrowTy) (F₁ F₂ : IntTy) (o : Ops) (l : Ieme.Mixed) (r : Raw) :
    Res Ieme.Mixed :=
  Ieme.Mixed.addFraction i32 F₁ F₂ o l r

/-- `mixed + integer`, `/repo/include/ieme/mixed_number.hpp:231-249`, likewise. -/
def addWhole (L : AnyTy) (F : IntTy) (R : AnyTy) (o : Ops) (l : Ieme.Mixed) (r : Int) :
    Res Ieme.Mixed :=
  match L, R with
  | .narrow M, .narrow N =>
    if M = N then .fault .illFormed else Ieme.Mixed.addWhole i32 F i32 o l r
  | L, R => Ieme.Mixed.addWhole L.promote F R.promote o l r

end Ieme.Narrow.Mixed
