import Verif.Tests.Basic
import Verif.Model.FloatingPoint
import Verif.Model.Parse
import Verif.Model.Literals

/-!
# The examples of the README on the model

The values that `/repo/README.md` announces.  Three of its lines are wrong: `pow2(-3)` (line
118) lacks the representation, which cannot be deduced, and is read as `pow2<int>(-3)` here;
the comment on `to_long_double(-1/16_fr)` (line 152) lacks the sign; and
`to_fraction<int>(-2.25)` (line 148) is ill-formed, see the last two examples.
-/

namespace Ieme.Tests

/-! The opening example (`/repo/README.md:4-13`). -/

example : [
    Passes (do
      let x1 ← DenLit.divRep i32 1 (DenLit.fr 2)
      let x2 ← DenLit.divRep i32 3 (DenLit.fr 4)
      let x3 ← Fraction.arith i32 i32 .defaults .plus (.ff x1 x2)
      let x4 ← DenLit.divRep i32 5 (DenLit.fr 4)
      pure (Raw.areIdentical x3 x4)),
    Passes (do
      let x1 ← DenLit.divRep i32 1 (DenLit.fr 2)
      let x2 ← DenLit.divRep i32 4 (DenLit.fr 5)
      let x3 ← Fraction.arith i32 i32 .defaults .minus (.ff x1 x2)
      let x4 ← DenLit.divRep i32 (-3) (DenLit.fr 10)
      pure (Raw.areIdentical x3 x4)),
    Passes (do
      let x1 ← DenLit.divRep i32 3 (DenLit.fr 4)
      let x2 ← Fraction.arith i32 i32 .defaults .multiplies (.fr x1 3)
      let x3 ← DenLit.divFraction i32 .defaults x2 (DenLit.fr 7)
      let x4 ← DenLit.divRep i32 9 (DenLit.fr 28)
      pure (Raw.areIdentical x3 x4)),
    Passes (do
      let x1 ← Parse.dec "0.759".toList
      let x2 ← DenLit.divRep i64 759 (DenLit.fr 1000)
      pure (Raw.areIdentical x1 x2)),
    Passes (do
      let x1 ← DenLit.divRep i32 3 (DenLit.fr 4)
      let x2 ← DenLit.divRep i32 4 (DenLit.fr 3)
      pure (Raw.areIdentical (Raw.reciprocal x1) x2)),
    Passes (do
      let x1 ← DenLit.divRep i32 16 (DenLit.fr 24)
      let x2 ← Raw.reduce i32 .normalizeSigns x1
      let x3 ← DenLit.divRep i32 2 (DenLit.fr 3)
      pure (Raw.areIdentical x2 x3)),
    Passes (do
      let x1 ← DenLit.divRep i32 19 (DenLit.fr 10)
      let x2 ← Fraction.round i32 .defaults x1
      pure (decide (x2 = 2)))].all id = true := by
  decide +kernel

example : (do let f ← Parse.dec "0.759".toList; Fraction.ofOther i32 f) = .ok ⟨759, 1000⟩ false
    := by
  decide +kernel

/-! Construction (`/repo/README.md:65-78`). -/

example : Fraction.ofRatio i32 1 1000 = .ok ⟨1, 1000⟩ false := by decide +kernel

example : [
    Passes (do
      let x1 ← DenLit.divRep i32 (-2) (DenLit.fr 7)
      pure (Raw.areIdentical x1 (Fraction.mk (-2) 7))),
    Passes (do
      let x1 ← DenLit.divRep u32 7 (DenLit.fr 9)
      pure (Raw.areIdentical x1 (Fraction.mk 7 9))),
    Passes (do
      let x1 ← Parse.dec "2.37".toList
      let x2 ← DenLit.divRep i64 237 (DenLit.fr 100)
      pure (Raw.areIdentical x1 x2))].all id = true := by
  decide +kernel

/-! Arithmetic and comparisons (`/repo/README.md:84-102`). -/

example : [
    Passes (do
      let x1 ← DenLit.divRep i32 3 (DenLit.fr 4)
      let x2 ← DenLit.divRep i32 3 (DenLit.fr 2)
      let x3 ← Fraction.arith i32 i32 .defaults .divides (.ff x1 x2)
      let x4 ← DenLit.divRep i32 1 (DenLit.fr 2)
      pure (Raw.areIdentical x3 x4)),
    Passes (do
      let x1 ← DenLit.divRep i32 4 (DenLit.fr 7)
      let x2 ← DenLit.divRep i32 2 (DenLit.fr 5)
      let x3 ← Fraction.arith i32 i32 .defaults .modulus (.ff x1 x2)
      let x4 ← DenLit.divRep i32 6 (DenLit.fr 35)
      pure (Raw.areIdentical x3 x4)),
    Passes (do
      let x1 ← DenLit.divRep i32 1 (DenLit.fr 2)
      let x2 ← DenLit.divRep i32 2 (DenLit.fr 4)
      Fraction.cmp i32 i32 .defaults .equalTo (.ff x1 x2)),
    Passes (do
      let x1 ← DenLit.divRep i32 1 (DenLit.fr 2)
      let x2 ← DenLit.divRep i32 1 (DenLit.fr 4)
      Fraction.cmp i32 i32 .defaults .greater (.ff x1 x2)),
    Passes (do
      let x1 ← DenLit.divRep i32 1 (DenLit.fr 2)
      let x2 ← DenLit.divRep i32 1 (DenLit.fr 3)
      Fraction.cmp i32 i32 .defaults .greaterEqual (.ff x1 x2)),
    Passes (do
      let x1 ← DenLit.divRep i32 1 (DenLit.fr 2)
      let x2 ← DenLit.divRep i32 3 (DenLit.fr 4)
      Fraction.cmp i32 i32 .defaults .less (.ff x1 x2)),
    Passes (do
      let x1 ← DenLit.divRep i32 1 (DenLit.fr 2)
      let x2 ← DenLit.divRep i32 2 (DenLit.fr 3)
      Fraction.cmp i32 i32 .defaults .lessEqual (.ff x1 x2))].all id = true := by
  decide +kernel

example : Fraction.cmp i32 i32 .defaults .notEqualTo (.ff ⟨1, 2⟩ ⟨2, 4⟩) = .ok false false := by
  decide +kernel

/-! Common operations and queries (`/repo/README.md:106-142`). -/

example : [
    Passes (do
      let x1 ← DenLit.divRep i32 19 (DenLit.fr 10)
      let x2 ← Fraction.trunc i32 x1
      pure (decide (x2 = 1))),
    Passes (do
      let x1 ← DenLit.divRep i32 19 (DenLit.fr 10)
      let x2 ← Fraction.floor i32 x1
      pure (decide (x2 = 1))),
    Passes (do
      let x1 ← DenLit.divRep i32 19 (DenLit.fr 10)
      let x2 ← Fraction.ceil i32 x1
      pure (decide (x2 = 2))),
    Passes (do
      let x1 ← DenLit.divRep i32 (-4) (DenLit.fr 5)
      let x2 ← Fraction.abs i32 .defaults x1
      let x3 ← DenLit.divRep i32 4 (DenLit.fr 5)
      pure (Raw.areIdentical x2 x3)),
    Passes (do
      let x1 ← Fraction.pow2 i32 (-3)
      let x2 ← DenLit.divRep i32 1 (DenLit.fr 8)
      pure (Raw.areIdentical x1 x2)),
    Passes (do
      let x1 ← Fraction.pow i32 3 (-2)
      let x2 ← DenLit.divRep i32 1 (DenLit.fr 9)
      pure (Raw.areIdentical x1 x2)),
    Passes (do
      let x1 ← DenLit.divRep i32 2 (DenLit.fr 0)
      pure (Raw.isUndefined x1)),
    Passes (do
      let x1 ← DenLit.divRep i32 3 (DenLit.fr 4)
      pure (Raw.isPositive x1)),
    Passes (do
      let x1 ← DenLit.divRep i32 0 (DenLit.fr 4)
      pure (Raw.isZero x1)),
    Passes (do
      let x1 ← DenLit.divRep i32 (-3) (DenLit.fr 4)
      pure (Raw.isNegative x1)),
    Passes (do
      let x1 ← DenLit.divRep i32 2 (DenLit.fr 1)
      Raw.isInteger i32 x1),
    Passes (do
      let x1 ← DenLit.divRep i32 1 (DenLit.fr 3)
      Raw.isUnitFraction i32 x1),
    Passes (do
      let x1 ← DenLit.divRep i32 1 (DenLit.fr 4)
      Raw.isProper i32 x1),
    Passes (do
      let x1 ← DenLit.divRep i32 5 (DenLit.fr 4)
      Raw.isImproper i32 x1),
    Passes (do
      let x1 ← DenLit.divRep i32 1 (DenLit.fr 2)
      let x2 ← DenLit.divRep i32 1 (DenLit.fr 2)
      pure (Raw.areIdentical x1 x2)),
    Passes (do
      let x2 ← DenLit.divRep i32 1 (DenLit.fr 2)
      let x1 ← DenLit.neg (DenLit.fr 2)
      let x3 ← DenLit.divRep i32 (-1) x1
      pure (Raw.areDifferent x2 x3))].all id = true := by
  decide +kernel

example : Raw.isReduced i32 ⟨5, 10⟩ = .ok false false := by decide +kernel

/-! Floating point (`/repo/README.md:146-153`). -/

example : [
    Passes (do
      let x1 ← FloatingPoint.toFraction .little binary32 i32 .defaults 0x3ec00000
      let x2 ← DenLit.divRep i32 3 (DenLit.fr 8)
      pure (Raw.areIdentical x1 x2)),
    Passes (do
      let x1 ← DenLit.divRep i32 1 (DenLit.fr 4)
      let x2 ← FloatingPoint.ofFraction binary32 i32 x1
      pure (decide (x2 = 0x3e800000))),
    Passes (do
      let x1 ← DenLit.divRep i32 5 (DenLit.fr 8)
      let x2 ← FloatingPoint.ofFraction binary64 i32 x1
      pure (decide (x2 = 0x3fe4000000000000))),
    Passes (do
      let x1 ← DenLit.divRep i32 (-1) (DenLit.fr 16)
      let x2 ← FloatingPoint.ofFraction extended80 i32 x1
      pure (decide (x2 = (extended80.withSign true 0x1ffd8000000000000000))))].all id = true := by
  decide +kernel

/-- `to_fraction<int>(-2.25)`, announced as `-9/4`, does not compile: the denominator `2^52` of
the mantissa is computed in `int` in a constant expression. -/
example : FloatingPoint.toFraction .little binary64 i32 .defaults 0xc002000000000000
    = .fault .illFormed := by
  decide +kernel

/-- With a representation wide enough the result is the announced one. -/
example : FloatingPoint.toFraction .little binary64 i64 .defaults 0xc002000000000000
    = .ok ⟨-9, 4⟩ false := by
  decide +kernel

end Ieme.Tests
