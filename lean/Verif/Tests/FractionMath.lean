import Verif.Tests.Basic
import Verif.Model.FractionMath
import Verif.Model.Literals

/-!
# `fraction_math.test.cpp` on the model

The 284 assertions below are those of `/repo/src/ieme/fraction_math.test.cpp`.
-/

namespace Ieme.Tests

/-! A fraction's reciprocal can be calculated (`/repo/src/ieme/fraction_math.test.cpp:14`). -/

example : [
    Passes (do
      let x1 ← DenLit.neg (DenLit.fr 19)
      let x2 ← DenLit.divRep i32 4 x1
      let x3 ← DenLit.divRep i32 (-19) (DenLit.fr 4)
      pure (Raw.areIdentical (Raw.reciprocal x2) x3))].all id = true := by
  decide +kernel

/-! Fractions can be normalized to cancel double negative signs or move a negative sign to the
    numerator (`/repo/src/ieme/fraction_math.test.cpp:19`). -/

example : [
    Passes (do
      let x1 ← DenLit.divRep i32 3 (DenLit.fr 5)
      let x2 ← Raw.normalizeSigns i32 x1
      let x3 ← DenLit.divRep i32 3 (DenLit.fr 5)
      pure (Raw.areIdentical x2 x3)),
    Passes (do
      let x4 ← DenLit.divRep i32 (-3) (DenLit.fr 5)
      let x5 ← Raw.normalizeSigns i32 x4
      let x6 ← DenLit.divRep i32 (-3) (DenLit.fr 5)
      pure (Raw.areIdentical x5 x6)),
    Passes (do
      let x7 ← DenLit.neg (DenLit.fr 5)
      let x8 ← DenLit.divRep i32 3 x7
      let x9 ← Raw.normalizeSigns i32 x8
      let x10 ← DenLit.divRep i32 (-3) (DenLit.fr 5)
      pure (Raw.areIdentical x9 x10)),
    Passes (do
      let x11 ← DenLit.neg (DenLit.fr 5)
      let x12 ← DenLit.divRep i32 (-3) x11
      let x13 ← Raw.normalizeSigns i32 x12
      let x14 ← DenLit.divRep i32 3 (DenLit.fr 5)
      pure (Raw.areIdentical x13 x14))].all id = true := by
  decide +kernel

/-! A fraction can be reduced (`/repo/src/ieme/fraction_math.test.cpp:29`). -/

example : [
    Passes (do
      let x1 ← DenLit.divRep i32 12 (DenLit.fr 32)
      let x2 ← Raw.reduce i32 .ignoreSigns x1
      let x3 ← DenLit.divRep i32 3 (DenLit.fr 8)
      pure (Raw.areIdentical x2 x3)),
    Passes (do
      let x4 ← DenLit.divRep i32 12 (DenLit.fr 32)
      let x5 ← Raw.reduce i32 .normalizeSigns x4
      let x6 ← DenLit.divRep i32 3 (DenLit.fr 8)
      pure (Raw.areIdentical x5 x6)),
    Passes (do
      let x7 ← DenLit.divRep i32 (-12) (DenLit.fr 32)
      let x8 ← Raw.reduce i32 .ignoreSigns x7
      let x9 ← DenLit.divRep i32 (-3) (DenLit.fr 8)
      pure (Raw.areIdentical x8 x9)),
    Passes (do
      let x10 ← DenLit.divRep i32 (-12) (DenLit.fr 32)
      let x11 ← Raw.reduce i32 .normalizeSigns x10
      let x12 ← DenLit.divRep i32 (-3) (DenLit.fr 8)
      pure (Raw.areIdentical x11 x12)),
    Passes (do
      let x13 ← DenLit.neg (DenLit.fr 32)
      let x14 ← DenLit.divRep i32 12 x13
      let x16 ← Raw.reduce i32 .ignoreSigns x14
      let x15 ← DenLit.neg (DenLit.fr 8)
      let x17 ← DenLit.divRep i32 3 x15
      pure (Raw.areIdentical x16 x17)),
    Passes (do
      let x18 ← DenLit.neg (DenLit.fr 32)
      let x19 ← DenLit.divRep i32 12 x18
      let x20 ← Raw.reduce i32 .normalizeSigns x19
      let x21 ← DenLit.divRep i32 (-3) (DenLit.fr 8)
      pure (Raw.areIdentical x20 x21)),
    Passes (do
      let x22 ← DenLit.neg (DenLit.fr 32)
      let x23 ← DenLit.divRep i32 (-12) x22
      let x25 ← Raw.reduce i32 .ignoreSigns x23
      let x24 ← DenLit.neg (DenLit.fr 8)
      let x26 ← DenLit.divRep i32 (-3) x24
      pure (Raw.areIdentical x25 x26)),
    Passes (do
      let x27 ← DenLit.neg (DenLit.fr 32)
      let x28 ← DenLit.divRep i32 (-12) x27
      let x29 ← Raw.reduce i32 .normalizeSigns x28
      let x30 ← DenLit.divRep i32 3 (DenLit.fr 8)
      pure (Raw.areIdentical x29 x30)),
    Passes (do
      let x31 ← DenLit.neg (DenLit.fr 8)
      let x32 ← DenLit.divRep i32 (-3) x31
      let x34 ← Raw.reduce i32 .ignoreSigns x32
      let x33 ← DenLit.neg (DenLit.fr 8)
      let x35 ← DenLit.divRep i32 (-3) x33
      pure (Raw.areIdentical x34 x35)),
    Passes (do
      let x36 ← DenLit.neg (DenLit.fr 8)
      let x37 ← DenLit.divRep i32 (-3) x36
      let x38 ← Raw.reduce i32 .normalizeSigns x37
      let x39 ← DenLit.divRep i32 3 (DenLit.fr 8)
      pure (Raw.areIdentical x38 x39)),
    Passes (do
      let x40 ← DenLit.divRep i32 (-12) (DenLit.fr 0)
      let x41 ← Raw.reduce i32 .ignoreSigns x40
      let x42 ← DenLit.divRep i32 0 (DenLit.fr 0)
      pure (Raw.areIdentical x41 x42)),
    Passes (do
      let x43 ← DenLit.divRep i32 (-12) (DenLit.fr 0)
      let x44 ← Raw.reduce i32 .normalizeSigns x43
      let x45 ← DenLit.divRep i32 0 (DenLit.fr 0)
      pure (Raw.areIdentical x44 x45))].all id = true := by
  decide +kernel

/-! A fraction's absolute value can be calculated (`/repo/src/ieme/fraction_math.test.cpp:62`). -/

example : [
    Passes (do
      let x1 ← DenLit.divRep i32 3 (DenLit.fr 2)
      let x2 ← Fraction.abs i32 .defaults x1
      let x3 ← DenLit.divRep i32 3 (DenLit.fr 2)
      Fraction.cmp i32 i32 .defaults .equalTo (.ff x2 x3)),
    Passes (do
      let x4 ← DenLit.divRep i32 (-3) (DenLit.fr 2)
      let x5 ← Fraction.abs i32 .defaults x4
      let x6 ← DenLit.divRep i32 3 (DenLit.fr 2)
      Fraction.cmp i32 i32 .defaults .equalTo (.ff x5 x6)),
    Passes (do
      let x7 ← DenLit.divRep i32 0 (DenLit.fr 1)
      let x8 ← Fraction.abs i32 .defaults x7
      Fraction.cmp i32 i32 .defaults .equalTo (.fr x8 0))].all id = true := by
  decide +kernel

/-! A fraction can be truncated (`/repo/src/ieme/fraction_math.test.cpp:69`). -/

example : [
    Passes (do
      let x1 ← DenLit.divRep i32 7 (DenLit.fr 3)
      let x2 ← Fraction.trunc i32 x1
      pure (decide (x2 = 2))),
    Passes (do
      let x3 ← DenLit.divRep i32 8 (DenLit.fr 3)
      let x4 ← Fraction.trunc i32 x3
      pure (decide (x4 = 2))),
    Passes (do
      let x5 ← DenLit.divRep i32 2 (DenLit.fr 1)
      let x6 ← Fraction.trunc i32 x5
      pure (decide (x6 = 2))),
    Passes (do
      let x7 ← DenLit.divRep i32 (-7) (DenLit.fr 3)
      let x8 ← Fraction.trunc i32 x7
      pure (decide (x8 = (-2)))),
    Passes (do
      let x9 ← DenLit.divRep i32 (-8) (DenLit.fr 3)
      let x10 ← Fraction.trunc i32 x9
      pure (decide (x10 = (-2)))),
    Passes (do
      let x11 ← DenLit.divRep i32 (-2) (DenLit.fr 1)
      let x12 ← Fraction.trunc i32 x11
      pure (decide (x12 = (-2))))].all id = true := by
  decide +kernel

/-! A fraction can be ceilinged (`/repo/src/ieme/fraction_math.test.cpp:79`). -/

example : [
    Passes (do
      let x1 ← DenLit.divRep i32 7 (DenLit.fr 3)
      let x2 ← Fraction.ceil i32 x1
      pure (decide (x2 = 3))),
    Passes (do
      let x3 ← DenLit.divRep i32 8 (DenLit.fr 3)
      let x4 ← Fraction.ceil i32 x3
      pure (decide (x4 = 3))),
    Passes (do
      let x5 ← DenLit.divRep i32 2 (DenLit.fr 1)
      let x6 ← Fraction.ceil i32 x5
      pure (decide (x6 = 2))),
    Passes (do
      let x7 ← DenLit.divRep i32 (-7) (DenLit.fr 3)
      let x8 ← Fraction.ceil i32 x7
      pure (decide (x8 = (-2)))),
    Passes (do
      let x9 ← DenLit.divRep i32 (-8) (DenLit.fr 3)
      let x10 ← Fraction.ceil i32 x9
      pure (decide (x10 = (-2)))),
    Passes (do
      let x11 ← DenLit.divRep i32 (-2) (DenLit.fr 1)
      let x12 ← Fraction.ceil i32 x11
      pure (decide (x12 = (-2))))].all id = true := by
  decide +kernel

/-! A fraction can be floored (`/repo/src/ieme/fraction_math.test.cpp:89`). -/

example : [
    Passes (do
      let x1 ← DenLit.divRep i32 7 (DenLit.fr 3)
      let x2 ← Fraction.floor i32 x1
      pure (decide (x2 = 2))),
    Passes (do
      let x3 ← DenLit.divRep i32 8 (DenLit.fr 3)
      let x4 ← Fraction.floor i32 x3
      pure (decide (x4 = 2))),
    Passes (do
      let x5 ← DenLit.divRep i32 2 (DenLit.fr 1)
      let x6 ← Fraction.floor i32 x5
      pure (decide (x6 = 2))),
    Passes (do
      let x7 ← DenLit.divRep i32 (-7) (DenLit.fr 3)
      let x8 ← Fraction.floor i32 x7
      pure (decide (x8 = (-3)))),
    Passes (do
      let x9 ← DenLit.divRep i32 (-8) (DenLit.fr 3)
      let x10 ← Fraction.floor i32 x9
      pure (decide (x10 = (-3)))),
    Passes (do
      let x11 ← DenLit.divRep i32 (-2) (DenLit.fr 1)
      let x12 ← Fraction.floor i32 x11
      pure (decide (x12 = (-2))))].all id = true := by
  decide +kernel

/-! A fraction can be rounded (`/repo/src/ieme/fraction_math.test.cpp:99`). -/

example : [
    Passes (do
      let x1 ← DenLit.divRep i32 7 (DenLit.fr 3)
      let x2 ← Fraction.round i32 .defaults x1
      pure (decide (x2 = 2))),
    Passes (do
      let x3 ← DenLit.divRep i32 8 (DenLit.fr 3)
      let x4 ← Fraction.round i32 .defaults x3
      pure (decide (x4 = 3))),
    Passes (do
      let x5 ← DenLit.divRep i32 2 (DenLit.fr 1)
      let x6 ← Fraction.round i32 .defaults x5
      pure (decide (x6 = 2))),
    Passes (do
      let x7 ← DenLit.divRep i32 (-7) (DenLit.fr 3)
      let x8 ← Fraction.round i32 .defaults x7
      pure (decide (x8 = (-2)))),
    Passes (do
      let x9 ← DenLit.divRep i32 (-8) (DenLit.fr 3)
      let x10 ← Fraction.round i32 .defaults x9
      pure (decide (x10 = (-3)))),
    Passes (do
      let x11 ← DenLit.divRep i32 (-2) (DenLit.fr 1)
      let x12 ← Fraction.round i32 .defaults x11
      pure (decide (x12 = (-2))))].all id = true := by
  decide +kernel

/-! A fraction can be converted to a whole number using various rounding modes
    (`/repo/src/ieme/fraction_math.test.cpp:109`). -/

example : [
    Passes (do
      let x1 ← DenLit.divRep i32 7 (DenLit.fr 3)
      let x2 ← Fraction.toWhole i32 .defaults x1 .trunc
      pure (decide (x2 = 2))),
    Passes (do
      let x3 ← DenLit.divRep i32 8 (DenLit.fr 3)
      let x4 ← Fraction.toWhole i32 .defaults x3 .trunc
      pure (decide (x4 = 2))),
    Passes (do
      let x5 ← DenLit.divRep i32 (-7) (DenLit.fr 3)
      let x6 ← Fraction.toWhole i32 .defaults x5 .trunc
      pure (decide (x6 = (-2)))),
    Passes (do
      let x7 ← DenLit.divRep i32 (-8) (DenLit.fr 3)
      let x8 ← Fraction.toWhole i32 .defaults x7 .trunc
      pure (decide (x8 = (-2)))),
    Passes (do
      let x9 ← DenLit.divRep i32 7 (DenLit.fr 3)
      let x10 ← Fraction.toWhole i32 .defaults x9 .ceil
      pure (decide (x10 = 3))),
    Passes (do
      let x11 ← DenLit.divRep i32 8 (DenLit.fr 3)
      let x12 ← Fraction.toWhole i32 .defaults x11 .ceil
      pure (decide (x12 = 3))),
    Passes (do
      let x13 ← DenLit.divRep i32 (-7) (DenLit.fr 3)
      let x14 ← Fraction.toWhole i32 .defaults x13 .ceil
      pure (decide (x14 = (-2)))),
    Passes (do
      let x15 ← DenLit.divRep i32 (-8) (DenLit.fr 3)
      let x16 ← Fraction.toWhole i32 .defaults x15 .ceil
      pure (decide (x16 = (-2)))),
    Passes (do
      let x17 ← DenLit.divRep i32 7 (DenLit.fr 3)
      let x18 ← Fraction.toWhole i32 .defaults x17 .floor
      pure (decide (x18 = 2))),
    Passes (do
      let x19 ← DenLit.divRep i32 8 (DenLit.fr 3)
      let x20 ← Fraction.toWhole i32 .defaults x19 .floor
      pure (decide (x20 = 2))),
    Passes (do
      let x21 ← DenLit.divRep i32 (-7) (DenLit.fr 3)
      let x22 ← Fraction.toWhole i32 .defaults x21 .floor
      pure (decide (x22 = (-3)))),
    Passes (do
      let x23 ← DenLit.divRep i32 (-8) (DenLit.fr 3)
      let x24 ← Fraction.toWhole i32 .defaults x23 .floor
      pure (decide (x24 = (-3)))),
    Passes (do
      let x25 ← DenLit.divRep i32 7 (DenLit.fr 3)
      let x26 ← Fraction.toWhole i32 .defaults x25 .round
      pure (decide (x26 = 2))),
    Passes (do
      let x27 ← DenLit.divRep i32 8 (DenLit.fr 3)
      let x28 ← Fraction.toWhole i32 .defaults x27 .round
      pure (decide (x28 = 3))),
    Passes (do
      let x29 ← DenLit.divRep i32 (-7) (DenLit.fr 3)
      let x30 ← Fraction.toWhole i32 .defaults x29 .round
      pure (decide (x30 = (-2)))),
    Passes (do
      let x31 ← DenLit.divRep i32 (-8) (DenLit.fr 3)
      let x32 ← Fraction.toWhole i32 .defaults x31 .round
      pure (decide (x32 = (-3))))].all id = true := by
  decide +kernel

/-! A fraction can be redenominated using trunc (`/repo/src/ieme/fraction_math.test.cpp:134`). -/

example : [
    Passes (do
      let x1 ← DenLit.divRep i32 4 (DenLit.fr 3)
      let x2 ← Fraction.truncRedenominate i32 .defaults x1 5
      let x3 ← DenLit.divRep i32 6 (DenLit.fr 5)
      pure (Raw.areIdentical x2 x3)),
    Passes (do
      let x4 ← DenLit.divRep i32 5 (DenLit.fr 3)
      let x5 ← Fraction.truncRedenominate i32 .defaults x4 5
      let x6 ← DenLit.divRep i32 8 (DenLit.fr 5)
      pure (Raw.areIdentical x5 x6)),
    Passes (do
      let x7 ← DenLit.divRep i32 2 (DenLit.fr 5)
      let x8 ← Fraction.truncRedenominate i32 .defaults x7 3
      let x9 ← DenLit.divRep i32 1 (DenLit.fr 3)
      pure (Raw.areIdentical x8 x9)),
    Passes (do
      let x10 ← DenLit.divRep i32 3 (DenLit.fr 5)
      let x11 ← Fraction.truncRedenominate i32 .defaults x10 3
      let x12 ← DenLit.divRep i32 1 (DenLit.fr 3)
      pure (Raw.areIdentical x11 x12)),
    Passes (do
      let x13 ← DenLit.divRep i32 1 (DenLit.fr 4)
      let x14 ← Fraction.truncRedenominate i32 .defaults x13 8
      let x15 ← DenLit.divRep i32 2 (DenLit.fr 8)
      pure (Raw.areIdentical x14 x15)),
    Passes (do
      let x16 ← DenLit.divRep i32 2 (DenLit.fr 8)
      let x17 ← Fraction.truncRedenominate i32 .defaults x16 4
      let x18 ← DenLit.divRep i32 1 (DenLit.fr 4)
      pure (Raw.areIdentical x17 x18)),
    Passes (do
      let x19 ← DenLit.divRep i32 (-4) (DenLit.fr 3)
      let x20 ← Fraction.truncRedenominate i32 .defaults x19 5
      let x21 ← DenLit.divRep i32 (-6) (DenLit.fr 5)
      pure (Raw.areIdentical x20 x21)),
    Passes (do
      let x22 ← DenLit.divRep i32 (-5) (DenLit.fr 3)
      let x23 ← Fraction.truncRedenominate i32 .defaults x22 5
      let x24 ← DenLit.divRep i32 (-8) (DenLit.fr 5)
      pure (Raw.areIdentical x23 x24)),
    Passes (do
      let x25 ← DenLit.divRep i32 (-2) (DenLit.fr 5)
      let x26 ← Fraction.truncRedenominate i32 .defaults x25 3
      let x27 ← DenLit.divRep i32 (-1) (DenLit.fr 3)
      pure (Raw.areIdentical x26 x27)),
    Passes (do
      let x28 ← DenLit.divRep i32 (-3) (DenLit.fr 5)
      let x29 ← Fraction.truncRedenominate i32 .defaults x28 3
      let x30 ← DenLit.divRep i32 (-1) (DenLit.fr 3)
      pure (Raw.areIdentical x29 x30)),
    Passes (do
      let x31 ← DenLit.divRep i32 (-1) (DenLit.fr 4)
      let x32 ← Fraction.truncRedenominate i32 .defaults x31 8
      let x33 ← DenLit.divRep i32 (-2) (DenLit.fr 8)
      pure (Raw.areIdentical x32 x33)),
    Passes (do
      let x34 ← DenLit.divRep i32 (-2) (DenLit.fr 8)
      let x35 ← Fraction.truncRedenominate i32 .defaults x34 4
      let x36 ← DenLit.divRep i32 (-1) (DenLit.fr 4)
      pure (Raw.areIdentical x35 x36)),
    Passes (do
      let x37 ← DenLit.neg (DenLit.fr 3)
      let x38 ← DenLit.divRep i32 4 x37
      let x39 ← Fraction.truncRedenominate i32 .defaults x38 5
      let x40 ← DenLit.divRep i32 (-6) (DenLit.fr 5)
      pure (Raw.areIdentical x39 x40)),
    Passes (do
      let x41 ← DenLit.neg (DenLit.fr 3)
      let x42 ← DenLit.divRep i32 5 x41
      let x43 ← Fraction.truncRedenominate i32 .defaults x42 5
      let x44 ← DenLit.divRep i32 (-8) (DenLit.fr 5)
      pure (Raw.areIdentical x43 x44)),
    Passes (do
      let x45 ← DenLit.neg (DenLit.fr 5)
      let x46 ← DenLit.divRep i32 2 x45
      let x47 ← Fraction.truncRedenominate i32 .defaults x46 3
      let x48 ← DenLit.divRep i32 (-1) (DenLit.fr 3)
      pure (Raw.areIdentical x47 x48)),
    Passes (do
      let x49 ← DenLit.neg (DenLit.fr 5)
      let x50 ← DenLit.divRep i32 3 x49
      let x51 ← Fraction.truncRedenominate i32 .defaults x50 3
      let x52 ← DenLit.divRep i32 (-1) (DenLit.fr 3)
      pure (Raw.areIdentical x51 x52)),
    Passes (do
      let x53 ← DenLit.neg (DenLit.fr 4)
      let x54 ← DenLit.divRep i32 1 x53
      let x55 ← Fraction.truncRedenominate i32 .defaults x54 8
      let x56 ← DenLit.divRep i32 (-2) (DenLit.fr 8)
      pure (Raw.areIdentical x55 x56)),
    Passes (do
      let x57 ← DenLit.neg (DenLit.fr 8)
      let x58 ← DenLit.divRep i32 2 x57
      let x59 ← Fraction.truncRedenominate i32 .defaults x58 4
      let x60 ← DenLit.divRep i32 (-1) (DenLit.fr 4)
      pure (Raw.areIdentical x59 x60)),
    Passes (do
      let x61 ← DenLit.neg (DenLit.fr 3)
      let x62 ← DenLit.divRep i32 (-4) x61
      let x63 ← Fraction.truncRedenominate i32 .defaults x62 5
      let x64 ← DenLit.divRep i32 6 (DenLit.fr 5)
      pure (Raw.areIdentical x63 x64)),
    Passes (do
      let x65 ← DenLit.neg (DenLit.fr 3)
      let x66 ← DenLit.divRep i32 (-5) x65
      let x67 ← Fraction.truncRedenominate i32 .defaults x66 5
      let x68 ← DenLit.divRep i32 8 (DenLit.fr 5)
      pure (Raw.areIdentical x67 x68)),
    Passes (do
      let x69 ← DenLit.neg (DenLit.fr 5)
      let x70 ← DenLit.divRep i32 (-2) x69
      let x71 ← Fraction.truncRedenominate i32 .defaults x70 3
      let x72 ← DenLit.divRep i32 1 (DenLit.fr 3)
      pure (Raw.areIdentical x71 x72)),
    Passes (do
      let x73 ← DenLit.neg (DenLit.fr 5)
      let x74 ← DenLit.divRep i32 (-3) x73
      let x75 ← Fraction.truncRedenominate i32 .defaults x74 3
      let x76 ← DenLit.divRep i32 1 (DenLit.fr 3)
      pure (Raw.areIdentical x75 x76)),
    Passes (do
      let x77 ← DenLit.neg (DenLit.fr 4)
      let x78 ← DenLit.divRep i32 (-1) x77
      let x79 ← Fraction.truncRedenominate i32 .defaults x78 8
      let x80 ← DenLit.divRep i32 2 (DenLit.fr 8)
      pure (Raw.areIdentical x79 x80)),
    Passes (do
      let x81 ← DenLit.neg (DenLit.fr 8)
      let x82 ← DenLit.divRep i32 (-2) x81
      let x83 ← Fraction.truncRedenominate i32 .defaults x82 4
      let x84 ← DenLit.divRep i32 1 (DenLit.fr 4)
      pure (Raw.areIdentical x83 x84)),
    Passes (do
      let x85 ← DenLit.divRep i32 4 (DenLit.fr 3)
      let x87 ← Fraction.truncRedenominate i32 .defaults x85 (-5)
      let x86 ← DenLit.neg (DenLit.fr 5)
      let x88 ← DenLit.divRep i32 (-6) x86
      pure (Raw.areIdentical x87 x88)),
    Passes (do
      let x89 ← DenLit.divRep i32 5 (DenLit.fr 3)
      let x91 ← Fraction.truncRedenominate i32 .defaults x89 (-5)
      let x90 ← DenLit.neg (DenLit.fr 5)
      let x92 ← DenLit.divRep i32 (-8) x90
      pure (Raw.areIdentical x91 x92)),
    Passes (do
      let x93 ← DenLit.divRep i32 2 (DenLit.fr 5)
      let x95 ← Fraction.truncRedenominate i32 .defaults x93 (-3)
      let x94 ← DenLit.neg (DenLit.fr 3)
      let x96 ← DenLit.divRep i32 (-1) x94
      pure (Raw.areIdentical x95 x96)),
    Passes (do
      let x97 ← DenLit.divRep i32 3 (DenLit.fr 5)
      let x99 ← Fraction.truncRedenominate i32 .defaults x97 (-3)
      let x98 ← DenLit.neg (DenLit.fr 3)
      let x100 ← DenLit.divRep i32 (-1) x98
      pure (Raw.areIdentical x99 x100)),
    Passes (do
      let x101 ← DenLit.divRep i32 1 (DenLit.fr 4)
      let x103 ← Fraction.truncRedenominate i32 .defaults x101 (-8)
      let x102 ← DenLit.neg (DenLit.fr 8)
      let x104 ← DenLit.divRep i32 (-2) x102
      pure (Raw.areIdentical x103 x104)),
    Passes (do
      let x105 ← DenLit.divRep i32 2 (DenLit.fr 8)
      let x107 ← Fraction.truncRedenominate i32 .defaults x105 (-4)
      let x106 ← DenLit.neg (DenLit.fr 4)
      let x108 ← DenLit.divRep i32 (-1) x106
      pure (Raw.areIdentical x107 x108)),
    Passes (do
      let x109 ← DenLit.divRep i32 (-4) (DenLit.fr 3)
      let x111 ← Fraction.truncRedenominate i32 .defaults x109 (-5)
      let x110 ← DenLit.neg (DenLit.fr 5)
      let x112 ← DenLit.divRep i32 6 x110
      pure (Raw.areIdentical x111 x112)),
    Passes (do
      let x113 ← DenLit.divRep i32 (-5) (DenLit.fr 3)
      let x115 ← Fraction.truncRedenominate i32 .defaults x113 (-5)
      let x114 ← DenLit.neg (DenLit.fr 5)
      let x116 ← DenLit.divRep i32 8 x114
      pure (Raw.areIdentical x115 x116)),
    Passes (do
      let x117 ← DenLit.divRep i32 (-2) (DenLit.fr 5)
      let x119 ← Fraction.truncRedenominate i32 .defaults x117 (-3)
      let x118 ← DenLit.neg (DenLit.fr 3)
      let x120 ← DenLit.divRep i32 1 x118
      pure (Raw.areIdentical x119 x120)),
    Passes (do
      let x121 ← DenLit.divRep i32 (-3) (DenLit.fr 5)
      let x123 ← Fraction.truncRedenominate i32 .defaults x121 (-3)
      let x122 ← DenLit.neg (DenLit.fr 3)
      let x124 ← DenLit.divRep i32 1 x122
      pure (Raw.areIdentical x123 x124)),
    Passes (do
      let x125 ← DenLit.divRep i32 (-1) (DenLit.fr 4)
      let x127 ← Fraction.truncRedenominate i32 .defaults x125 (-8)
      let x126 ← DenLit.neg (DenLit.fr 8)
      let x128 ← DenLit.divRep i32 2 x126
      pure (Raw.areIdentical x127 x128)),
    Passes (do
      let x129 ← DenLit.divRep i32 (-2) (DenLit.fr 8)
      let x131 ← Fraction.truncRedenominate i32 .defaults x129 (-4)
      let x130 ← DenLit.neg (DenLit.fr 4)
      let x132 ← DenLit.divRep i32 1 x130
      pure (Raw.areIdentical x131 x132)),
    Passes (do
      let x133 ← DenLit.neg (DenLit.fr 3)
      let x134 ← DenLit.divRep i32 4 x133
      let x136 ← Fraction.truncRedenominate i32 .defaults x134 (-5)
      let x135 ← DenLit.neg (DenLit.fr 5)
      let x137 ← DenLit.divRep i32 6 x135
      pure (Raw.areIdentical x136 x137)),
    Passes (do
      let x138 ← DenLit.neg (DenLit.fr 3)
      let x139 ← DenLit.divRep i32 5 x138
      let x141 ← Fraction.truncRedenominate i32 .defaults x139 (-5)
      let x140 ← DenLit.neg (DenLit.fr 5)
      let x142 ← DenLit.divRep i32 8 x140
      pure (Raw.areIdentical x141 x142)),
    Passes (do
      let x143 ← DenLit.neg (DenLit.fr 5)
      let x144 ← DenLit.divRep i32 2 x143
      let x146 ← Fraction.truncRedenominate i32 .defaults x144 (-3)
      let x145 ← DenLit.neg (DenLit.fr 3)
      let x147 ← DenLit.divRep i32 1 x145
      pure (Raw.areIdentical x146 x147)),
    Passes (do
      let x148 ← DenLit.neg (DenLit.fr 5)
      let x149 ← DenLit.divRep i32 3 x148
      let x151 ← Fraction.truncRedenominate i32 .defaults x149 (-3)
      let x150 ← DenLit.neg (DenLit.fr 3)
      let x152 ← DenLit.divRep i32 1 x150
      pure (Raw.areIdentical x151 x152)),
    Passes (do
      let x153 ← DenLit.neg (DenLit.fr 4)
      let x154 ← DenLit.divRep i32 1 x153
      let x156 ← Fraction.truncRedenominate i32 .defaults x154 (-8)
      let x155 ← DenLit.neg (DenLit.fr 8)
      let x157 ← DenLit.divRep i32 2 x155
      pure (Raw.areIdentical x156 x157)),
    Passes (do
      let x158 ← DenLit.neg (DenLit.fr 8)
      let x159 ← DenLit.divRep i32 2 x158
      let x161 ← Fraction.truncRedenominate i32 .defaults x159 (-4)
      let x160 ← DenLit.neg (DenLit.fr 4)
      let x162 ← DenLit.divRep i32 1 x160
      pure (Raw.areIdentical x161 x162)),
    Passes (do
      let x163 ← DenLit.neg (DenLit.fr 3)
      let x164 ← DenLit.divRep i32 (-4) x163
      let x166 ← Fraction.truncRedenominate i32 .defaults x164 (-5)
      let x165 ← DenLit.neg (DenLit.fr 5)
      let x167 ← DenLit.divRep i32 (-6) x165
      pure (Raw.areIdentical x166 x167)),
    Passes (do
      let x168 ← DenLit.neg (DenLit.fr 3)
      let x169 ← DenLit.divRep i32 (-5) x168
      let x171 ← Fraction.truncRedenominate i32 .defaults x169 (-5)
      let x170 ← DenLit.neg (DenLit.fr 5)
      let x172 ← DenLit.divRep i32 (-8) x170
      pure (Raw.areIdentical x171 x172)),
    Passes (do
      let x173 ← DenLit.neg (DenLit.fr 5)
      let x174 ← DenLit.divRep i32 (-2) x173
      let x176 ← Fraction.truncRedenominate i32 .defaults x174 (-3)
      let x175 ← DenLit.neg (DenLit.fr 3)
      let x177 ← DenLit.divRep i32 (-1) x175
      pure (Raw.areIdentical x176 x177)),
    Passes (do
      let x178 ← DenLit.neg (DenLit.fr 5)
      let x179 ← DenLit.divRep i32 (-3) x178
      let x181 ← Fraction.truncRedenominate i32 .defaults x179 (-3)
      let x180 ← DenLit.neg (DenLit.fr 3)
      let x182 ← DenLit.divRep i32 (-1) x180
      pure (Raw.areIdentical x181 x182)),
    Passes (do
      let x183 ← DenLit.neg (DenLit.fr 4)
      let x184 ← DenLit.divRep i32 (-1) x183
      let x186 ← Fraction.truncRedenominate i32 .defaults x184 (-8)
      let x185 ← DenLit.neg (DenLit.fr 8)
      let x187 ← DenLit.divRep i32 (-2) x185
      pure (Raw.areIdentical x186 x187)),
    Passes (do
      let x188 ← DenLit.neg (DenLit.fr 8)
      let x189 ← DenLit.divRep i32 (-2) x188
      let x191 ← Fraction.truncRedenominate i32 .defaults x189 (-4)
      let x190 ← DenLit.neg (DenLit.fr 4)
      let x192 ← DenLit.divRep i32 (-1) x190
      pure (Raw.areIdentical x191 x192))].all id = true := by
  decide +kernel

/-! A fraction can be redenominated using ceiling (`/repo/src/ieme/fraction_math.test.cpp:193`).
    -/

example : [
    Passes (do
      let x1 ← DenLit.divRep i32 4 (DenLit.fr 3)
      let x2 ← Fraction.ceilRedenominate i32 .defaults x1 5
      let x3 ← DenLit.divRep i32 7 (DenLit.fr 5)
      pure (Raw.areIdentical x2 x3)),
    Passes (do
      let x4 ← DenLit.divRep i32 5 (DenLit.fr 3)
      let x5 ← Fraction.ceilRedenominate i32 .defaults x4 5
      let x6 ← DenLit.divRep i32 9 (DenLit.fr 5)
      pure (Raw.areIdentical x5 x6)),
    Passes (do
      let x7 ← DenLit.divRep i32 2 (DenLit.fr 5)
      let x8 ← Fraction.ceilRedenominate i32 .defaults x7 3
      let x9 ← DenLit.divRep i32 2 (DenLit.fr 3)
      pure (Raw.areIdentical x8 x9)),
    Passes (do
      let x10 ← DenLit.divRep i32 3 (DenLit.fr 5)
      let x11 ← Fraction.ceilRedenominate i32 .defaults x10 3
      let x12 ← DenLit.divRep i32 2 (DenLit.fr 3)
      pure (Raw.areIdentical x11 x12)),
    Passes (do
      let x13 ← DenLit.divRep i32 1 (DenLit.fr 4)
      let x14 ← Fraction.ceilRedenominate i32 .defaults x13 8
      let x15 ← DenLit.divRep i32 2 (DenLit.fr 8)
      pure (Raw.areIdentical x14 x15)),
    Passes (do
      let x16 ← DenLit.divRep i32 2 (DenLit.fr 8)
      let x17 ← Fraction.ceilRedenominate i32 .defaults x16 4
      let x18 ← DenLit.divRep i32 1 (DenLit.fr 4)
      pure (Raw.areIdentical x17 x18)),
    Passes (do
      let x19 ← DenLit.divRep i32 (-4) (DenLit.fr 3)
      let x20 ← Fraction.ceilRedenominate i32 .defaults x19 5
      let x21 ← DenLit.divRep i32 (-6) (DenLit.fr 5)
      pure (Raw.areIdentical x20 x21)),
    Passes (do
      let x22 ← DenLit.divRep i32 (-5) (DenLit.fr 3)
      let x23 ← Fraction.ceilRedenominate i32 .defaults x22 5
      let x24 ← DenLit.divRep i32 (-8) (DenLit.fr 5)
      pure (Raw.areIdentical x23 x24)),
    Passes (do
      let x25 ← DenLit.divRep i32 (-2) (DenLit.fr 5)
      let x26 ← Fraction.ceilRedenominate i32 .defaults x25 3
      let x27 ← DenLit.divRep i32 (-1) (DenLit.fr 3)
      pure (Raw.areIdentical x26 x27)),
    Passes (do
      let x28 ← DenLit.divRep i32 (-3) (DenLit.fr 5)
      let x29 ← Fraction.ceilRedenominate i32 .defaults x28 3
      let x30 ← DenLit.divRep i32 (-1) (DenLit.fr 3)
      pure (Raw.areIdentical x29 x30)),
    Passes (do
      let x31 ← DenLit.divRep i32 (-1) (DenLit.fr 4)
      let x32 ← Fraction.ceilRedenominate i32 .defaults x31 8
      let x33 ← DenLit.divRep i32 (-2) (DenLit.fr 8)
      pure (Raw.areIdentical x32 x33)),
    Passes (do
      let x34 ← DenLit.divRep i32 (-2) (DenLit.fr 8)
      let x35 ← Fraction.ceilRedenominate i32 .defaults x34 4
      let x36 ← DenLit.divRep i32 (-1) (DenLit.fr 4)
      pure (Raw.areIdentical x35 x36)),
    Passes (do
      let x37 ← DenLit.neg (DenLit.fr 3)
      let x38 ← DenLit.divRep i32 4 x37
      let x39 ← Fraction.ceilRedenominate i32 .defaults x38 5
      let x40 ← DenLit.divRep i32 (-6) (DenLit.fr 5)
      pure (Raw.areIdentical x39 x40)),
    Passes (do
      let x41 ← DenLit.neg (DenLit.fr 3)
      let x42 ← DenLit.divRep i32 5 x41
      let x43 ← Fraction.ceilRedenominate i32 .defaults x42 5
      let x44 ← DenLit.divRep i32 (-8) (DenLit.fr 5)
      pure (Raw.areIdentical x43 x44)),
    Passes (do
      let x45 ← DenLit.neg (DenLit.fr 5)
      let x46 ← DenLit.divRep i32 2 x45
      let x47 ← Fraction.ceilRedenominate i32 .defaults x46 3
      let x48 ← DenLit.divRep i32 (-1) (DenLit.fr 3)
      pure (Raw.areIdentical x47 x48)),
    Passes (do
      let x49 ← DenLit.neg (DenLit.fr 5)
      let x50 ← DenLit.divRep i32 3 x49
      let x51 ← Fraction.ceilRedenominate i32 .defaults x50 3
      let x52 ← DenLit.divRep i32 (-1) (DenLit.fr 3)
      pure (Raw.areIdentical x51 x52)),
    Passes (do
      let x53 ← DenLit.neg (DenLit.fr 4)
      let x54 ← DenLit.divRep i32 1 x53
      let x55 ← Fraction.ceilRedenominate i32 .defaults x54 8
      let x56 ← DenLit.divRep i32 (-2) (DenLit.fr 8)
      pure (Raw.areIdentical x55 x56)),
    Passes (do
      let x57 ← DenLit.neg (DenLit.fr 8)
      let x58 ← DenLit.divRep i32 2 x57
      let x59 ← Fraction.ceilRedenominate i32 .defaults x58 4
      let x60 ← DenLit.divRep i32 (-1) (DenLit.fr 4)
      pure (Raw.areIdentical x59 x60)),
    Passes (do
      let x61 ← DenLit.neg (DenLit.fr 3)
      let x62 ← DenLit.divRep i32 (-4) x61
      let x63 ← Fraction.ceilRedenominate i32 .defaults x62 5
      let x64 ← DenLit.divRep i32 7 (DenLit.fr 5)
      pure (Raw.areIdentical x63 x64)),
    Passes (do
      let x65 ← DenLit.neg (DenLit.fr 3)
      let x66 ← DenLit.divRep i32 (-5) x65
      let x67 ← Fraction.ceilRedenominate i32 .defaults x66 5
      let x68 ← DenLit.divRep i32 9 (DenLit.fr 5)
      pure (Raw.areIdentical x67 x68)),
    Passes (do
      let x69 ← DenLit.neg (DenLit.fr 5)
      let x70 ← DenLit.divRep i32 (-2) x69
      let x71 ← Fraction.ceilRedenominate i32 .defaults x70 3
      let x72 ← DenLit.divRep i32 2 (DenLit.fr 3)
      pure (Raw.areIdentical x71 x72)),
    Passes (do
      let x73 ← DenLit.neg (DenLit.fr 5)
      let x74 ← DenLit.divRep i32 (-3) x73
      let x75 ← Fraction.ceilRedenominate i32 .defaults x74 3
      let x76 ← DenLit.divRep i32 2 (DenLit.fr 3)
      pure (Raw.areIdentical x75 x76)),
    Passes (do
      let x77 ← DenLit.neg (DenLit.fr 4)
      let x78 ← DenLit.divRep i32 (-1) x77
      let x79 ← Fraction.ceilRedenominate i32 .defaults x78 8
      let x80 ← DenLit.divRep i32 2 (DenLit.fr 8)
      pure (Raw.areIdentical x79 x80)),
    Passes (do
      let x81 ← DenLit.neg (DenLit.fr 8)
      let x82 ← DenLit.divRep i32 (-2) x81
      let x83 ← Fraction.ceilRedenominate i32 .defaults x82 4
      let x84 ← DenLit.divRep i32 1 (DenLit.fr 4)
      pure (Raw.areIdentical x83 x84)),
    Passes (do
      let x85 ← DenLit.divRep i32 4 (DenLit.fr 3)
      let x87 ← Fraction.ceilRedenominate i32 .defaults x85 (-5)
      let x86 ← DenLit.neg (DenLit.fr 5)
      let x88 ← DenLit.divRep i32 (-7) x86
      pure (Raw.areIdentical x87 x88)),
    Passes (do
      let x89 ← DenLit.divRep i32 5 (DenLit.fr 3)
      let x91 ← Fraction.ceilRedenominate i32 .defaults x89 (-5)
      let x90 ← DenLit.neg (DenLit.fr 5)
      let x92 ← DenLit.divRep i32 (-9) x90
      pure (Raw.areIdentical x91 x92)),
    Passes (do
      let x93 ← DenLit.divRep i32 2 (DenLit.fr 5)
      let x95 ← Fraction.ceilRedenominate i32 .defaults x93 (-3)
      let x94 ← DenLit.neg (DenLit.fr 3)
      let x96 ← DenLit.divRep i32 (-2) x94
      pure (Raw.areIdentical x95 x96)),
    Passes (do
      let x97 ← DenLit.divRep i32 3 (DenLit.fr 5)
      let x99 ← Fraction.ceilRedenominate i32 .defaults x97 (-3)
      let x98 ← DenLit.neg (DenLit.fr 3)
      let x100 ← DenLit.divRep i32 (-2) x98
      pure (Raw.areIdentical x99 x100)),
    Passes (do
      let x101 ← DenLit.divRep i32 1 (DenLit.fr 4)
      let x103 ← Fraction.ceilRedenominate i32 .defaults x101 (-8)
      let x102 ← DenLit.neg (DenLit.fr 8)
      let x104 ← DenLit.divRep i32 (-2) x102
      pure (Raw.areIdentical x103 x104)),
    Passes (do
      let x105 ← DenLit.divRep i32 2 (DenLit.fr 8)
      let x107 ← Fraction.ceilRedenominate i32 .defaults x105 (-4)
      let x106 ← DenLit.neg (DenLit.fr 4)
      let x108 ← DenLit.divRep i32 (-1) x106
      pure (Raw.areIdentical x107 x108)),
    Passes (do
      let x109 ← DenLit.divRep i32 (-4) (DenLit.fr 3)
      let x111 ← Fraction.ceilRedenominate i32 .defaults x109 (-5)
      let x110 ← DenLit.neg (DenLit.fr 5)
      let x112 ← DenLit.divRep i32 6 x110
      pure (Raw.areIdentical x111 x112)),
    Passes (do
      let x113 ← DenLit.divRep i32 (-5) (DenLit.fr 3)
      let x115 ← Fraction.ceilRedenominate i32 .defaults x113 (-5)
      let x114 ← DenLit.neg (DenLit.fr 5)
      let x116 ← DenLit.divRep i32 8 x114
      pure (Raw.areIdentical x115 x116)),
    Passes (do
      let x117 ← DenLit.divRep i32 (-2) (DenLit.fr 5)
      let x119 ← Fraction.ceilRedenominate i32 .defaults x117 (-3)
      let x118 ← DenLit.neg (DenLit.fr 3)
      let x120 ← DenLit.divRep i32 1 x118
      pure (Raw.areIdentical x119 x120)),
    Passes (do
      let x121 ← DenLit.divRep i32 (-3) (DenLit.fr 5)
      let x123 ← Fraction.ceilRedenominate i32 .defaults x121 (-3)
      let x122 ← DenLit.neg (DenLit.fr 3)
      let x124 ← DenLit.divRep i32 1 x122
      pure (Raw.areIdentical x123 x124)),
    Passes (do
      let x125 ← DenLit.divRep i32 (-1) (DenLit.fr 4)
      let x127 ← Fraction.ceilRedenominate i32 .defaults x125 (-8)
      let x126 ← DenLit.neg (DenLit.fr 8)
      let x128 ← DenLit.divRep i32 2 x126
      pure (Raw.areIdentical x127 x128)),
    Passes (do
      let x129 ← DenLit.divRep i32 (-2) (DenLit.fr 8)
      let x131 ← Fraction.ceilRedenominate i32 .defaults x129 (-4)
      let x130 ← DenLit.neg (DenLit.fr 4)
      let x132 ← DenLit.divRep i32 1 x130
      pure (Raw.areIdentical x131 x132)),
    Passes (do
      let x133 ← DenLit.neg (DenLit.fr 3)
      let x134 ← DenLit.divRep i32 4 x133
      let x136 ← Fraction.ceilRedenominate i32 .defaults x134 (-5)
      let x135 ← DenLit.neg (DenLit.fr 5)
      let x137 ← DenLit.divRep i32 6 x135
      pure (Raw.areIdentical x136 x137)),
    Passes (do
      let x138 ← DenLit.neg (DenLit.fr 3)
      let x139 ← DenLit.divRep i32 5 x138
      let x141 ← Fraction.ceilRedenominate i32 .defaults x139 (-5)
      let x140 ← DenLit.neg (DenLit.fr 5)
      let x142 ← DenLit.divRep i32 8 x140
      pure (Raw.areIdentical x141 x142)),
    Passes (do
      let x143 ← DenLit.neg (DenLit.fr 5)
      let x144 ← DenLit.divRep i32 2 x143
      let x146 ← Fraction.ceilRedenominate i32 .defaults x144 (-3)
      let x145 ← DenLit.neg (DenLit.fr 3)
      let x147 ← DenLit.divRep i32 1 x145
      pure (Raw.areIdentical x146 x147)),
    Passes (do
      let x148 ← DenLit.neg (DenLit.fr 5)
      let x149 ← DenLit.divRep i32 3 x148
      let x151 ← Fraction.ceilRedenominate i32 .defaults x149 (-3)
      let x150 ← DenLit.neg (DenLit.fr 3)
      let x152 ← DenLit.divRep i32 1 x150
      pure (Raw.areIdentical x151 x152)),
    Passes (do
      let x153 ← DenLit.neg (DenLit.fr 4)
      let x154 ← DenLit.divRep i32 1 x153
      let x156 ← Fraction.ceilRedenominate i32 .defaults x154 (-8)
      let x155 ← DenLit.neg (DenLit.fr 8)
      let x157 ← DenLit.divRep i32 2 x155
      pure (Raw.areIdentical x156 x157)),
    Passes (do
      let x158 ← DenLit.neg (DenLit.fr 8)
      let x159 ← DenLit.divRep i32 2 x158
      let x161 ← Fraction.ceilRedenominate i32 .defaults x159 (-4)
      let x160 ← DenLit.neg (DenLit.fr 4)
      let x162 ← DenLit.divRep i32 1 x160
      pure (Raw.areIdentical x161 x162)),
    Passes (do
      let x163 ← DenLit.neg (DenLit.fr 3)
      let x164 ← DenLit.divRep i32 (-4) x163
      let x166 ← Fraction.ceilRedenominate i32 .defaults x164 (-5)
      let x165 ← DenLit.neg (DenLit.fr 5)
      let x167 ← DenLit.divRep i32 (-7) x165
      pure (Raw.areIdentical x166 x167)),
    Passes (do
      let x168 ← DenLit.neg (DenLit.fr 3)
      let x169 ← DenLit.divRep i32 (-5) x168
      let x171 ← Fraction.ceilRedenominate i32 .defaults x169 (-5)
      let x170 ← DenLit.neg (DenLit.fr 5)
      let x172 ← DenLit.divRep i32 (-9) x170
      pure (Raw.areIdentical x171 x172)),
    Passes (do
      let x173 ← DenLit.neg (DenLit.fr 5)
      let x174 ← DenLit.divRep i32 (-2) x173
      let x176 ← Fraction.ceilRedenominate i32 .defaults x174 (-3)
      let x175 ← DenLit.neg (DenLit.fr 3)
      let x177 ← DenLit.divRep i32 (-2) x175
      pure (Raw.areIdentical x176 x177)),
    Passes (do
      let x178 ← DenLit.neg (DenLit.fr 5)
      let x179 ← DenLit.divRep i32 (-3) x178
      let x181 ← Fraction.ceilRedenominate i32 .defaults x179 (-3)
      let x180 ← DenLit.neg (DenLit.fr 3)
      let x182 ← DenLit.divRep i32 (-2) x180
      pure (Raw.areIdentical x181 x182)),
    Passes (do
      let x183 ← DenLit.neg (DenLit.fr 4)
      let x184 ← DenLit.divRep i32 (-1) x183
      let x186 ← Fraction.ceilRedenominate i32 .defaults x184 (-8)
      let x185 ← DenLit.neg (DenLit.fr 8)
      let x187 ← DenLit.divRep i32 (-2) x185
      pure (Raw.areIdentical x186 x187)),
    Passes (do
      let x188 ← DenLit.neg (DenLit.fr 8)
      let x189 ← DenLit.divRep i32 (-2) x188
      let x191 ← Fraction.ceilRedenominate i32 .defaults x189 (-4)
      let x190 ← DenLit.neg (DenLit.fr 4)
      let x192 ← DenLit.divRep i32 (-1) x190
      pure (Raw.areIdentical x191 x192))].all id = true := by
  decide +kernel

/-! A fraction can be redenominated using floor (`/repo/src/ieme/fraction_math.test.cpp:252`). -/

example : [
    Passes (do
      let x1 ← DenLit.divRep i32 4 (DenLit.fr 3)
      let x2 ← Fraction.floorRedenominate i32 .defaults x1 5
      let x3 ← DenLit.divRep i32 6 (DenLit.fr 5)
      pure (Raw.areIdentical x2 x3)),
    Passes (do
      let x4 ← DenLit.divRep i32 5 (DenLit.fr 3)
      let x5 ← Fraction.floorRedenominate i32 .defaults x4 5
      let x6 ← DenLit.divRep i32 8 (DenLit.fr 5)
      pure (Raw.areIdentical x5 x6)),
    Passes (do
      let x7 ← DenLit.divRep i32 2 (DenLit.fr 5)
      let x8 ← Fraction.floorRedenominate i32 .defaults x7 3
      let x9 ← DenLit.divRep i32 1 (DenLit.fr 3)
      pure (Raw.areIdentical x8 x9)),
    Passes (do
      let x10 ← DenLit.divRep i32 3 (DenLit.fr 5)
      let x11 ← Fraction.floorRedenominate i32 .defaults x10 3
      let x12 ← DenLit.divRep i32 1 (DenLit.fr 3)
      pure (Raw.areIdentical x11 x12)),
    Passes (do
      let x13 ← DenLit.divRep i32 1 (DenLit.fr 4)
      let x14 ← Fraction.floorRedenominate i32 .defaults x13 8
      let x15 ← DenLit.divRep i32 2 (DenLit.fr 8)
      pure (Raw.areIdentical x14 x15)),
    Passes (do
      let x16 ← DenLit.divRep i32 2 (DenLit.fr 8)
      let x17 ← Fraction.floorRedenominate i32 .defaults x16 4
      let x18 ← DenLit.divRep i32 1 (DenLit.fr 4)
      pure (Raw.areIdentical x17 x18)),
    Passes (do
      let x19 ← DenLit.divRep i32 (-4) (DenLit.fr 3)
      let x20 ← Fraction.floorRedenominate i32 .defaults x19 5
      let x21 ← DenLit.divRep i32 (-7) (DenLit.fr 5)
      pure (Raw.areIdentical x20 x21)),
    Passes (do
      let x22 ← DenLit.divRep i32 (-5) (DenLit.fr 3)
      let x23 ← Fraction.floorRedenominate i32 .defaults x22 5
      let x24 ← DenLit.divRep i32 (-9) (DenLit.fr 5)
      pure (Raw.areIdentical x23 x24)),
    Passes (do
      let x25 ← DenLit.divRep i32 (-2) (DenLit.fr 5)
      let x26 ← Fraction.floorRedenominate i32 .defaults x25 3
      let x27 ← DenLit.divRep i32 (-2) (DenLit.fr 3)
      pure (Raw.areIdentical x26 x27)),
    Passes (do
      let x28 ← DenLit.divRep i32 (-3) (DenLit.fr 5)
      let x29 ← Fraction.floorRedenominate i32 .defaults x28 3
      let x30 ← DenLit.divRep i32 (-2) (DenLit.fr 3)
      pure (Raw.areIdentical x29 x30)),
    Passes (do
      let x31 ← DenLit.divRep i32 (-1) (DenLit.fr 4)
      let x32 ← Fraction.floorRedenominate i32 .defaults x31 8
      let x33 ← DenLit.divRep i32 (-2) (DenLit.fr 8)
      pure (Raw.areIdentical x32 x33)),
    Passes (do
      let x34 ← DenLit.divRep i32 (-2) (DenLit.fr 8)
      let x35 ← Fraction.floorRedenominate i32 .defaults x34 4
      let x36 ← DenLit.divRep i32 (-1) (DenLit.fr 4)
      pure (Raw.areIdentical x35 x36)),
    Passes (do
      let x37 ← DenLit.neg (DenLit.fr 3)
      let x38 ← DenLit.divRep i32 4 x37
      let x39 ← Fraction.floorRedenominate i32 .defaults x38 5
      let x40 ← DenLit.divRep i32 (-7) (DenLit.fr 5)
      pure (Raw.areIdentical x39 x40)),
    Passes (do
      let x41 ← DenLit.neg (DenLit.fr 3)
      let x42 ← DenLit.divRep i32 5 x41
      let x43 ← Fraction.floorRedenominate i32 .defaults x42 5
      let x44 ← DenLit.divRep i32 (-9) (DenLit.fr 5)
      pure (Raw.areIdentical x43 x44)),
    Passes (do
      let x45 ← DenLit.neg (DenLit.fr 5)
      let x46 ← DenLit.divRep i32 2 x45
      let x47 ← Fraction.floorRedenominate i32 .defaults x46 3
      let x48 ← DenLit.divRep i32 (-2) (DenLit.fr 3)
      pure (Raw.areIdentical x47 x48)),
    Passes (do
      let x49 ← DenLit.neg (DenLit.fr 5)
      let x50 ← DenLit.divRep i32 3 x49
      let x51 ← Fraction.floorRedenominate i32 .defaults x50 3
      let x52 ← DenLit.divRep i32 (-2) (DenLit.fr 3)
      pure (Raw.areIdentical x51 x52)),
    Passes (do
      let x53 ← DenLit.neg (DenLit.fr 4)
      let x54 ← DenLit.divRep i32 1 x53
      let x55 ← Fraction.floorRedenominate i32 .defaults x54 8
      let x56 ← DenLit.divRep i32 (-2) (DenLit.fr 8)
      pure (Raw.areIdentical x55 x56)),
    Passes (do
      let x57 ← DenLit.neg (DenLit.fr 8)
      let x58 ← DenLit.divRep i32 2 x57
      let x59 ← Fraction.floorRedenominate i32 .defaults x58 4
      let x60 ← DenLit.divRep i32 (-1) (DenLit.fr 4)
      pure (Raw.areIdentical x59 x60)),
    Passes (do
      let x61 ← DenLit.neg (DenLit.fr 3)
      let x62 ← DenLit.divRep i32 (-4) x61
      let x63 ← Fraction.floorRedenominate i32 .defaults x62 5
      let x64 ← DenLit.divRep i32 6 (DenLit.fr 5)
      pure (Raw.areIdentical x63 x64)),
    Passes (do
      let x65 ← DenLit.neg (DenLit.fr 3)
      let x66 ← DenLit.divRep i32 (-5) x65
      let x67 ← Fraction.floorRedenominate i32 .defaults x66 5
      let x68 ← DenLit.divRep i32 8 (DenLit.fr 5)
      pure (Raw.areIdentical x67 x68)),
    Passes (do
      let x69 ← DenLit.neg (DenLit.fr 5)
      let x70 ← DenLit.divRep i32 (-2) x69
      let x71 ← Fraction.floorRedenominate i32 .defaults x70 3
      let x72 ← DenLit.divRep i32 1 (DenLit.fr 3)
      pure (Raw.areIdentical x71 x72)),
    Passes (do
      let x73 ← DenLit.neg (DenLit.fr 5)
      let x74 ← DenLit.divRep i32 (-3) x73
      let x75 ← Fraction.floorRedenominate i32 .defaults x74 3
      let x76 ← DenLit.divRep i32 1 (DenLit.fr 3)
      pure (Raw.areIdentical x75 x76)),
    Passes (do
      let x77 ← DenLit.neg (DenLit.fr 4)
      let x78 ← DenLit.divRep i32 (-1) x77
      let x79 ← Fraction.floorRedenominate i32 .defaults x78 8
      let x80 ← DenLit.divRep i32 2 (DenLit.fr 8)
      pure (Raw.areIdentical x79 x80)),
    Passes (do
      let x81 ← DenLit.neg (DenLit.fr 8)
      let x82 ← DenLit.divRep i32 (-2) x81
      let x83 ← Fraction.floorRedenominate i32 .defaults x82 4
      let x84 ← DenLit.divRep i32 1 (DenLit.fr 4)
      pure (Raw.areIdentical x83 x84)),
    Passes (do
      let x85 ← DenLit.divRep i32 4 (DenLit.fr 3)
      let x87 ← Fraction.floorRedenominate i32 .defaults x85 (-5)
      let x86 ← DenLit.neg (DenLit.fr 5)
      let x88 ← DenLit.divRep i32 (-6) x86
      pure (Raw.areIdentical x87 x88)),
    Passes (do
      let x89 ← DenLit.divRep i32 5 (DenLit.fr 3)
      let x91 ← Fraction.floorRedenominate i32 .defaults x89 (-5)
      let x90 ← DenLit.neg (DenLit.fr 5)
      let x92 ← DenLit.divRep i32 (-8) x90
      pure (Raw.areIdentical x91 x92)),
    Passes (do
      let x93 ← DenLit.divRep i32 2 (DenLit.fr 5)
      let x95 ← Fraction.floorRedenominate i32 .defaults x93 (-3)
      let x94 ← DenLit.neg (DenLit.fr 3)
      let x96 ← DenLit.divRep i32 (-1) x94
      pure (Raw.areIdentical x95 x96)),
    Passes (do
      let x97 ← DenLit.divRep i32 3 (DenLit.fr 5)
      let x99 ← Fraction.floorRedenominate i32 .defaults x97 (-3)
      let x98 ← DenLit.neg (DenLit.fr 3)
      let x100 ← DenLit.divRep i32 (-1) x98
      pure (Raw.areIdentical x99 x100)),
    Passes (do
      let x101 ← DenLit.divRep i32 1 (DenLit.fr 4)
      let x103 ← Fraction.floorRedenominate i32 .defaults x101 (-8)
      let x102 ← DenLit.neg (DenLit.fr 8)
      let x104 ← DenLit.divRep i32 (-2) x102
      pure (Raw.areIdentical x103 x104)),
    Passes (do
      let x105 ← DenLit.divRep i32 2 (DenLit.fr 8)
      let x107 ← Fraction.floorRedenominate i32 .defaults x105 (-4)
      let x106 ← DenLit.neg (DenLit.fr 4)
      let x108 ← DenLit.divRep i32 (-1) x106
      pure (Raw.areIdentical x107 x108)),
    Passes (do
      let x109 ← DenLit.divRep i32 (-4) (DenLit.fr 3)
      let x111 ← Fraction.floorRedenominate i32 .defaults x109 (-5)
      let x110 ← DenLit.neg (DenLit.fr 5)
      let x112 ← DenLit.divRep i32 7 x110
      pure (Raw.areIdentical x111 x112)),
    Passes (do
      let x113 ← DenLit.divRep i32 (-5) (DenLit.fr 3)
      let x115 ← Fraction.floorRedenominate i32 .defaults x113 (-5)
      let x114 ← DenLit.neg (DenLit.fr 5)
      let x116 ← DenLit.divRep i32 9 x114
      pure (Raw.areIdentical x115 x116)),
    Passes (do
      let x117 ← DenLit.divRep i32 (-2) (DenLit.fr 5)
      let x119 ← Fraction.floorRedenominate i32 .defaults x117 (-3)
      let x118 ← DenLit.neg (DenLit.fr 3)
      let x120 ← DenLit.divRep i32 2 x118
      pure (Raw.areIdentical x119 x120)),
    Passes (do
      let x121 ← DenLit.divRep i32 (-3) (DenLit.fr 5)
      let x123 ← Fraction.floorRedenominate i32 .defaults x121 (-3)
      let x122 ← DenLit.neg (DenLit.fr 3)
      let x124 ← DenLit.divRep i32 2 x122
      pure (Raw.areIdentical x123 x124)),
    Passes (do
      let x125 ← DenLit.divRep i32 (-1) (DenLit.fr 4)
      let x127 ← Fraction.floorRedenominate i32 .defaults x125 (-8)
      let x126 ← DenLit.neg (DenLit.fr 8)
      let x128 ← DenLit.divRep i32 2 x126
      pure (Raw.areIdentical x127 x128)),
    Passes (do
      let x129 ← DenLit.divRep i32 (-2) (DenLit.fr 8)
      let x131 ← Fraction.floorRedenominate i32 .defaults x129 (-4)
      let x130 ← DenLit.neg (DenLit.fr 4)
      let x132 ← DenLit.divRep i32 1 x130
      pure (Raw.areIdentical x131 x132)),
    Passes (do
      let x133 ← DenLit.neg (DenLit.fr 3)
      let x134 ← DenLit.divRep i32 4 x133
      let x136 ← Fraction.floorRedenominate i32 .defaults x134 (-5)
      let x135 ← DenLit.neg (DenLit.fr 5)
      let x137 ← DenLit.divRep i32 7 x135
      pure (Raw.areIdentical x136 x137)),
    Passes (do
      let x138 ← DenLit.neg (DenLit.fr 3)
      let x139 ← DenLit.divRep i32 5 x138
      let x141 ← Fraction.floorRedenominate i32 .defaults x139 (-5)
      let x140 ← DenLit.neg (DenLit.fr 5)
      let x142 ← DenLit.divRep i32 9 x140
      pure (Raw.areIdentical x141 x142)),
    Passes (do
      let x143 ← DenLit.neg (DenLit.fr 5)
      let x144 ← DenLit.divRep i32 2 x143
      let x146 ← Fraction.floorRedenominate i32 .defaults x144 (-3)
      let x145 ← DenLit.neg (DenLit.fr 3)
      let x147 ← DenLit.divRep i32 2 x145
      pure (Raw.areIdentical x146 x147)),
    Passes (do
      let x148 ← DenLit.neg (DenLit.fr 5)
      let x149 ← DenLit.divRep i32 3 x148
      let x151 ← Fraction.floorRedenominate i32 .defaults x149 (-3)
      let x150 ← DenLit.neg (DenLit.fr 3)
      let x152 ← DenLit.divRep i32 2 x150
      pure (Raw.areIdentical x151 x152)),
    Passes (do
      let x153 ← DenLit.neg (DenLit.fr 4)
      let x154 ← DenLit.divRep i32 1 x153
      let x156 ← Fraction.floorRedenominate i32 .defaults x154 (-8)
      let x155 ← DenLit.neg (DenLit.fr 8)
      let x157 ← DenLit.divRep i32 2 x155
      pure (Raw.areIdentical x156 x157)),
    Passes (do
      let x158 ← DenLit.neg (DenLit.fr 8)
      let x159 ← DenLit.divRep i32 2 x158
      let x161 ← Fraction.floorRedenominate i32 .defaults x159 (-4)
      let x160 ← DenLit.neg (DenLit.fr 4)
      let x162 ← DenLit.divRep i32 1 x160
      pure (Raw.areIdentical x161 x162)),
    Passes (do
      let x163 ← DenLit.neg (DenLit.fr 3)
      let x164 ← DenLit.divRep i32 (-4) x163
      let x166 ← Fraction.floorRedenominate i32 .defaults x164 (-5)
      let x165 ← DenLit.neg (DenLit.fr 5)
      let x167 ← DenLit.divRep i32 (-6) x165
      pure (Raw.areIdentical x166 x167)),
    Passes (do
      let x168 ← DenLit.neg (DenLit.fr 3)
      let x169 ← DenLit.divRep i32 (-5) x168
      let x171 ← Fraction.floorRedenominate i32 .defaults x169 (-5)
      let x170 ← DenLit.neg (DenLit.fr 5)
      let x172 ← DenLit.divRep i32 (-8) x170
      pure (Raw.areIdentical x171 x172)),
    Passes (do
      let x173 ← DenLit.neg (DenLit.fr 5)
      let x174 ← DenLit.divRep i32 (-2) x173
      let x176 ← Fraction.floorRedenominate i32 .defaults x174 (-3)
      let x175 ← DenLit.neg (DenLit.fr 3)
      let x177 ← DenLit.divRep i32 (-1) x175
      pure (Raw.areIdentical x176 x177)),
    Passes (do
      let x178 ← DenLit.neg (DenLit.fr 5)
      let x179 ← DenLit.divRep i32 (-3) x178
      let x181 ← Fraction.floorRedenominate i32 .defaults x179 (-3)
      let x180 ← DenLit.neg (DenLit.fr 3)
      let x182 ← DenLit.divRep i32 (-1) x180
      pure (Raw.areIdentical x181 x182)),
    Passes (do
      let x183 ← DenLit.neg (DenLit.fr 4)
      let x184 ← DenLit.divRep i32 (-1) x183
      let x186 ← Fraction.floorRedenominate i32 .defaults x184 (-8)
      let x185 ← DenLit.neg (DenLit.fr 8)
      let x187 ← DenLit.divRep i32 (-2) x185
      pure (Raw.areIdentical x186 x187)),
    Passes (do
      let x188 ← DenLit.neg (DenLit.fr 8)
      let x189 ← DenLit.divRep i32 (-2) x188
      let x191 ← Fraction.floorRedenominate i32 .defaults x189 (-4)
      let x190 ← DenLit.neg (DenLit.fr 4)
      let x192 ← DenLit.divRep i32 (-1) x190
      pure (Raw.areIdentical x191 x192))].all id = true := by
  decide +kernel

/-! A fraction can be redenominated using round (`/repo/src/ieme/fraction_math.test.cpp:311`). -/

example : [
    Passes (do
      let x1 ← DenLit.divRep i32 4 (DenLit.fr 3)
      let x2 ← Fraction.roundRedenominate i32 .defaults x1 5
      let x3 ← DenLit.divRep i32 7 (DenLit.fr 5)
      pure (Raw.areIdentical x2 x3)),
    Passes (do
      let x4 ← DenLit.divRep i32 5 (DenLit.fr 3)
      let x5 ← Fraction.roundRedenominate i32 .defaults x4 5
      let x6 ← DenLit.divRep i32 8 (DenLit.fr 5)
      pure (Raw.areIdentical x5 x6)),
    Passes (do
      let x7 ← DenLit.divRep i32 2 (DenLit.fr 5)
      let x8 ← Fraction.roundRedenominate i32 .defaults x7 3
      let x9 ← DenLit.divRep i32 1 (DenLit.fr 3)
      pure (Raw.areIdentical x8 x9)),
    Passes (do
      let x10 ← DenLit.divRep i32 3 (DenLit.fr 5)
      let x11 ← Fraction.roundRedenominate i32 .defaults x10 3
      let x12 ← DenLit.divRep i32 2 (DenLit.fr 3)
      pure (Raw.areIdentical x11 x12)),
    Passes (do
      let x13 ← DenLit.divRep i32 1 (DenLit.fr 4)
      let x14 ← Fraction.roundRedenominate i32 .defaults x13 8
      let x15 ← DenLit.divRep i32 2 (DenLit.fr 8)
      pure (Raw.areIdentical x14 x15)),
    Passes (do
      let x16 ← DenLit.divRep i32 2 (DenLit.fr 8)
      let x17 ← Fraction.roundRedenominate i32 .defaults x16 4
      let x18 ← DenLit.divRep i32 1 (DenLit.fr 4)
      pure (Raw.areIdentical x17 x18)),
    Passes (do
      let x19 ← DenLit.divRep i32 (-4) (DenLit.fr 3)
      let x20 ← Fraction.roundRedenominate i32 .defaults x19 5
      let x21 ← DenLit.divRep i32 (-7) (DenLit.fr 5)
      pure (Raw.areIdentical x20 x21)),
    Passes (do
      let x22 ← DenLit.divRep i32 (-5) (DenLit.fr 3)
      let x23 ← Fraction.roundRedenominate i32 .defaults x22 5
      let x24 ← DenLit.divRep i32 (-8) (DenLit.fr 5)
      pure (Raw.areIdentical x23 x24)),
    Passes (do
      let x25 ← DenLit.divRep i32 (-2) (DenLit.fr 5)
      let x26 ← Fraction.roundRedenominate i32 .defaults x25 3
      let x27 ← DenLit.divRep i32 (-1) (DenLit.fr 3)
      pure (Raw.areIdentical x26 x27)),
    Passes (do
      let x28 ← DenLit.divRep i32 (-3) (DenLit.fr 5)
      let x29 ← Fraction.roundRedenominate i32 .defaults x28 3
      let x30 ← DenLit.divRep i32 (-2) (DenLit.fr 3)
      pure (Raw.areIdentical x29 x30)),
    Passes (do
      let x31 ← DenLit.divRep i32 (-1) (DenLit.fr 4)
      let x32 ← Fraction.roundRedenominate i32 .defaults x31 8
      let x33 ← DenLit.divRep i32 (-2) (DenLit.fr 8)
      pure (Raw.areIdentical x32 x33)),
    Passes (do
      let x34 ← DenLit.divRep i32 (-2) (DenLit.fr 8)
      let x35 ← Fraction.roundRedenominate i32 .defaults x34 4
      let x36 ← DenLit.divRep i32 (-1) (DenLit.fr 4)
      pure (Raw.areIdentical x35 x36)),
    Passes (do
      let x37 ← DenLit.neg (DenLit.fr 3)
      let x38 ← DenLit.divRep i32 4 x37
      let x39 ← Fraction.roundRedenominate i32 .defaults x38 5
      let x40 ← DenLit.divRep i32 (-7) (DenLit.fr 5)
      pure (Raw.areIdentical x39 x40)),
    Passes (do
      let x41 ← DenLit.neg (DenLit.fr 3)
      let x42 ← DenLit.divRep i32 5 x41
      let x43 ← Fraction.roundRedenominate i32 .defaults x42 5
      let x44 ← DenLit.divRep i32 (-8) (DenLit.fr 5)
      pure (Raw.areIdentical x43 x44)),
    Passes (do
      let x45 ← DenLit.neg (DenLit.fr 5)
      let x46 ← DenLit.divRep i32 2 x45
      let x47 ← Fraction.roundRedenominate i32 .defaults x46 3
      let x48 ← DenLit.divRep i32 (-1) (DenLit.fr 3)
      pure (Raw.areIdentical x47 x48)),
    Passes (do
      let x49 ← DenLit.neg (DenLit.fr 5)
      let x50 ← DenLit.divRep i32 3 x49
      let x51 ← Fraction.roundRedenominate i32 .defaults x50 3
      let x52 ← DenLit.divRep i32 (-2) (DenLit.fr 3)
      pure (Raw.areIdentical x51 x52)),
    Passes (do
      let x53 ← DenLit.neg (DenLit.fr 4)
      let x54 ← DenLit.divRep i32 1 x53
      let x55 ← Fraction.roundRedenominate i32 .defaults x54 8
      let x56 ← DenLit.divRep i32 (-2) (DenLit.fr 8)
      pure (Raw.areIdentical x55 x56)),
    Passes (do
      let x57 ← DenLit.neg (DenLit.fr 8)
      let x58 ← DenLit.divRep i32 2 x57
      let x59 ← Fraction.roundRedenominate i32 .defaults x58 4
      let x60 ← DenLit.divRep i32 (-1) (DenLit.fr 4)
      pure (Raw.areIdentical x59 x60)),
    Passes (do
      let x61 ← DenLit.neg (DenLit.fr 3)
      let x62 ← DenLit.divRep i32 (-4) x61
      let x63 ← Fraction.roundRedenominate i32 .defaults x62 5
      let x64 ← DenLit.divRep i32 7 (DenLit.fr 5)
      pure (Raw.areIdentical x63 x64)),
    Passes (do
      let x65 ← DenLit.neg (DenLit.fr 3)
      let x66 ← DenLit.divRep i32 (-5) x65
      let x67 ← Fraction.roundRedenominate i32 .defaults x66 5
      let x68 ← DenLit.divRep i32 8 (DenLit.fr 5)
      pure (Raw.areIdentical x67 x68)),
    Passes (do
      let x69 ← DenLit.neg (DenLit.fr 5)
      let x70 ← DenLit.divRep i32 (-2) x69
      let x71 ← Fraction.roundRedenominate i32 .defaults x70 3
      let x72 ← DenLit.divRep i32 1 (DenLit.fr 3)
      pure (Raw.areIdentical x71 x72)),
    Passes (do
      let x73 ← DenLit.neg (DenLit.fr 5)
      let x74 ← DenLit.divRep i32 (-3) x73
      let x75 ← Fraction.roundRedenominate i32 .defaults x74 3
      let x76 ← DenLit.divRep i32 2 (DenLit.fr 3)
      pure (Raw.areIdentical x75 x76)),
    Passes (do
      let x77 ← DenLit.neg (DenLit.fr 4)
      let x78 ← DenLit.divRep i32 (-1) x77
      let x79 ← Fraction.roundRedenominate i32 .defaults x78 8
      let x80 ← DenLit.divRep i32 2 (DenLit.fr 8)
      pure (Raw.areIdentical x79 x80)),
    Passes (do
      let x81 ← DenLit.neg (DenLit.fr 8)
      let x82 ← DenLit.divRep i32 (-2) x81
      let x83 ← Fraction.roundRedenominate i32 .defaults x82 4
      let x84 ← DenLit.divRep i32 1 (DenLit.fr 4)
      pure (Raw.areIdentical x83 x84)),
    Passes (do
      let x85 ← DenLit.divRep i32 4 (DenLit.fr 3)
      let x87 ← Fraction.roundRedenominate i32 .defaults x85 (-5)
      let x86 ← DenLit.neg (DenLit.fr 5)
      let x88 ← DenLit.divRep i32 (-7) x86
      pure (Raw.areIdentical x87 x88)),
    Passes (do
      let x89 ← DenLit.divRep i32 5 (DenLit.fr 3)
      let x91 ← Fraction.roundRedenominate i32 .defaults x89 (-5)
      let x90 ← DenLit.neg (DenLit.fr 5)
      let x92 ← DenLit.divRep i32 (-8) x90
      pure (Raw.areIdentical x91 x92)),
    Passes (do
      let x93 ← DenLit.divRep i32 2 (DenLit.fr 5)
      let x95 ← Fraction.roundRedenominate i32 .defaults x93 (-3)
      let x94 ← DenLit.neg (DenLit.fr 3)
      let x96 ← DenLit.divRep i32 (-1) x94
      pure (Raw.areIdentical x95 x96)),
    Passes (do
      let x97 ← DenLit.divRep i32 3 (DenLit.fr 5)
      let x99 ← Fraction.roundRedenominate i32 .defaults x97 (-3)
      let x98 ← DenLit.neg (DenLit.fr 3)
      let x100 ← DenLit.divRep i32 (-2) x98
      pure (Raw.areIdentical x99 x100)),
    Passes (do
      let x101 ← DenLit.divRep i32 1 (DenLit.fr 4)
      let x103 ← Fraction.roundRedenominate i32 .defaults x101 (-8)
      let x102 ← DenLit.neg (DenLit.fr 8)
      let x104 ← DenLit.divRep i32 (-2) x102
      pure (Raw.areIdentical x103 x104)),
    Passes (do
      let x105 ← DenLit.divRep i32 2 (DenLit.fr 8)
      let x107 ← Fraction.roundRedenominate i32 .defaults x105 (-4)
      let x106 ← DenLit.neg (DenLit.fr 4)
      let x108 ← DenLit.divRep i32 (-1) x106
      pure (Raw.areIdentical x107 x108)),
    Passes (do
      let x109 ← DenLit.divRep i32 (-4) (DenLit.fr 3)
      let x111 ← Fraction.roundRedenominate i32 .defaults x109 (-5)
      let x110 ← DenLit.neg (DenLit.fr 5)
      let x112 ← DenLit.divRep i32 7 x110
      pure (Raw.areIdentical x111 x112)),
    Passes (do
      let x113 ← DenLit.divRep i32 (-5) (DenLit.fr 3)
      let x115 ← Fraction.roundRedenominate i32 .defaults x113 (-5)
      let x114 ← DenLit.neg (DenLit.fr 5)
      let x116 ← DenLit.divRep i32 8 x114
      pure (Raw.areIdentical x115 x116)),
    Passes (do
      let x117 ← DenLit.divRep i32 (-2) (DenLit.fr 5)
      let x119 ← Fraction.roundRedenominate i32 .defaults x117 (-3)
      let x118 ← DenLit.neg (DenLit.fr 3)
      let x120 ← DenLit.divRep i32 1 x118
      pure (Raw.areIdentical x119 x120)),
    Passes (do
      let x121 ← DenLit.divRep i32 (-3) (DenLit.fr 5)
      let x123 ← Fraction.roundRedenominate i32 .defaults x121 (-3)
      let x122 ← DenLit.neg (DenLit.fr 3)
      let x124 ← DenLit.divRep i32 2 x122
      pure (Raw.areIdentical x123 x124)),
    Passes (do
      let x125 ← DenLit.divRep i32 (-1) (DenLit.fr 4)
      let x127 ← Fraction.roundRedenominate i32 .defaults x125 (-8)
      let x126 ← DenLit.neg (DenLit.fr 8)
      let x128 ← DenLit.divRep i32 2 x126
      pure (Raw.areIdentical x127 x128)),
    Passes (do
      let x129 ← DenLit.divRep i32 (-2) (DenLit.fr 8)
      let x131 ← Fraction.roundRedenominate i32 .defaults x129 (-4)
      let x130 ← DenLit.neg (DenLit.fr 4)
      let x132 ← DenLit.divRep i32 1 x130
      pure (Raw.areIdentical x131 x132)),
    Passes (do
      let x133 ← DenLit.neg (DenLit.fr 3)
      let x134 ← DenLit.divRep i32 4 x133
      let x136 ← Fraction.roundRedenominate i32 .defaults x134 (-5)
      let x135 ← DenLit.neg (DenLit.fr 5)
      let x137 ← DenLit.divRep i32 7 x135
      pure (Raw.areIdentical x136 x137)),
    Passes (do
      let x138 ← DenLit.neg (DenLit.fr 3)
      let x139 ← DenLit.divRep i32 5 x138
      let x141 ← Fraction.roundRedenominate i32 .defaults x139 (-5)
      let x140 ← DenLit.neg (DenLit.fr 5)
      let x142 ← DenLit.divRep i32 8 x140
      pure (Raw.areIdentical x141 x142)),
    Passes (do
      let x143 ← DenLit.neg (DenLit.fr 5)
      let x144 ← DenLit.divRep i32 2 x143
      let x146 ← Fraction.roundRedenominate i32 .defaults x144 (-3)
      let x145 ← DenLit.neg (DenLit.fr 3)
      let x147 ← DenLit.divRep i32 1 x145
      pure (Raw.areIdentical x146 x147)),
    Passes (do
      let x148 ← DenLit.neg (DenLit.fr 5)
      let x149 ← DenLit.divRep i32 3 x148
      let x151 ← Fraction.roundRedenominate i32 .defaults x149 (-3)
      let x150 ← DenLit.neg (DenLit.fr 3)
      let x152 ← DenLit.divRep i32 2 x150
      pure (Raw.areIdentical x151 x152)),
    Passes (do
      let x153 ← DenLit.neg (DenLit.fr 4)
      let x154 ← DenLit.divRep i32 1 x153
      let x156 ← Fraction.roundRedenominate i32 .defaults x154 (-8)
      let x155 ← DenLit.neg (DenLit.fr 8)
      let x157 ← DenLit.divRep i32 2 x155
      pure (Raw.areIdentical x156 x157)),
    Passes (do
      let x158 ← DenLit.neg (DenLit.fr 8)
      let x159 ← DenLit.divRep i32 2 x158
      let x161 ← Fraction.roundRedenominate i32 .defaults x159 (-4)
      let x160 ← DenLit.neg (DenLit.fr 4)
      let x162 ← DenLit.divRep i32 1 x160
      pure (Raw.areIdentical x161 x162)),
    Passes (do
      let x163 ← DenLit.neg (DenLit.fr 3)
      let x164 ← DenLit.divRep i32 (-4) x163
      let x166 ← Fraction.roundRedenominate i32 .defaults x164 (-5)
      let x165 ← DenLit.neg (DenLit.fr 5)
      let x167 ← DenLit.divRep i32 (-7) x165
      pure (Raw.areIdentical x166 x167)),
    Passes (do
      let x168 ← DenLit.neg (DenLit.fr 3)
      let x169 ← DenLit.divRep i32 (-5) x168
      let x171 ← Fraction.roundRedenominate i32 .defaults x169 (-5)
      let x170 ← DenLit.neg (DenLit.fr 5)
      let x172 ← DenLit.divRep i32 (-8) x170
      pure (Raw.areIdentical x171 x172)),
    Passes (do
      let x173 ← DenLit.neg (DenLit.fr 5)
      let x174 ← DenLit.divRep i32 (-2) x173
      let x176 ← Fraction.roundRedenominate i32 .defaults x174 (-3)
      let x175 ← DenLit.neg (DenLit.fr 3)
      let x177 ← DenLit.divRep i32 (-1) x175
      pure (Raw.areIdentical x176 x177)),
    Passes (do
      let x178 ← DenLit.neg (DenLit.fr 5)
      let x179 ← DenLit.divRep i32 (-3) x178
      let x181 ← Fraction.roundRedenominate i32 .defaults x179 (-3)
      let x180 ← DenLit.neg (DenLit.fr 3)
      let x182 ← DenLit.divRep i32 (-2) x180
      pure (Raw.areIdentical x181 x182)),
    Passes (do
      let x183 ← DenLit.neg (DenLit.fr 4)
      let x184 ← DenLit.divRep i32 (-1) x183
      let x186 ← Fraction.roundRedenominate i32 .defaults x184 (-8)
      let x185 ← DenLit.neg (DenLit.fr 8)
      let x187 ← DenLit.divRep i32 (-2) x185
      pure (Raw.areIdentical x186 x187)),
    Passes (do
      let x188 ← DenLit.neg (DenLit.fr 8)
      let x189 ← DenLit.divRep i32 (-2) x188
      let x191 ← Fraction.roundRedenominate i32 .defaults x189 (-4)
      let x190 ← DenLit.neg (DenLit.fr 4)
      let x192 ← DenLit.divRep i32 (-1) x190
      pure (Raw.areIdentical x191 x192))].all id = true := by
  decide +kernel

/-! A fraction can be redenominated using various rounding modes
    (`/repo/src/ieme/fraction_math.test.cpp:370`). -/

example : [
    Passes (do
      let x1 ← DenLit.divRep i32 4 (DenLit.fr 3)
      let x2 ← Fraction.redenominate i32 .defaults x1 5 .trunc
      let x3 ← DenLit.divRep i32 6 (DenLit.fr 5)
      pure (Raw.areIdentical x2 x3)),
    Passes (do
      let x4 ← DenLit.divRep i32 5 (DenLit.fr 3)
      let x5 ← Fraction.redenominate i32 .defaults x4 5 .trunc
      let x6 ← DenLit.divRep i32 8 (DenLit.fr 5)
      pure (Raw.areIdentical x5 x6)),
    Passes (do
      let x7 ← DenLit.divRep i32 (-4) (DenLit.fr 3)
      let x8 ← Fraction.redenominate i32 .defaults x7 5 .trunc
      let x9 ← DenLit.divRep i32 (-6) (DenLit.fr 5)
      pure (Raw.areIdentical x8 x9)),
    Passes (do
      let x10 ← DenLit.divRep i32 (-5) (DenLit.fr 3)
      let x11 ← Fraction.redenominate i32 .defaults x10 5 .trunc
      let x12 ← DenLit.divRep i32 (-8) (DenLit.fr 5)
      pure (Raw.areIdentical x11 x12)),
    Passes (do
      let x13 ← DenLit.divRep i32 4 (DenLit.fr 3)
      let x14 ← Fraction.redenominate i32 .defaults x13 5 .ceil
      let x15 ← DenLit.divRep i32 7 (DenLit.fr 5)
      pure (Raw.areIdentical x14 x15)),
    Passes (do
      let x16 ← DenLit.divRep i32 5 (DenLit.fr 3)
      let x17 ← Fraction.redenominate i32 .defaults x16 5 .ceil
      let x18 ← DenLit.divRep i32 9 (DenLit.fr 5)
      pure (Raw.areIdentical x17 x18)),
    Passes (do
      let x19 ← DenLit.divRep i32 (-4) (DenLit.fr 3)
      let x20 ← Fraction.redenominate i32 .defaults x19 5 .ceil
      let x21 ← DenLit.divRep i32 (-6) (DenLit.fr 5)
      pure (Raw.areIdentical x20 x21)),
    Passes (do
      let x22 ← DenLit.divRep i32 (-5) (DenLit.fr 3)
      let x23 ← Fraction.redenominate i32 .defaults x22 5 .ceil
      let x24 ← DenLit.divRep i32 (-8) (DenLit.fr 5)
      pure (Raw.areIdentical x23 x24)),
    Passes (do
      let x25 ← DenLit.divRep i32 4 (DenLit.fr 3)
      let x26 ← Fraction.redenominate i32 .defaults x25 5 .floor
      let x27 ← DenLit.divRep i32 6 (DenLit.fr 5)
      pure (Raw.areIdentical x26 x27)),
    Passes (do
      let x28 ← DenLit.divRep i32 5 (DenLit.fr 3)
      let x29 ← Fraction.redenominate i32 .defaults x28 5 .floor
      let x30 ← DenLit.divRep i32 8 (DenLit.fr 5)
      pure (Raw.areIdentical x29 x30)),
    Passes (do
      let x31 ← DenLit.divRep i32 (-4) (DenLit.fr 3)
      let x32 ← Fraction.redenominate i32 .defaults x31 5 .floor
      let x33 ← DenLit.divRep i32 (-7) (DenLit.fr 5)
      pure (Raw.areIdentical x32 x33)),
    Passes (do
      let x34 ← DenLit.divRep i32 (-5) (DenLit.fr 3)
      let x35 ← Fraction.redenominate i32 .defaults x34 5 .floor
      let x36 ← DenLit.divRep i32 (-9) (DenLit.fr 5)
      pure (Raw.areIdentical x35 x36)),
    Passes (do
      let x37 ← DenLit.divRep i32 4 (DenLit.fr 3)
      let x38 ← Fraction.redenominate i32 .defaults x37 5 .round
      let x39 ← DenLit.divRep i32 7 (DenLit.fr 5)
      pure (Raw.areIdentical x38 x39)),
    Passes (do
      let x40 ← DenLit.divRep i32 5 (DenLit.fr 3)
      let x41 ← Fraction.redenominate i32 .defaults x40 5 .round
      let x42 ← DenLit.divRep i32 8 (DenLit.fr 5)
      pure (Raw.areIdentical x41 x42)),
    Passes (do
      let x43 ← DenLit.divRep i32 (-4) (DenLit.fr 3)
      let x44 ← Fraction.redenominate i32 .defaults x43 5 .round
      let x45 ← DenLit.divRep i32 (-7) (DenLit.fr 5)
      pure (Raw.areIdentical x44 x45)),
    Passes (do
      let x46 ← DenLit.divRep i32 (-5) (DenLit.fr 3)
      let x47 ← Fraction.redenominate i32 .defaults x46 5 .round
      let x48 ← DenLit.divRep i32 (-8) (DenLit.fr 5)
      pure (Raw.areIdentical x47 x48))].all id = true := by
  decide +kernel

/-! A fractional power of two can be calculated (`/repo/src/ieme/fraction_math.test.cpp:408`). -/

example : [
    Passes (do
      let x1 ← Fraction.pow2 i32 7
      Fraction.cmp i32 i32 .defaults .equalTo (.fr x1 128)),
    Passes (do
      let x2 ← Fraction.pow2 i32 0
      Fraction.cmp i32 i32 .defaults .equalTo (.fr x2 1)),
    Passes (do
      let x3 ← Fraction.pow2 i32 (-3)
      let x4 ← DenLit.divRep i32 1 (DenLit.fr 8)
      Fraction.cmp i32 i32 .defaults .equalTo (.ff x3 x4)),
    Passes (do
      let x5 ← Fraction.pow2 u32 (-9)
      let x6 ← DenLit.divRep u32 1 (DenLit.fr 512)
      Fraction.cmp u32 u32 .defaults .equalTo (.ff x5 x6))].all id = true := by
  decide +kernel

/-! A fractional power of an integer can be calculated
    (`/repo/src/ieme/fraction_math.test.cpp:416`). -/

example : [
    Passes (do
      let x1 ← Fraction.pow i32 3 0
      Fraction.cmp i32 i32 .defaults .equalTo (.fr x1 1)),
    Passes (do
      let x2 ← Fraction.pow i32 3 1
      Fraction.cmp i32 i32 .defaults .equalTo (.fr x2 3)),
    Passes (do
      let x3 ← Fraction.pow i32 3 2
      Fraction.cmp i32 i32 .defaults .equalTo (.fr x3 9)),
    Passes (do
      let x4 ← Fraction.pow i32 3 3
      Fraction.cmp i32 i32 .defaults .equalTo (.fr x4 27)),
    Passes (do
      let x5 ← Fraction.pow i32 (-5) 8
      Fraction.cmp i32 i32 .defaults .equalTo (.fr x5 390625)),
    Passes (do
      let x6 ← Fraction.pow i32 (-5) 9
      Fraction.cmp i32 i32 .defaults .equalTo (.fr x6 (-1953125))),
    Passes (do
      let x7 ← Fraction.pow i32 3 (-1)
      let x8 ← DenLit.divRep i32 1 (DenLit.fr 3)
      Fraction.cmp i32 i32 .defaults .equalTo (.ff x7 x8)),
    Passes (do
      let x9 ← Fraction.pow i32 3 (-2)
      let x10 ← DenLit.divRep i32 1 (DenLit.fr 9)
      Fraction.cmp i32 i32 .defaults .equalTo (.ff x9 x10)),
    Passes (do
      let x11 ← Fraction.pow i32 3 (-3)
      let x12 ← DenLit.divRep i32 1 (DenLit.fr 27)
      Fraction.cmp i32 i32 .defaults .equalTo (.ff x11 x12)),
    Passes (do
      let x13 ← Fraction.pow u32 4 (-5)
      let x14 ← DenLit.divRep u32 1 (DenLit.fr 1024)
      Fraction.cmp u32 u32 .defaults .equalTo (.ff x13 x14)),
    Passes (do
      let x15 ← Fraction.pow i32 (-5) (-8)
      let x16 ← DenLit.divRep i32 1 (DenLit.fr 390625)
      Fraction.cmp i32 i32 .defaults .equalTo (.ff x15 x16)),
    Passes (do
      let x17 ← Fraction.pow i32 (-5) (-9)
      let x18 ← DenLit.divRep i32 (-1) (DenLit.fr 1953125)
      Fraction.cmp i32 i32 .defaults .equalTo (.ff x17 x18))].all id = true := by
  decide +kernel

end Ieme.Tests
