import Verif.Tests.Basic
import Verif.Model.MixedNumber
import Verif.Model.Literals

/-!
# `mixed_number.test.cpp` on the model

The 35 assertions below are those of `/repo/src/ieme/mixed_number.test.cpp`.
-/

namespace Ieme.Tests

/-! A default-constructed mixed number has a zero whole part and 0/1 fractional part
    (`/repo/src/ieme/mixed_number.test.cpp:14`). -/

example : [
    Passes (pure (decide ((Mixed.default.whole) = 0))),
    Passes (do
      let x1 ← DenLit.divRep i32 0 (DenLit.fr 1)
      pure (Raw.areIdentical (Mixed.default.frac) x1))].all id = true := by
  decide +kernel

/-! A mixed number can constructed from a whole and fractional part
    (`/repo/src/ieme/mixed_number.test.cpp:24`). -/

example : [
    Passes (do
      let x1 ← DenLit.divRep i32 (-4) (DenLit.fr 5)
      let x2 ← Mixed.mk' i32 i32 .defaults (-5) x1
      pure (decide ((x2.whole) = (-5)))),
    Passes (do
      let x1 ← DenLit.divRep i32 (-4) (DenLit.fr 5)
      let x3 ← Mixed.mk' i32 i32 .defaults (-5) x1
      let x4 ← DenLit.divRep i32 (-4) (DenLit.fr 5)
      pure (Raw.areIdentical (x3.frac) x4))].all id = true := by
  decide +kernel

/-! A mixed number will fix itself if the whole and fractional do not have the same sign or if
    the fractional is improper (`/repo/src/ieme/mixed_number.test.cpp:33`). -/

example : [
    Passes (do
      let x1 ← DenLit.divRep i32 (-4) (DenLit.fr 5)
      let x2 ← Mixed.mk' i32 i32 .defaults 5 x1
      pure (decide ((x2.whole) = 4))),
    Passes (do
      let x1 ← DenLit.divRep i32 (-4) (DenLit.fr 5)
      let x3 ← Mixed.mk' i32 i32 .defaults 5 x1
      let x4 ← DenLit.divRep i32 1 (DenLit.fr 5)
      pure (Raw.areIdentical (x3.frac) x4)),
    Passes (do
      let x5 ← DenLit.divRep i32 4 (DenLit.fr 5)
      let x6 ← Mixed.mk' i32 i32 .defaults (-5) x5
      pure (decide ((x6.whole) = (-4)))),
    Passes (do
      let x5 ← DenLit.divRep i32 4 (DenLit.fr 5)
      let x7 ← Mixed.mk' i32 i32 .defaults (-5) x5
      let x8 ← DenLit.divRep i32 (-1) (DenLit.fr 5)
      pure (Raw.areIdentical (x7.frac) x8)),
    Passes (do
      let x9 ← DenLit.divRep i32 6 (DenLit.fr 5)
      let x10 ← Mixed.mk' i32 i32 .defaults 3 x9
      pure (decide ((x10.whole) = 4))),
    Passes (do
      let x9 ← DenLit.divRep i32 6 (DenLit.fr 5)
      let x11 ← Mixed.mk' i32 i32 .defaults 3 x9
      let x12 ← DenLit.divRep i32 1 (DenLit.fr 5)
      pure (Raw.areIdentical (x11.frac) x12)),
    Passes (do
      let x13 ← DenLit.divRep i32 (-6) (DenLit.fr 5)
      let x14 ← Mixed.mk' i32 i32 .defaults (-3) x13
      pure (decide ((x14.whole) = (-4)))),
    Passes (do
      let x13 ← DenLit.divRep i32 (-6) (DenLit.fr 5)
      let x15 ← Mixed.mk' i32 i32 .defaults (-3) x13
      let x16 ← DenLit.divRep i32 (-1) (DenLit.fr 5)
      pure (Raw.areIdentical (x15.frac) x16)),
    Passes (do
      let x17 ← DenLit.divRep i32 (-14) (DenLit.fr 5)
      let x18 ← Mixed.mk' i32 i32 .defaults 7 x17
      pure (decide ((x18.whole) = 4))),
    Passes (do
      let x17 ← DenLit.divRep i32 (-14) (DenLit.fr 5)
      let x19 ← Mixed.mk' i32 i32 .defaults 7 x17
      let x20 ← DenLit.divRep i32 1 (DenLit.fr 5)
      pure (Raw.areIdentical (x19.frac) x20)),
    Passes (do
      let x21 ← DenLit.divRep i32 14 (DenLit.fr 5)
      let x22 ← Mixed.mk' i32 i32 .defaults (-7) x21
      pure (decide ((x22.whole) = (-4)))),
    Passes (do
      let x21 ← DenLit.divRep i32 14 (DenLit.fr 5)
      let x23 ← Mixed.mk' i32 i32 .defaults (-7) x21
      let x24 ← DenLit.divRep i32 (-1) (DenLit.fr 5)
      pure (Raw.areIdentical (x23.frac) x24))].all id = true := by
  decide +kernel

/-! A mixed number can constructed from just a whole part
    (`/repo/src/ieme/mixed_number.test.cpp:68`). -/

example : [
    Passes (do
      let x1 ← Mixed.mk' i32 i32 .defaults 2
      pure (decide ((x1.whole) = 2))),
    Passes (do
      let x2 ← Mixed.mk' i32 i32 .defaults 2
      let x3 ← DenLit.divRep i32 0 (DenLit.fr 1)
      pure (Raw.areIdentical (x2.frac) x3))].all id = true := by
  decide +kernel

/-! A mixed number can constructed from a fraction (`/repo/src/ieme/mixed_number.test.cpp:77`). -/

example : [
    Passes (do
      let x1 ← DenLit.divRep i32 (-11) (DenLit.fr 4)
      let x2 ← Mixed.ofFraction i32 i32 .defaults i32 x1
      pure (decide ((x2.whole) = (-2)))),
    Passes (do
      let x1 ← DenLit.divRep i32 (-11) (DenLit.fr 4)
      let x3 ← Mixed.ofFraction i32 i32 .defaults i32 x1
      let x4 ← DenLit.divRep i32 (-3) (DenLit.fr 4)
      pure (Raw.areIdentical (x3.frac) x4))].all id = true := by
  decide +kernel

/-! A mixed number can be converted to a fraction (`/repo/src/ieme/mixed_number.test.cpp:85`). -/

example : [
    Passes (do
      let x1 ← DenLit.divRep i32 (-1) (DenLit.fr 9)
      let x2 ← Mixed.mk' i32 i32 .defaults (-3) x1
      let x3 ← Mixed.asFraction i32 i32 .defaults x2
      let x4 ← DenLit.divRep i32 (-28) (DenLit.fr 9)
      pure (Raw.areIdentical x3 x4))].all id = true := by
  decide +kernel

/-! A mixed number can be promoted (`/repo/src/ieme/mixed_number.test.cpp:92`). -/

example : [
    Passes (do
      let x1 ← DenLit.divRep i32 4 (DenLit.fr 9)
      let x2 ← Mixed.mk' i32 i32 .defaults 7 x1
      pure (decide (((Mixed.pos x2).whole) = 7))),
    Passes (do
      let x1 ← DenLit.divRep i32 4 (DenLit.fr 9)
      let x2 ← Mixed.mk' i32 i32 .defaults 7 x1
      let x3 ← DenLit.divRep i32 4 (DenLit.fr 9)
      pure (Raw.areIdentical ((Mixed.pos x2).frac) x3))].all id = true := by
  decide +kernel

/-! A mixed number can be negated (`/repo/src/ieme/mixed_number.test.cpp:100`). -/

example : [
    Passes (do
      let x1 ← DenLit.divRep i32 4 (DenLit.fr 9)
      let x2 ← Mixed.mk' i32 i32 .defaults 7 x1
      let x3 ← Mixed.neg i32 i32 .defaults x2
      pure (decide ((x3.whole) = (-7)))),
    Passes (do
      let x1 ← DenLit.divRep i32 4 (DenLit.fr 9)
      let x2 ← Mixed.mk' i32 i32 .defaults 7 x1
      let x4 ← Mixed.neg i32 i32 .defaults x2
      let x5 ← DenLit.divRep i32 (-4) (DenLit.fr 9)
      pure (Raw.areIdentical (x4.frac) x5))].all id = true := by
  decide +kernel

/-! A whole number can be added to a mixed number (`/repo/src/ieme/mixed_number.test.cpp:108`). -/

example : [
    Passes (do
      let x1 ← DenLit.divRep i32 1 (DenLit.fr 4)
      let x2 ← Mixed.mk' i32 i32 .defaults 8 x1
      let x3 ← Mixed.addWhole i32 i32 i32 .defaults x2 2
      pure (decide ((x3.whole) = 10))),
    Passes (do
      let x1 ← DenLit.divRep i32 1 (DenLit.fr 4)
      let x2 ← Mixed.mk' i32 i32 .defaults 8 x1
      let x4 ← Mixed.addWhole i32 i32 i32 .defaults x2 2
      let x5 ← DenLit.divRep i32 1 (DenLit.fr 4)
      Fraction.cmp i32 i32 .defaults .equalTo (.ff (x4.frac) x5)),
    Passes (do
      let x6 ← DenLit.divRep i32 1 (DenLit.fr 4)
      let x7 ← Mixed.mk' i32 i32 .defaults 8 x6
      let x8 ← Mixed.addWhole i32 i32 i32 .defaults x7 2
      pure (decide ((x8.whole) = 10))),
    Passes (do
      let x6 ← DenLit.divRep i32 1 (DenLit.fr 4)
      let x7 ← Mixed.mk' i32 i32 .defaults 8 x6
      let x9 ← Mixed.addWhole i32 i32 i32 .defaults x7 2
      let x10 ← DenLit.divRep i32 1 (DenLit.fr 4)
      Fraction.cmp i32 i32 .defaults .equalTo (.ff (x9.frac) x10))].all id = true := by
  decide +kernel

/-! A fraction can be added to a mixed number (`/repo/src/ieme/mixed_number.test.cpp:121`). -/

example : [
    Passes (do
      let x1 ← DenLit.divRep i32 3 (DenLit.fr 4)
      let x2 ← Mixed.mk' i32 i32 .defaults 8 x1
      let x3 ← DenLit.divRep i32 5 (DenLit.fr 3)
      let x4 ← Mixed.addFraction i32 i32 i32 .defaults x2 x3
      pure (decide ((x4.whole) = 10))),
    Passes (do
      let x1 ← DenLit.divRep i32 3 (DenLit.fr 4)
      let x2 ← Mixed.mk' i32 i32 .defaults 8 x1
      let x3 ← DenLit.divRep i32 5 (DenLit.fr 3)
      let x5 ← Mixed.addFraction i32 i32 i32 .defaults x2 x3
      let x6 ← DenLit.divRep i32 5 (DenLit.fr 12)
      Fraction.cmp i32 i32 .defaults .equalTo (.ff (x5.frac) x6)),
    Passes (do
      let x7 ← DenLit.divRep i32 1 (DenLit.fr 4)
      let x8 ← Mixed.mk' i32 i32 .defaults 0 x7
      let x9 ← DenLit.divRep i32 (-3) (DenLit.fr 2)
      let x10 ← Mixed.addFraction i32 i32 i32 .defaults x8 x9
      pure (decide ((x10.whole) = (-1)))),
    Passes (do
      let x7 ← DenLit.divRep i32 1 (DenLit.fr 4)
      let x8 ← Mixed.mk' i32 i32 .defaults 0 x7
      let x9 ← DenLit.divRep i32 (-3) (DenLit.fr 2)
      let x11 ← Mixed.addFraction i32 i32 i32 .defaults x8 x9
      let x12 ← DenLit.divRep i32 (-1) (DenLit.fr 4)
      Fraction.cmp i32 i32 .defaults .equalTo (.ff (x11.frac) x12))].all id = true := by
  decide +kernel

/-! Two mixed numbers can be added together (`/repo/src/ieme/mixed_number.test.cpp:134`). -/

example : [
    Passes (do
      let x1 ← DenLit.divRep i32 4 (DenLit.fr 5)
      let x3 ← Mixed.mk' i32 i32 .defaults 3 x1
      let x2 ← DenLit.divRep i32 (-1) (DenLit.fr 2)
      let x4 ← Mixed.mk' i32 i32 .defaults (-2) x2
      let x5 ← Mixed.add i32 i32 i32 i32 .defaults x3 x4
      pure (decide ((x5.whole) = 1))),
    Passes (do
      let x1 ← DenLit.divRep i32 4 (DenLit.fr 5)
      let x3 ← Mixed.mk' i32 i32 .defaults 3 x1
      let x2 ← DenLit.divRep i32 (-1) (DenLit.fr 2)
      let x4 ← Mixed.mk' i32 i32 .defaults (-2) x2
      let x6 ← Mixed.add i32 i32 i32 i32 .defaults x3 x4
      let x7 ← DenLit.divRep i32 3 (DenLit.fr 10)
      Fraction.cmp i32 i32 .defaults .equalTo (.ff (x6.frac) x7))].all id = true := by
  decide +kernel

end Ieme.Tests
