import Verif.Tests.Basic
import Verif.Model.Parse
import Verif.Model.Literals

/-!
# `fraction_literals.test.cpp` on the model

The assertions on types (`std::is_same_v`) are not statements about values and have no
counterpart.  The 11 assertions below are those of `/repo/src/ieme/fraction_literals.test.cpp`.
-/

namespace Ieme.Tests

/-! Fraction literals have the expected symbolic equivalents
    (`/repo/src/ieme/fraction_literals.test.cpp:15`). -/

example : [
    Passes (do
      let x1 ← DenLit.divRep i32 3 (DenLit.fr 4)
      pure (Raw.areIdentical x1 (Fraction.mk 3 4))),
    Passes (do
      let x2 ← DenLit.divRep i32 (-3) (DenLit.fr 4)
      pure (Raw.areIdentical x2 (Fraction.mk (-3) 4))),
    Passes (do
      let x3 ← DenLit.neg (DenLit.fr 4)
      let x4 ← DenLit.divRep i32 3 x3
      pure (Raw.areIdentical x4 (Fraction.mk 3 (-4)))),
    Passes (do
      let x5 ← DenLit.neg (DenLit.fr 4)
      let x6 ← DenLit.divRep i32 (-3) x5
      pure (Raw.areIdentical x6 (Fraction.mk (-3) (-4))))].all id = true := by
  decide +kernel

/-! Fraction literals can be used within complex arithmetic expressions
    (`/repo/src/ieme/fraction_literals.test.cpp:34`). -/

example : [
    Passes (do
      let x1 ← DenLit.neg (DenLit.fr 3)
      let x2 ← DenLit.divRep i32 4 x1
      let x3 ← Fraction.arith i32 i32 .defaults .multiplies (.fr x2 2)
      let x4 ← DenLit.divFraction i32 .defaults x3 (DenLit.fr 5)
      let x5 ← Fraction.arith i32 i32 .defaults .plus (.rf 3 x4)
      Fraction.cmp i32 i32 .defaults .equalTo (.ff x5 (Fraction.mk 37 15)))].all id = true := by
  decide +kernel

/-! Decimal fraction literals have the expected fractional equivalents
    (`/repo/src/ieme/fraction_literals.test.cpp:40`). -/

example : [
    Passes (do
      let x2 ← Parse.dec "2.3".toList
      let x1 ← DenLit.divRep i32 3 (DenLit.fr 10)
      let x3 ← Fraction.arith i32 i32 .defaults .plus (.rf 2 x1)
      Fraction.cmp i64 i32 .defaults .equalTo (.ff x2 x3)),
    Passes (do
      let x5 ← Parse.dec "94.332".toList
      let x4 ← DenLit.divRep i32 332 (DenLit.fr 1000)
      let x6 ← Fraction.arith i64 i32 .defaults .plus (.rf 94 x4)
      Fraction.cmp i64 (IntTy.common i64 i32) .defaults .equalTo (.ff x5 x6)),
    Passes (do
      let x7 ← Parse.dec "9.22E+3".toList
      Fraction.cmp i64 i32 .defaults .equalTo (.fr x7 9220)),
    Passes (do
      let x8 ← Parse.dec "7.543E-10".toList
      let x9 ← DenLit.divRep i64 7543 (DenLit.fr 10000000000000)
      Fraction.cmp i64 i64 .defaults .equalTo (.ff x8 x9)),
    Passes (do
      let x10 ← Parse.dec "0xC.Ap2".toList
      let x11 ← DenLit.divRep i32 101 (DenLit.fr 2)
      Fraction.cmp i64 i32 .defaults .equalTo (.ff x10 x11)),
    Passes (do
      let x12 ← Parse.dec "0xC1.A1p-10".toList
      let x13 ← DenLit.divRep i32 49569 (DenLit.fr 262144)
      Fraction.cmp i64 i32 .defaults .equalTo (.ff x12 x13))].all id = true := by
  decide +kernel

end Ieme.Tests
