import Verif.Tests.Basic
import Verif.Model.Literals

/-!
# `fraction_queries.test.cpp` on the model

The 37 assertions below are those of `/repo/src/ieme/fraction_queries.test.cpp`.
-/

namespace Ieme.Tests

/-! A fraction can be queried about whether or not it's a defined value
    (`/repo/src/ieme/fraction_queries.test.cpp:13`). -/

example : [
    Passes (do
      let x1 ← DenLit.divRep i32 10 (DenLit.fr 5)
      pure (Raw.isDefined x1)),
    Fails (do
      let x2 ← DenLit.divRep i32 10 (DenLit.fr 5)
      pure (Raw.isUndefined x2)),
    Fails (do
      let x3 ← DenLit.divRep i32 10 (DenLit.fr 0)
      pure (Raw.isDefined x3)),
    Passes (do
      let x4 ← DenLit.divRep i32 10 (DenLit.fr 0)
      pure (Raw.isUndefined x4))].all id = true := by
  decide +kernel

/-! A fraction's sign can be queried (`/repo/src/ieme/fraction_queries.test.cpp:23`). -/

example : [
    Passes (do
      let x1 ← DenLit.divRep i32 12 (DenLit.fr 32)
      pure (Raw.isPositive x1)),
    Passes (do
      let x2 ← DenLit.divRep i32 12 (DenLit.fr 32)
      pure (Raw.isNonNegative x2)),
    Fails (do
      let x3 ← DenLit.divRep i32 12 (DenLit.fr 32)
      pure (Raw.isZero x3)),
    Fails (do
      let x4 ← DenLit.divRep i32 12 (DenLit.fr 32)
      pure (Raw.isNonPositive x4)),
    Fails (do
      let x5 ← DenLit.divRep i32 12 (DenLit.fr 32)
      pure (Raw.isNegative x5)),
    Fails (do
      let x6 ← DenLit.divRep i32 (-5) (DenLit.fr 2)
      pure (Raw.isPositive x6)),
    Fails (do
      let x7 ← DenLit.divRep i32 (-5) (DenLit.fr 2)
      pure (Raw.isNonNegative x7)),
    Fails (do
      let x8 ← DenLit.divRep i32 (-5) (DenLit.fr 2)
      pure (Raw.isZero x8)),
    Passes (do
      let x9 ← DenLit.divRep i32 (-5) (DenLit.fr 2)
      pure (Raw.isNonPositive x9)),
    Passes (do
      let x10 ← DenLit.divRep i32 (-5) (DenLit.fr 2)
      pure (Raw.isNegative x10)),
    Fails (do
      let x11 ← DenLit.divRep i32 0 (DenLit.fr 1)
      pure (Raw.isPositive x11)),
    Passes (do
      let x12 ← DenLit.divRep i32 0 (DenLit.fr 1)
      pure (Raw.isNonNegative x12)),
    Passes (do
      let x13 ← DenLit.divRep i32 0 (DenLit.fr 1)
      pure (Raw.isZero x13)),
    Passes (do
      let x14 ← DenLit.divRep i32 0 (DenLit.fr 1)
      pure (Raw.isNonPositive x14)),
    Fails (do
      let x15 ← DenLit.divRep i32 0 (DenLit.fr 1)
      pure (Raw.isNegative x15))].all id = true := by
  decide +kernel

/-! A fraction can be queried about whether or not it's an integer
    (`/repo/src/ieme/fraction_queries.test.cpp:44`). -/

example : [
    Passes (do
      let x1 ← DenLit.divRep i32 4 (DenLit.fr 1)
      Raw.isInteger i32 x1),
    Fails (do
      let x2 ← DenLit.divRep i32 5 (DenLit.fr 2)
      Raw.isInteger i32 x2)].all id = true := by
  decide +kernel

/-! A fraction can be queried about whether or not it's a unit fraction
    (`/repo/src/ieme/fraction_queries.test.cpp:51`). -/

example : [
    Passes (do
      let x1 ← DenLit.divRep i32 1 (DenLit.fr 2)
      Raw.isUnitFraction i32 x1),
    Fails (do
      let x2 ← DenLit.divRep i32 3 (DenLit.fr 4)
      Raw.isUnitFraction i32 x2)].all id = true := by
  decide +kernel

/-! A fraction can be queried about whether or not it's reduced
    (`/repo/src/ieme/fraction_queries.test.cpp:58`). -/

example : [
    Passes (do
      let x1 ← DenLit.divRep i32 3 (DenLit.fr 4)
      Raw.isReducedIgnoreSigns i32 x1),
    Passes (do
      let x2 ← DenLit.divRep i32 3 (DenLit.fr 4)
      Raw.isReduced i32 x2),
    Passes (do
      let x3 ← DenLit.neg (DenLit.fr 4)
      let x4 ← DenLit.divRep i32 (-3) x3
      Raw.isReducedIgnoreSigns i32 x4),
    Fails (do
      let x5 ← DenLit.neg (DenLit.fr 4)
      let x6 ← DenLit.divRep i32 (-3) x5
      Raw.isReduced i32 x6),
    Fails (do
      let x7 ← DenLit.divRep i32 2 (DenLit.fr 4)
      Raw.isReducedIgnoreSigns i32 x7),
    Fails (do
      let x8 ← DenLit.divRep i32 2 (DenLit.fr 4)
      Raw.isReduced i32 x8)].all id = true := by
  decide +kernel

/-! A fraction can be queried about whether or not it's proper
    (`/repo/src/ieme/fraction_queries.test.cpp:71`). -/

example : [
    Passes (do
      let x1 ← DenLit.divRep i32 3 (DenLit.fr 4)
      Raw.isProper i32 x1),
    Fails (do
      let x2 ← DenLit.divRep i32 3 (DenLit.fr 4)
      Raw.isImproper i32 x2),
    Fails (do
      let x3 ← DenLit.divRep i32 3 (DenLit.fr 2)
      Raw.isProper i32 x3),
    Passes (do
      let x4 ← DenLit.divRep i32 3 (DenLit.fr 2)
      Raw.isImproper i32 x4)].all id = true := by
  decide +kernel

/-! Two raw fractions can be identically compared
    (`/repo/src/ieme/fraction_queries.test.cpp:81`). -/

example : [
    Passes (do
      let x1 ← DenLit.divRep i32 (-7) (DenLit.fr 15)
      let x2 ← DenLit.divRep i32 (-7) (DenLit.fr 15)
      pure (Raw.areIdentical x1 x2)),
    Fails (do
      let x3 ← DenLit.divRep i32 (-7) (DenLit.fr 15)
      let x4 ← DenLit.divRep i32 (-7) (DenLit.fr 15)
      pure (Raw.areDifferent x3 x4)),
    Fails (do
      let x6 ← DenLit.divRep i32 (-7) (DenLit.fr 15)
      let x5 ← DenLit.neg (DenLit.fr 15)
      let x7 ← DenLit.divRep i32 7 x5
      pure (Raw.areIdentical x6 x7)),
    Passes (do
      let x9 ← DenLit.divRep i32 (-7) (DenLit.fr 15)
      let x8 ← DenLit.neg (DenLit.fr 15)
      let x10 ← DenLit.divRep i32 7 x8
      pure (Raw.areDifferent x9 x10))].all id = true := by
  decide +kernel

end Ieme.Tests
