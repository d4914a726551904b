import Verif.Tests.Basic
import Verif.Model.Raw

/-!
# `raw_fraction_queries.test.cpp` on the model

The 76 assertions below are those of `/repo/src/ieme/raw_fraction_queries.test.cpp`.
-/

namespace Ieme.Tests

/-! A raw fraction can be queried about whether or not it's a defined value
    (`/repo/src/ieme/raw_fraction_queries.test.cpp:10`). -/

example : [
    Passes (pure (Raw.isDefined (Raw.mk 10 5))),
    Fails (pure (Raw.isUndefined (Raw.mk 10 5))),
    Passes (pure (Raw.isDefined (Raw.mk (-5) 2))),
    Fails (pure (Raw.isUndefined (Raw.mk (-5) 2))),
    Passes (pure (Raw.isDefined (Raw.mk 0 1))),
    Fails (pure (Raw.isUndefined (Raw.mk 0 1))),
    Fails (pure (Raw.isDefined (Raw.mk 1 0))),
    Passes (pure (Raw.isUndefined (Raw.mk 1 0)))].all id = true := by
  decide +kernel

/-! A raw fraction's sign can be queried (`/repo/src/ieme/raw_fraction_queries.test.cpp:35`). -/

example : [
    Passes (pure (Raw.isPositive (Raw.mk 12 32))),
    Passes (pure (Raw.isNonNegative (Raw.mk 12 32))),
    Fails (pure (Raw.isZero (Raw.mk 12 32))),
    Fails (pure (Raw.isNonPositive (Raw.mk 12 32))),
    Fails (pure (Raw.isNegative (Raw.mk 12 32))),
    Fails (pure (Raw.isPositive (Raw.mk (-5) 2))),
    Fails (pure (Raw.isNonNegative (Raw.mk (-5) 2))),
    Fails (pure (Raw.isZero (Raw.mk (-5) 2))),
    Passes (pure (Raw.isNonPositive (Raw.mk (-5) 2))),
    Passes (pure (Raw.isNegative (Raw.mk (-5) 2))),
    Fails (pure (Raw.isPositive (Raw.mk 0 1))),
    Passes (pure (Raw.isNonNegative (Raw.mk 0 1))),
    Passes (pure (Raw.isZero (Raw.mk 0 1))),
    Passes (pure (Raw.isNonPositive (Raw.mk 0 1))),
    Fails (pure (Raw.isNegative (Raw.mk 0 1))),
    Fails (pure (Raw.isPositive (Raw.mk 1 0))),
    Fails (pure (Raw.isNonNegative (Raw.mk 1 0))),
    Fails (pure (Raw.isZero (Raw.mk 1 0))),
    Fails (pure (Raw.isNonPositive (Raw.mk 1 0))),
    Fails (pure (Raw.isNegative (Raw.mk 1 0)))].all id = true := by
  decide +kernel

/-! A raw fraction can be queried about whether or not it's an integer
    (`/repo/src/ieme/raw_fraction_queries.test.cpp:70`). -/

example : [
    Passes (Raw.isInteger i32 (Raw.mk 10 5)),
    Fails (Raw.isInteger i32 (Raw.mk (-5) 2)),
    Passes (Raw.isInteger i32 (Raw.mk 0 1)),
    Fails (Raw.isInteger i32 (Raw.mk 1 0))].all id = true := by
  decide +kernel

/-! A raw fraction can be queried about whether or not it's a unit fraction
    (`/repo/src/ieme/raw_fraction_queries.test.cpp:90`). -/

example : [
    Passes (Raw.isUnitFraction i32 (Raw.mk 5 10)),
    Fails (Raw.isUnitFraction i32 (Raw.mk (-5) 2)),
    Fails (Raw.isUnitFraction i32 (Raw.mk 0 1)),
    Fails (Raw.isUnitFraction i32 (Raw.mk 1 0))].all id = true := by
  decide +kernel

/-! A raw fraction can be queried about whether or not it's reduced
    (`/repo/src/ieme/raw_fraction_queries.test.cpp:111`). -/

example : [
    Passes (Raw.isReducedIgnoreSigns i32 (Raw.mk 3 4)),
    Passes (Raw.isReduced i32 (Raw.mk 3 4)),
    Passes (Raw.isReducedIgnoreSigns i32 (Raw.mk (-5) 2)),
    Passes (Raw.isReduced i32 (Raw.mk (-5) 2)),
    Passes (Raw.isReducedIgnoreSigns i32 (Raw.mk (-3) (-4))),
    Fails (Raw.isReduced i32 (Raw.mk (-3) (-4))),
    Fails (Raw.isReducedIgnoreSigns i32 (Raw.mk 6 8)),
    Fails (Raw.isReduced i32 (Raw.mk 6 8)),
    Fails (Raw.isReducedIgnoreSigns i32 (Raw.mk (-6) (-8))),
    Fails (Raw.isReduced i32 (Raw.mk (-6) (-8)))].all id = true := by
  decide +kernel

/-! A raw fraction can be queried about whether or not it's proper
    (`/repo/src/ieme/raw_fraction_queries.test.cpp:140`). -/

example : [
    Passes (Raw.isProper i32 (Raw.mk 3 4)),
    Fails (Raw.isImproper i32 (Raw.mk 3 4)),
    Passes (Raw.isProper i32 (Raw.mk (-3) 4)),
    Fails (Raw.isImproper i32 (Raw.mk (-3) 4)),
    Passes (Raw.isProper i32 (Raw.mk 3 (-4))),
    Fails (Raw.isImproper i32 (Raw.mk 3 (-4))),
    Passes (Raw.isProper i32 (Raw.mk (-3) (-4))),
    Fails (Raw.isImproper i32 (Raw.mk (-3) (-4))),
    Fails (Raw.isProper i32 (Raw.mk 5 4)),
    Passes (Raw.isImproper i32 (Raw.mk 5 4)),
    Fails (Raw.isProper i32 (Raw.mk (-5) 4)),
    Passes (Raw.isImproper i32 (Raw.mk (-5) 4)),
    Fails (Raw.isProper i32 (Raw.mk 5 (-4))),
    Passes (Raw.isImproper i32 (Raw.mk 5 (-4))),
    Fails (Raw.isProper i32 (Raw.mk (-5) (-4))),
    Passes (Raw.isImproper i32 (Raw.mk (-5) (-4)))].all id = true := by
  decide +kernel

/-! Two raw fractions can be identically compared
    (`/repo/src/ieme/raw_fraction_queries.test.cpp:184`). -/

example : [
    Passes (pure (Raw.areIdentical (Raw.mk 3 4) (Raw.mk 3 4))),
    Fails (pure (Raw.areDifferent (Raw.mk 3 4) (Raw.mk 3 4))),
    Fails (pure (Raw.areIdentical (Raw.mk 3 4) (Raw.mk (-3) 4))),
    Passes (pure (Raw.areDifferent (Raw.mk 3 4) (Raw.mk (-3) 4))),
    Fails (pure (Raw.areIdentical (Raw.mk 3 4) (Raw.mk 3 (-4)))),
    Passes (pure (Raw.areDifferent (Raw.mk 3 4) (Raw.mk 3 (-4)))),
    Fails (pure (Raw.areIdentical (Raw.mk 3 4) (Raw.mk (-3) (-4)))),
    Passes (pure (Raw.areDifferent (Raw.mk 3 4) (Raw.mk (-3) (-4)))),
    Fails (pure (Raw.areIdentical (Raw.mk (-3) 4) (Raw.mk 3 (-4)))),
    Passes (pure (Raw.areDifferent (Raw.mk (-3) 4) (Raw.mk 3 (-4)))),
    Fails (pure (Raw.areIdentical (Raw.mk (-3) 4) (Raw.mk (-3) (-4)))),
    Passes (pure (Raw.areDifferent (Raw.mk (-3) 4) (Raw.mk (-3) (-4)))),
    Fails (pure (Raw.areIdentical (Raw.mk 3 (-4)) (Raw.mk (-3) (-4)))),
    Passes (pure (Raw.areDifferent (Raw.mk 3 (-4)) (Raw.mk (-3) (-4))))].all id = true := by
  decide +kernel

end Ieme.Tests
