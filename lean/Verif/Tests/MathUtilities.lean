import Verif.Tests.Basic
import Verif.Model.FractionMath

/-!
# `math_utilities.test.cpp` on the model

The 11 assertions below are those of `/repo/src/ieme/math_utilities.test.cpp`.
-/

namespace Ieme.Tests

/-! An integer's absolute value can be calculated at compile time
    (`/repo/src/ieme/math_utilities.test.cpp:11`). -/

example : [
    Passes (do
      let x1 ← mathAbs i32 5
      pure (decide (x1 = 5))),
    Passes (do
      let x2 ← mathAbs i32 0
      pure (decide (x2 = 0))),
    Passes (do
      let x3 ← mathAbs i32 (-5)
      pure (decide (x3 = 5)))].all id = true := by
  decide +kernel

/-! A power of 2 can be calculated at compile time (`/repo/src/ieme/math_utilities.test.cpp:19`).
    -/

example : [
    Passes (do
      let x1 ← mathPow2 i32 0
      pure (decide (x1 = 1))),
    Passes (do
      let x2 ← mathPow2 i32 10
      pure (decide (x2 = 1024)))].all id = true := by
  decide +kernel

/-! Arbitrary integer powers can be calculated at compile time
    (`/repo/src/ieme/math_utilities.test.cpp:25`). -/

example : [
    Passes (do
      let x1 ← mathPow i32 3 0
      pure (decide (x1 = 1))),
    Passes (do
      let x2 ← mathPow i32 3 1
      pure (decide (x2 = 3))),
    Passes (do
      let x3 ← mathPow i32 3 2
      pure (decide (x3 = 9))),
    Passes (do
      let x4 ← mathPow i32 3 3
      pure (decide (x4 = 27))),
    Passes (do
      let x5 ← mathPow i32 (-5) 8
      pure (decide (x5 = 390625))),
    Passes (do
      let x6 ← mathPow i32 (-5) 9
      pure (decide (x6 = (-1953125))))].all id = true := by
  decide +kernel

end Ieme.Tests
