import Verif.Tests.Basic
import Verif.Model.Raw

/-!
# `raw_fraction_math.test.cpp` on the model

The 17 assertions below are those of `/repo/src/ieme/raw_fraction_math.test.cpp`.
-/

namespace Ieme.Tests

/-! A raw fraction's reciprocal can be computed (`/repo/src/ieme/raw_fraction_math.test.cpp:12`).
    -/

example : [
    Passes (pure (Raw.areIdentical (Raw.reciprocal (Raw.mk (-12) 32)) (Raw.mk 32 (-12))))].all id
        = true := by
  decide +kernel

/-! Raw fractions can be normalized to cancel double negative signs or move a negative sign to
    the numerator (`/repo/src/ieme/raw_fraction_math.test.cpp:18`). -/

example : [
    Passes (do
      let x1 ← Raw.normalizeSigns i32 (Raw.mk 3 5)
      pure (Raw.areIdentical x1 (Raw.mk 3 5))),
    Passes (do
      let x2 ← Raw.normalizeSigns i32 (Raw.mk (-3) 5)
      pure (Raw.areIdentical x2 (Raw.mk (-3) 5))),
    Passes (do
      let x3 ← Raw.normalizeSigns i32 (Raw.mk 3 (-5))
      pure (Raw.areIdentical x3 (Raw.mk (-3) 5))),
    Passes (do
      let x4 ← Raw.normalizeSigns i32 (Raw.mk (-3) (-5))
      pure (Raw.areIdentical x4 (Raw.mk 3 5)))].all id = true := by
  decide +kernel

/-! A raw fraction can be reduced (`/repo/src/ieme/raw_fraction_math.test.cpp:32`). -/

example : [
    Passes (do
      let x1 ← Raw.reduce i32 .ignoreSigns (Raw.mk 12 32)
      pure (Raw.areIdentical x1 (Raw.mk 3 8))),
    Passes (do
      let x2 ← Raw.reduce i32 .normalizeSigns (Raw.mk 12 32)
      pure (Raw.areIdentical x2 (Raw.mk 3 8))),
    Passes (do
      let x3 ← Raw.reduce i32 .ignoreSigns (Raw.mk (-12) 32)
      pure (Raw.areIdentical x3 (Raw.mk (-3) 8))),
    Passes (do
      let x4 ← Raw.reduce i32 .normalizeSigns (Raw.mk (-12) 32)
      pure (Raw.areIdentical x4 (Raw.mk (-3) 8))),
    Passes (do
      let x5 ← Raw.reduce i32 .ignoreSigns (Raw.mk 12 (-32))
      pure (Raw.areIdentical x5 (Raw.mk 3 (-8)))),
    Passes (do
      let x6 ← Raw.reduce i32 .normalizeSigns (Raw.mk 12 (-32))
      pure (Raw.areIdentical x6 (Raw.mk (-3) 8))),
    Passes (do
      let x7 ← Raw.reduce i32 .ignoreSigns (Raw.mk (-12) (-32))
      pure (Raw.areIdentical x7 (Raw.mk (-3) (-8)))),
    Passes (do
      let x8 ← Raw.reduce i32 .normalizeSigns (Raw.mk (-12) (-32))
      pure (Raw.areIdentical x8 (Raw.mk 3 8))),
    Passes (do
      let x9 ← Raw.reduce i32 .ignoreSigns (Raw.mk (-3) (-8))
      pure (Raw.areIdentical x9 (Raw.mk (-3) (-8)))),
    Passes (do
      let x10 ← Raw.reduce i32 .normalizeSigns (Raw.mk (-3) (-8))
      pure (Raw.areIdentical x10 (Raw.mk 3 8))),
    Passes (do
      let x11 ← Raw.reduce i32 .ignoreSigns (Raw.mk (-12) 0)
      pure (Raw.areIdentical x11 (Raw.mk 0 0))),
    Passes (do
      let x12 ← Raw.reduce i32 .normalizeSigns (Raw.mk (-12) 0)
      pure (Raw.areIdentical x12 (Raw.mk 0 0)))].all id = true := by
  decide +kernel

end Ieme.Tests
