import Verif.Tests.Basic
import Verif.Model.Chrono
import Verif.Model.Literals
import Verif.Model.Limits
import Verif.Model.Hash

/-!
# `chrono.test.cpp`, `limits.test.cpp` and `hash.test.cpp` on the model

The assertions on types and on constants copied from `std::numeric_limits` are not statements
about values of the model and have no counterpart.
-/

namespace Ieme.Tests

open Chrono

/-- `std::micro` -/
def us : Period := ⟨1, 1000000, by decide, by decide, by decide⟩
/-- `std::nano`, the period of `std::chrono::system_clock` in libstdc++ -/
def ns : Period := ⟨1, 1000000000, by decide, by decide, by decide⟩
/-- `std::ratio<1>` -/
def sec : Period := ⟨1, 1, by decide, by decide, by decide⟩
/-- `std::ratio<60>` -/
def mins : Period := ⟨60, 1, by decide, by decide, by decide⟩
/-- `std::ratio<3600>` -/
def hour : Period := ⟨3600, 1, by decide, by decide, by decide⟩

/-! `/repo/src/ieme/chrono.test.cpp:15-37`. -/

example : [
    Passes (do let c ← convert i64 .defaults sec us (.int 1)
               Fraction.cmp i64 i32 .defaults .equalTo (.fr c 1000000)),
    Passes (do let c ← convert i64 .defaults mins hour (.int 30)
               let h ← DenLit.divRep i32 1 (DenLit.fr 2)
               Fraction.cmp i64 i32 .defaults .equalTo (.ff c h)),
    Passes (do let c ← toFractional i64 .defaults hour 62
               Fraction.cmp i64 i32 .defaults .equalTo (.fr c 62)),
    Passes (do let c ← toFractional i64 .defaults ns 57000000000
               let d ← convert i64 .defaults sec ns (.frac (Fraction.mk 57))
               Fraction.cmp i64 i64 .defaults .equalTo (.ff c d))].all id = true := by
  decide +kernel

/-! `/repo/src/ieme/limits.test.cpp:14-22,57-78`. -/

example : [
    Passes (Fraction.cmp i32 i32 .defaults .equalTo (.fr (Limits.max i32) i32.max)),
    Passes (Fraction.cmp i32 i32 .defaults .equalTo (.ff (Limits.smallest i32) (Fraction.mk 1
        i32.max))),
    Passes (pure Limits.undefined.isUndefined),
    Passes (Fraction.cmp i32 i32 .defaults .equalTo (.ff (Limits.stdMax i32) (Limits.max i32))),
    Passes (Fraction.cmp i32 i32 .defaults .equalTo (.ff (Limits.stdEpsilon i32) (Limits.smallest
        i32))),
    Passes (Fraction.cmp i32 i32 .defaults .equalTo (.fr Limits.stdRoundError 0)),
    Passes (Fraction.cmp i32 i32 .defaults .equalTo (.fr Limits.stdInfinity 0)),
    Passes (pure (Limits.stdQuietNaN.areIdentical Limits.undefined)),
    Passes (Fraction.cmp i32 i32 .defaults .equalTo (.fr Limits.stdSignalingNaN 0)),
    Passes (Fraction.cmp i32 i32 .defaults .equalTo (.fr Limits.stdDenormMin 0))].all id = true
        := by
  decide +kernel

/-! Three assertions compare `min()` (`/repo/src/ieme/limits.test.cpp:18,61-64`).  Reducing the
operand calls `std::gcd` with the least value of `int`, whose absolute value is not
representable: the behaviour is undefined, so the model gives no verdict. -/

example : [
    Fraction.cmp i32 i32 .defaults .equalTo (.fr (Limits.min i32) i32.min),
    Fraction.cmp i32 i32 .defaults .equalTo (.ff (Limits.stdMin i32) (Limits.min i32)),
    Fraction.cmp i32 i32 .defaults .equalTo (.fr (Limits.stdLowest i32) i32.min)]
      = List.replicate 3 (.fault .gcdPrecond) := by
  decide +kernel

/-! `/repo/src/ieme/hash.test.cpp` compares each hash with itself, which is true of any
function. -/

example : Hash.fraction (Hash.stdHash 64) ⟨-3, 4⟩ = Hash.fraction (Hash.stdHash 64) ⟨-3, 4⟩ := rfl

end Ieme.Tests
