import Verif.Tests.Basic
import Verif.Model.Ops

/-!
# `ops.test.cpp` on the model

The 240 assertions of `/repo/src/ieme/ops.test.cpp` under each of its eight policies.
-/

namespace Ieme.Tests

/-- Equivalence (`/repo/src/ieme/ops.test.cpp:32`). -/
def opsEquivalence (o : Ops) : List Bool := [
    Passes (Ops.cmp i32 o .equalTo (.ff (Raw.mk 3 4) (Raw.mk 3 4))),
    Fails (Ops.cmp i32 o .notEqualTo (.ff (Raw.mk 3 4) (Raw.mk 3 4))),
    Passes (Ops.cmp i32 o .equalTo (.ff (Raw.mk (-3) 4) (Raw.mk (-3) 4))),
    Fails (Ops.cmp i32 o .notEqualTo (.ff (Raw.mk (-3) 4) (Raw.mk (-3) 4))),
    Passes (Ops.cmp i32 o .equalTo (.ff (Raw.mk 3 4) (Raw.mk (-3) (-4)))),
    Fails (Ops.cmp i32 o .notEqualTo (.ff (Raw.mk 3 4) (Raw.mk (-3) (-4)))),
    Passes (Ops.cmp i32 o .equalTo (.ff (Raw.mk (-3) 4) (Raw.mk 3 (-4)))),
    Fails (Ops.cmp i32 o .notEqualTo (.ff (Raw.mk (-3) 4) (Raw.mk 3 (-4)))),
    Passes (Ops.cmp i32 o .equalTo (.ff (Raw.mk 6 8) (Raw.mk 3 4))),
    Fails (Ops.cmp i32 o .notEqualTo (.ff (Raw.mk 6 8) (Raw.mk 3 4))),
    Passes (Ops.cmp i32 o .equalTo (.ff (Raw.mk (-6) 8) (Raw.mk (-3) 4))),
    Fails (Ops.cmp i32 o .notEqualTo (.ff (Raw.mk (-6) 8) (Raw.mk (-3) 4))),
    Passes (Ops.cmp i32 o .equalTo (.fr (Raw.mk 6 3) 2)),
    Fails (Ops.cmp i32 o .notEqualTo (.fr (Raw.mk 6 3) 2)),
    Passes (Ops.cmp i32 o .equalTo (.fr (Raw.mk (-6) 3) (-2))),
    Fails (Ops.cmp i32 o .notEqualTo (.fr (Raw.mk (-6) 3) (-2))),
    Passes (Ops.cmp i32 o .equalTo (.rf 2 (Raw.mk 6 3))),
    Fails (Ops.cmp i32 o .notEqualTo (.rf 2 (Raw.mk 6 3))),
    Passes (Ops.cmp i32 o .equalTo (.rf (-2) (Raw.mk (-6) 3))),
    Fails (Ops.cmp i32 o .notEqualTo (.rf (-2) (Raw.mk (-6) 3))),
    Fails (Ops.cmp i32 o .equalTo (.ff (Raw.mk 5 8) (Raw.mk 3 4))),
    Passes (Ops.cmp i32 o .notEqualTo (.ff (Raw.mk 5 8) (Raw.mk 3 4))),
    Fails (Ops.cmp i32 o .equalTo (.ff (Raw.mk (-5) 8) (Raw.mk (-3) 4))),
    Passes (Ops.cmp i32 o .notEqualTo (.ff (Raw.mk (-5) 8) (Raw.mk (-3) 4))),
    Fails (Ops.cmp i32 o .equalTo (.fr (Raw.mk 6 3) 5)),
    Passes (Ops.cmp i32 o .notEqualTo (.fr (Raw.mk 6 3) 5)),
    Fails (Ops.cmp i32 o .equalTo (.fr (Raw.mk (-6) 3) (-5))),
    Passes (Ops.cmp i32 o .notEqualTo (.fr (Raw.mk (-6) 3) (-5))),
    Fails (Ops.cmp i32 o .equalTo (.rf 5 (Raw.mk 6 3))),
    Passes (Ops.cmp i32 o .notEqualTo (.rf 5 (Raw.mk 6 3))),
    Fails (Ops.cmp i32 o .equalTo (.rf (-5) (Raw.mk (-6) 3))),
    Passes (Ops.cmp i32 o .notEqualTo (.rf (-5) (Raw.mk (-6) 3))),
    Fails (Ops.cmp i32 o .equalTo (.ff (Raw.mk (-5) 0) (Raw.mk 0 1))),
    Passes (Ops.cmp i32 o .notEqualTo (.ff (Raw.mk (-5) 0) (Raw.mk 0 1))),
    Fails (Ops.cmp i32 o .equalTo (.ff (Raw.mk 0 1) (Raw.mk (-5) 0))),
    Passes (Ops.cmp i32 o .notEqualTo (.ff (Raw.mk 0 1) (Raw.mk (-5) 0))),
    Fails (Ops.cmp i32 o .equalTo (.fr (Raw.mk (-5) 0) 2)),
    Passes (Ops.cmp i32 o .notEqualTo (.fr (Raw.mk (-5) 0) 2)),
    Fails (Ops.cmp i32 o .equalTo (.rf 2 (Raw.mk (-5) 0))),
    Passes (Ops.cmp i32 o .notEqualTo (.rf 2 (Raw.mk (-5) 0))),
    Fails (Ops.cmp i32 o .equalTo (.ff (Raw.mk (-5) 0) (Raw.mk (-5) 0))),
    Passes (Ops.cmp i32 o .notEqualTo (.ff (Raw.mk (-5) 0) (Raw.mk (-5) 0)))]

/-- Order (`/repo/src/ieme/ops.test.cpp:98`). -/
def opsOrder (o : Ops) : List Bool := [
    Fails (Ops.cmp i32 o .less (.ff (Raw.mk 3 4) (Raw.mk 3 4))),
    Passes (Ops.cmp i32 o .lessEqual (.ff (Raw.mk 3 4) (Raw.mk 3 4))),
    Fails (Ops.cmp i32 o .greater (.ff (Raw.mk 3 4) (Raw.mk 3 4))),
    Passes (Ops.cmp i32 o .greaterEqual (.ff (Raw.mk 3 4) (Raw.mk 3 4))),
    Fails (Ops.cmp i32 o .less (.ff (Raw.mk (-3) 4) (Raw.mk (-3) 4))),
    Passes (Ops.cmp i32 o .lessEqual (.ff (Raw.mk (-3) 4) (Raw.mk (-3) 4))),
    Fails (Ops.cmp i32 o .greater (.ff (Raw.mk (-3) 4) (Raw.mk (-3) 4))),
    Passes (Ops.cmp i32 o .greaterEqual (.ff (Raw.mk (-3) 4) (Raw.mk (-3) 4))),
    Fails (Ops.cmp i32 o .less (.ff (Raw.mk 3 4) (Raw.mk (-3) (-4)))),
    Passes (Ops.cmp i32 o .lessEqual (.ff (Raw.mk 3 4) (Raw.mk (-3) (-4)))),
    Fails (Ops.cmp i32 o .greater (.ff (Raw.mk 3 4) (Raw.mk (-3) (-4)))),
    Passes (Ops.cmp i32 o .greaterEqual (.ff (Raw.mk 3 4) (Raw.mk (-3) (-4)))),
    Fails (Ops.cmp i32 o .less (.ff (Raw.mk (-3) 4) (Raw.mk 3 (-4)))),
    Passes (Ops.cmp i32 o .lessEqual (.ff (Raw.mk (-3) 4) (Raw.mk 3 (-4)))),
    Fails (Ops.cmp i32 o .greater (.ff (Raw.mk (-3) 4) (Raw.mk 3 (-4)))),
    Passes (Ops.cmp i32 o .greaterEqual (.ff (Raw.mk (-3) 4) (Raw.mk 3 (-4)))),
    Fails (Ops.cmp i32 o .less (.ff (Raw.mk 6 8) (Raw.mk 3 4))),
    Passes (Ops.cmp i32 o .lessEqual (.ff (Raw.mk 6 8) (Raw.mk 3 4))),
    Fails (Ops.cmp i32 o .greater (.ff (Raw.mk 6 8) (Raw.mk 3 4))),
    Passes (Ops.cmp i32 o .greaterEqual (.ff (Raw.mk 6 8) (Raw.mk 3 4))),
    Fails (Ops.cmp i32 o .less (.ff (Raw.mk (-6) 8) (Raw.mk (-3) 4))),
    Passes (Ops.cmp i32 o .lessEqual (.ff (Raw.mk (-6) 8) (Raw.mk (-3) 4))),
    Fails (Ops.cmp i32 o .greater (.ff (Raw.mk (-6) 8) (Raw.mk (-3) 4))),
    Passes (Ops.cmp i32 o .greaterEqual (.ff (Raw.mk (-6) 8) (Raw.mk (-3) 4))),
    Fails (Ops.cmp i32 o .less (.fr (Raw.mk 6 3) 2)),
    Passes (Ops.cmp i32 o .lessEqual (.fr (Raw.mk 6 3) 2)),
    Fails (Ops.cmp i32 o .greater (.fr (Raw.mk 6 3) 2)),
    Passes (Ops.cmp i32 o .greaterEqual (.fr (Raw.mk 6 3) 2)),
    Fails (Ops.cmp i32 o .less (.fr (Raw.mk (-6) 3) (-2))),
    Passes (Ops.cmp i32 o .lessEqual (.fr (Raw.mk (-6) 3) (-2))),
    Fails (Ops.cmp i32 o .greater (.fr (Raw.mk (-6) 3) (-2))),
    Passes (Ops.cmp i32 o .greaterEqual (.fr (Raw.mk (-6) 3) (-2))),
    Fails (Ops.cmp i32 o .less (.rf 2 (Raw.mk 6 3))),
    Passes (Ops.cmp i32 o .lessEqual (.rf 2 (Raw.mk 6 3))),
    Fails (Ops.cmp i32 o .greater (.rf 2 (Raw.mk 6 3))),
    Passes (Ops.cmp i32 o .greaterEqual (.rf 2 (Raw.mk 6 3))),
    Fails (Ops.cmp i32 o .less (.rf (-2) (Raw.mk (-6) 3))),
    Passes (Ops.cmp i32 o .lessEqual (.rf (-2) (Raw.mk (-6) 3))),
    Fails (Ops.cmp i32 o .greater (.rf (-2) (Raw.mk (-6) 3))),
    Passes (Ops.cmp i32 o .greaterEqual (.rf (-2) (Raw.mk (-6) 3))),
    Passes (Ops.cmp i32 o .less (.ff (Raw.mk 1 4) (Raw.mk 3 4))),
    Passes (Ops.cmp i32 o .lessEqual (.ff (Raw.mk 1 4) (Raw.mk 3 4))),
    Fails (Ops.cmp i32 o .greater (.ff (Raw.mk 1 4) (Raw.mk 3 4))),
    Fails (Ops.cmp i32 o .greaterEqual (.ff (Raw.mk 1 4) (Raw.mk 3 4))),
    Passes (Ops.cmp i32 o .less (.ff (Raw.mk (-3) 4) (Raw.mk (-1) 4))),
    Passes (Ops.cmp i32 o .lessEqual (.ff (Raw.mk (-3) 4) (Raw.mk (-1) 4))),
    Fails (Ops.cmp i32 o .greater (.ff (Raw.mk (-3) 4) (Raw.mk (-1) 4))),
    Fails (Ops.cmp i32 o .greaterEqual (.ff (Raw.mk (-3) 4) (Raw.mk (-1) 4))),
    Passes (Ops.cmp i32 o .less (.ff (Raw.mk 1 2) (Raw.mk 3 4))),
    Passes (Ops.cmp i32 o .lessEqual (.ff (Raw.mk 1 2) (Raw.mk 3 4))),
    Fails (Ops.cmp i32 o .greater (.ff (Raw.mk 1 2) (Raw.mk 3 4))),
    Fails (Ops.cmp i32 o .greaterEqual (.ff (Raw.mk 1 2) (Raw.mk 3 4))),
    Passes (Ops.cmp i32 o .less (.ff (Raw.mk (-3) 4) (Raw.mk (-1) 2))),
    Passes (Ops.cmp i32 o .lessEqual (.ff (Raw.mk (-3) 4) (Raw.mk (-1) 2))),
    Fails (Ops.cmp i32 o .greater (.ff (Raw.mk (-3) 4) (Raw.mk (-1) 2))),
    Fails (Ops.cmp i32 o .greaterEqual (.ff (Raw.mk (-3) 4) (Raw.mk (-1) 2))),
    Passes (Ops.cmp i32 o .less (.fr (Raw.mk 7 3) 3)),
    Passes (Ops.cmp i32 o .lessEqual (.fr (Raw.mk 7 3) 3)),
    Fails (Ops.cmp i32 o .greater (.fr (Raw.mk 7 3) 3)),
    Fails (Ops.cmp i32 o .greaterEqual (.fr (Raw.mk 7 3) 3)),
    Passes (Ops.cmp i32 o .less (.fr (Raw.mk (-7) 3) (-2))),
    Passes (Ops.cmp i32 o .lessEqual (.fr (Raw.mk (-7) 3) (-2))),
    Fails (Ops.cmp i32 o .greater (.fr (Raw.mk (-7) 3) (-2))),
    Fails (Ops.cmp i32 o .greaterEqual (.fr (Raw.mk (-7) 3) (-2))),
    Passes (Ops.cmp i32 o .less (.rf 2 (Raw.mk 7 3))),
    Passes (Ops.cmp i32 o .lessEqual (.rf 2 (Raw.mk 7 3))),
    Fails (Ops.cmp i32 o .greater (.rf 2 (Raw.mk 7 3))),
    Fails (Ops.cmp i32 o .greaterEqual (.rf 2 (Raw.mk 7 3))),
    Passes (Ops.cmp i32 o .less (.rf (-3) (Raw.mk (-7) 3))),
    Passes (Ops.cmp i32 o .lessEqual (.rf (-3) (Raw.mk (-7) 3))),
    Fails (Ops.cmp i32 o .greater (.rf (-3) (Raw.mk (-7) 3))),
    Fails (Ops.cmp i32 o .greaterEqual (.rf (-3) (Raw.mk (-7) 3))),
    Fails (Ops.cmp i32 o .less (.ff (Raw.mk 3 4) (Raw.mk 1 4))),
    Fails (Ops.cmp i32 o .lessEqual (.ff (Raw.mk 3 4) (Raw.mk 1 4))),
    Passes (Ops.cmp i32 o .greater (.ff (Raw.mk 3 4) (Raw.mk 1 4))),
    Passes (Ops.cmp i32 o .greaterEqual (.ff (Raw.mk 3 4) (Raw.mk 1 4))),
    Fails (Ops.cmp i32 o .less (.ff (Raw.mk (-1) 4) (Raw.mk (-3) 4))),
    Fails (Ops.cmp i32 o .lessEqual (.ff (Raw.mk (-1) 4) (Raw.mk (-3) 4))),
    Passes (Ops.cmp i32 o .greater (.ff (Raw.mk (-1) 4) (Raw.mk (-3) 4))),
    Passes (Ops.cmp i32 o .greaterEqual (.ff (Raw.mk (-1) 4) (Raw.mk (-3) 4))),
    Fails (Ops.cmp i32 o .less (.ff (Raw.mk 3 4) (Raw.mk 1 2))),
    Fails (Ops.cmp i32 o .lessEqual (.ff (Raw.mk 3 4) (Raw.mk 1 2))),
    Passes (Ops.cmp i32 o .greater (.ff (Raw.mk 3 4) (Raw.mk 1 2))),
    Passes (Ops.cmp i32 o .greaterEqual (.ff (Raw.mk 3 4) (Raw.mk 1 2))),
    Fails (Ops.cmp i32 o .less (.ff (Raw.mk (-1) 2) (Raw.mk (-3) 4))),
    Fails (Ops.cmp i32 o .lessEqual (.ff (Raw.mk (-1) 2) (Raw.mk (-3) 4))),
    Passes (Ops.cmp i32 o .greater (.ff (Raw.mk (-1) 2) (Raw.mk (-3) 4))),
    Passes (Ops.cmp i32 o .greaterEqual (.ff (Raw.mk (-1) 2) (Raw.mk (-3) 4))),
    Fails (Ops.cmp i32 o .less (.fr (Raw.mk 7 3) 2)),
    Fails (Ops.cmp i32 o .lessEqual (.fr (Raw.mk 7 3) 2)),
    Passes (Ops.cmp i32 o .greater (.fr (Raw.mk 7 3) 2)),
    Passes (Ops.cmp i32 o .greaterEqual (.fr (Raw.mk 7 3) 2)),
    Fails (Ops.cmp i32 o .less (.fr (Raw.mk (-7) 3) (-3))),
    Fails (Ops.cmp i32 o .lessEqual (.fr (Raw.mk (-7) 3) (-3))),
    Passes (Ops.cmp i32 o .greater (.fr (Raw.mk (-7) 3) (-3))),
    Passes (Ops.cmp i32 o .greaterEqual (.fr (Raw.mk (-7) 3) (-3))),
    Fails (Ops.cmp i32 o .less (.rf 3 (Raw.mk 7 3))),
    Fails (Ops.cmp i32 o .lessEqual (.rf 3 (Raw.mk 7 3))),
    Passes (Ops.cmp i32 o .greater (.rf 3 (Raw.mk 7 3))),
    Passes (Ops.cmp i32 o .greaterEqual (.rf 3 (Raw.mk 7 3))),
    Fails (Ops.cmp i32 o .less (.rf (-2) (Raw.mk (-7) 3))),
    Fails (Ops.cmp i32 o .lessEqual (.rf (-2) (Raw.mk (-7) 3))),
    Passes (Ops.cmp i32 o .greater (.rf (-2) (Raw.mk (-7) 3))),
    Passes (Ops.cmp i32 o .greaterEqual (.rf (-2) (Raw.mk (-7) 3))),
    Fails (Ops.cmp i32 o .less (.ff (Raw.mk (-5) 0) (Raw.mk 0 1))),
    Fails (Ops.cmp i32 o .lessEqual (.ff (Raw.mk (-5) 0) (Raw.mk 0 1))),
    Fails (Ops.cmp i32 o .greater (.ff (Raw.mk (-5) 0) (Raw.mk 0 1))),
    Fails (Ops.cmp i32 o .greaterEqual (.ff (Raw.mk (-5) 0) (Raw.mk 0 1))),
    Fails (Ops.cmp i32 o .less (.ff (Raw.mk 0 1) (Raw.mk (-5) 0))),
    Fails (Ops.cmp i32 o .lessEqual (.ff (Raw.mk 0 1) (Raw.mk (-5) 0))),
    Fails (Ops.cmp i32 o .greater (.ff (Raw.mk 0 1) (Raw.mk (-5) 0))),
    Fails (Ops.cmp i32 o .greaterEqual (.ff (Raw.mk 0 1) (Raw.mk (-5) 0))),
    Fails (Ops.cmp i32 o .less (.fr (Raw.mk (-5) 0) 2)),
    Fails (Ops.cmp i32 o .lessEqual (.fr (Raw.mk (-5) 0) 2)),
    Fails (Ops.cmp i32 o .greater (.fr (Raw.mk (-5) 0) 2)),
    Fails (Ops.cmp i32 o .greaterEqual (.fr (Raw.mk (-5) 0) 2)),
    Fails (Ops.cmp i32 o .less (.rf 2 (Raw.mk (-5) 0))),
    Fails (Ops.cmp i32 o .lessEqual (.rf 2 (Raw.mk (-5) 0))),
    Fails (Ops.cmp i32 o .greater (.rf 2 (Raw.mk (-5) 0))),
    Fails (Ops.cmp i32 o .greaterEqual (.rf 2 (Raw.mk (-5) 0))),
    Fails (Ops.cmp i32 o .less (.ff (Raw.mk (-5) 0) (Raw.mk (-5) 0))),
    Fails (Ops.cmp i32 o .lessEqual (.ff (Raw.mk (-5) 0) (Raw.mk (-5) 0))),
    Fails (Ops.cmp i32 o .greater (.ff (Raw.mk (-5) 0) (Raw.mk (-5) 0))),
    Fails (Ops.cmp i32 o .greaterEqual (.ff (Raw.mk (-5) 0) (Raw.mk (-5) 0)))]

/-- Negate (`/repo/src/ieme/ops.test.cpp:256`). -/
def opsNegate (o : Ops) : List Bool := [
    Passes (do
      let x1 ← Ops.negate i32 o (Raw.mk 2 5)
      Ops.cmp i32 o .equalTo (.ff x1 (Raw.mk (-2) 5))),
    Passes (do
      let x2 ← Ops.negate i32 o (Raw.mk (-2) 5)
      Ops.cmp i32 o .equalTo (.ff x2 (Raw.mk 2 5)))]

/-- Plus (`/repo/src/ieme/ops.test.cpp:262`). -/
def opsPlus (o : Ops) : List Bool := [
    Passes (do
      let x1 ← Ops.arith i32 o .plus (.ff (Raw.mk 2 5) (Raw.mk 1 5))
      Ops.cmp i32 o .equalTo (.ff x1 (Raw.mk 3 5))),
    Passes (do
      let x2 ← Ops.arith i32 o .plus (.ff (Raw.mk 2 5) (Raw.mk (-1) 5))
      Ops.cmp i32 o .equalTo (.ff x2 (Raw.mk 1 5))),
    Passes (do
      let x3 ← Ops.arith i32 o .plus (.ff (Raw.mk (-2) 5) (Raw.mk 1 5))
      Ops.cmp i32 o .equalTo (.ff x3 (Raw.mk (-1) 5))),
    Passes (do
      let x4 ← Ops.arith i32 o .plus (.ff (Raw.mk (-2) 5) (Raw.mk (-1) 5))
      Ops.cmp i32 o .equalTo (.ff x4 (Raw.mk (-3) 5))),
    Passes (do
      let x5 ← Ops.arith i32 o .plus (.ff (Raw.mk 3 4) (Raw.mk 1 3))
      Ops.cmp i32 o .equalTo (.ff x5 (Raw.mk 13 12))),
    Passes (do
      let x6 ← Ops.arith i32 o .plus (.ff (Raw.mk 3 4) (Raw.mk (-1) 3))
      Ops.cmp i32 o .equalTo (.ff x6 (Raw.mk 5 12))),
    Passes (do
      let x7 ← Ops.arith i32 o .plus (.ff (Raw.mk (-3) 4) (Raw.mk 1 3))
      Ops.cmp i32 o .equalTo (.ff x7 (Raw.mk (-5) 12))),
    Passes (do
      let x8 ← Ops.arith i32 o .plus (.ff (Raw.mk (-3) 4) (Raw.mk (-1) 3))
      Ops.cmp i32 o .equalTo (.ff x8 (Raw.mk (-13) 12))),
    Passes (do
      let x9 ← Ops.arith i32 o .plus (.fr (Raw.mk 2 5) 2)
      Ops.cmp i32 o .equalTo (.ff x9 (Raw.mk 12 5))),
    Passes (do
      let x10 ← Ops.arith i32 o .plus (.fr (Raw.mk 2 5) (-2))
      Ops.cmp i32 o .equalTo (.ff x10 (Raw.mk (-8) 5))),
    Passes (do
      let x11 ← Ops.arith i32 o .plus (.fr (Raw.mk (-2) 5) 2)
      Ops.cmp i32 o .equalTo (.ff x11 (Raw.mk 8 5))),
    Passes (do
      let x12 ← Ops.arith i32 o .plus (.fr (Raw.mk (-2) 5) (-2))
      Ops.cmp i32 o .equalTo (.ff x12 (Raw.mk (-12) 5))),
    Passes (do
      let x13 ← Ops.arith i32 o .plus (.rf 2 (Raw.mk 2 3))
      Ops.cmp i32 o .equalTo (.ff x13 (Raw.mk 8 3))),
    Passes (do
      let x14 ← Ops.arith i32 o .plus (.rf 2 (Raw.mk (-2) 3))
      Ops.cmp i32 o .equalTo (.ff x14 (Raw.mk 4 3))),
    Passes (do
      let x15 ← Ops.arith i32 o .plus (.rf (-2) (Raw.mk 2 3))
      Ops.cmp i32 o .equalTo (.ff x15 (Raw.mk (-4) 3))),
    Passes (do
      let x16 ← Ops.arith i32 o .plus (.rf (-2) (Raw.mk (-2) 3))
      Ops.cmp i32 o .equalTo (.ff x16 (Raw.mk (-8) 3)))]

/-- Minus (`/repo/src/ieme/ops.test.cpp:285`). -/
def opsMinus (o : Ops) : List Bool := [
    Passes (do
      let x1 ← Ops.arith i32 o .minus (.ff (Raw.mk 2 5) (Raw.mk 1 5))
      Ops.cmp i32 o .equalTo (.ff x1 (Raw.mk 1 5))),
    Passes (do
      let x2 ← Ops.arith i32 o .minus (.ff (Raw.mk 2 5) (Raw.mk (-1) 5))
      Ops.cmp i32 o .equalTo (.ff x2 (Raw.mk 3 5))),
    Passes (do
      let x3 ← Ops.arith i32 o .minus (.ff (Raw.mk (-2) 5) (Raw.mk 1 5))
      Ops.cmp i32 o .equalTo (.ff x3 (Raw.mk (-3) 5))),
    Passes (do
      let x4 ← Ops.arith i32 o .minus (.ff (Raw.mk (-2) 5) (Raw.mk (-1) 5))
      Ops.cmp i32 o .equalTo (.ff x4 (Raw.mk (-1) 5))),
    Passes (do
      let x5 ← Ops.arith i32 o .minus (.ff (Raw.mk 3 4) (Raw.mk 1 3))
      Ops.cmp i32 o .equalTo (.ff x5 (Raw.mk 5 12))),
    Passes (do
      let x6 ← Ops.arith i32 o .minus (.ff (Raw.mk 3 4) (Raw.mk (-1) 3))
      Ops.cmp i32 o .equalTo (.ff x6 (Raw.mk 13 12))),
    Passes (do
      let x7 ← Ops.arith i32 o .minus (.ff (Raw.mk (-3) 4) (Raw.mk 1 3))
      Ops.cmp i32 o .equalTo (.ff x7 (Raw.mk (-13) 12))),
    Passes (do
      let x8 ← Ops.arith i32 o .minus (.ff (Raw.mk (-3) 4) (Raw.mk (-1) 3))
      Ops.cmp i32 o .equalTo (.ff x8 (Raw.mk (-5) 12))),
    Passes (do
      let x9 ← Ops.arith i32 o .minus (.fr (Raw.mk 2 5) 2)
      Ops.cmp i32 o .equalTo (.ff x9 (Raw.mk (-8) 5))),
    Passes (do
      let x10 ← Ops.arith i32 o .minus (.fr (Raw.mk 2 5) (-2))
      Ops.cmp i32 o .equalTo (.ff x10 (Raw.mk 12 5))),
    Passes (do
      let x11 ← Ops.arith i32 o .minus (.fr (Raw.mk (-2) 5) 2)
      Ops.cmp i32 o .equalTo (.ff x11 (Raw.mk (-12) 5))),
    Passes (do
      let x12 ← Ops.arith i32 o .minus (.fr (Raw.mk (-2) 5) (-2))
      Ops.cmp i32 o .equalTo (.ff x12 (Raw.mk 8 5))),
    Passes (do
      let x13 ← Ops.arith i32 o .minus (.rf 2 (Raw.mk 2 3))
      Ops.cmp i32 o .equalTo (.ff x13 (Raw.mk 4 3))),
    Passes (do
      let x14 ← Ops.arith i32 o .minus (.rf 2 (Raw.mk (-2) 3))
      Ops.cmp i32 o .equalTo (.ff x14 (Raw.mk 8 3))),
    Passes (do
      let x15 ← Ops.arith i32 o .minus (.rf (-2) (Raw.mk 2 3))
      Ops.cmp i32 o .equalTo (.ff x15 (Raw.mk (-8) 3))),
    Passes (do
      let x16 ← Ops.arith i32 o .minus (.rf (-2) (Raw.mk (-2) 3))
      Ops.cmp i32 o .equalTo (.ff x16 (Raw.mk (-4) 3)))]

/-- Multiplies (`/repo/src/ieme/ops.test.cpp:308`). -/
def opsMultiplies (o : Ops) : List Bool := [
    Passes (do
      let x1 ← Ops.arith i32 o .multiplies (.ff (Raw.mk 3 4) (Raw.mk 2 3))
      Ops.cmp i32 o .equalTo (.ff x1 (Raw.mk 1 2))),
    Passes (do
      let x2 ← Ops.arith i32 o .multiplies (.ff (Raw.mk 3 4) (Raw.mk (-2) 3))
      Ops.cmp i32 o .equalTo (.ff x2 (Raw.mk (-1) 2))),
    Passes (do
      let x3 ← Ops.arith i32 o .multiplies (.ff (Raw.mk (-3) 4) (Raw.mk 2 3))
      Ops.cmp i32 o .equalTo (.ff x3 (Raw.mk (-1) 2))),
    Passes (do
      let x4 ← Ops.arith i32 o .multiplies (.ff (Raw.mk (-3) 4) (Raw.mk (-2) 3))
      Ops.cmp i32 o .equalTo (.ff x4 (Raw.mk 1 2))),
    Passes (do
      let x5 ← Ops.arith i32 o .multiplies (.fr (Raw.mk 2 5) 3)
      Ops.cmp i32 o .equalTo (.ff x5 (Raw.mk 6 5))),
    Passes (do
      let x6 ← Ops.arith i32 o .multiplies (.fr (Raw.mk 2 5) (-3))
      Ops.cmp i32 o .equalTo (.ff x6 (Raw.mk (-6) 5))),
    Passes (do
      let x7 ← Ops.arith i32 o .multiplies (.fr (Raw.mk (-2) 5) 3)
      Ops.cmp i32 o .equalTo (.ff x7 (Raw.mk (-6) 5))),
    Passes (do
      let x8 ← Ops.arith i32 o .multiplies (.fr (Raw.mk (-2) 5) (-3))
      Ops.cmp i32 o .equalTo (.ff x8 (Raw.mk 6 5))),
    Passes (do
      let x9 ← Ops.arith i32 o .multiplies (.rf 3 (Raw.mk 2 3))
      Ops.cmp i32 o .equalTo (.ff x9 (Raw.mk 6 3))),
    Passes (do
      let x10 ← Ops.arith i32 o .multiplies (.rf 3 (Raw.mk (-2) 3))
      Ops.cmp i32 o .equalTo (.ff x10 (Raw.mk (-6) 3))),
    Passes (do
      let x11 ← Ops.arith i32 o .multiplies (.rf (-3) (Raw.mk 2 3))
      Ops.cmp i32 o .equalTo (.ff x11 (Raw.mk (-6) 3))),
    Passes (do
      let x12 ← Ops.arith i32 o .multiplies (.rf (-3) (Raw.mk (-2) 3))
      Ops.cmp i32 o .equalTo (.ff x12 (Raw.mk 6 3)))]

/-- Divides (`/repo/src/ieme/ops.test.cpp:326`). -/
def opsDivides (o : Ops) : List Bool := [
    Passes (do
      let x1 ← Ops.arith i32 o .divides (.ff (Raw.mk 3 4) (Raw.mk 3 2))
      Ops.cmp i32 o .equalTo (.ff x1 (Raw.mk 1 2))),
    Passes (do
      let x2 ← Ops.arith i32 o .divides (.ff (Raw.mk 3 4) (Raw.mk (-3) 2))
      Ops.cmp i32 o .equalTo (.ff x2 (Raw.mk (-1) 2))),
    Passes (do
      let x3 ← Ops.arith i32 o .divides (.ff (Raw.mk (-3) 4) (Raw.mk 3 2))
      Ops.cmp i32 o .equalTo (.ff x3 (Raw.mk (-1) 2))),
    Passes (do
      let x4 ← Ops.arith i32 o .divides (.ff (Raw.mk (-3) 4) (Raw.mk (-3) 2))
      Ops.cmp i32 o .equalTo (.ff x4 (Raw.mk 1 2))),
    Passes (do
      let x5 ← Ops.arith i32 o .divides (.fr (Raw.mk 2 5) 3)
      Ops.cmp i32 o .equalTo (.ff x5 (Raw.mk 2 15))),
    Passes (do
      let x6 ← Ops.arith i32 o .divides (.fr (Raw.mk 2 5) (-3))
      Ops.cmp i32 o .equalTo (.ff x6 (Raw.mk (-2) 15))),
    Passes (do
      let x7 ← Ops.arith i32 o .divides (.fr (Raw.mk (-2) 5) 3)
      Ops.cmp i32 o .equalTo (.ff x7 (Raw.mk (-2) 15))),
    Passes (do
      let x8 ← Ops.arith i32 o .divides (.fr (Raw.mk (-2) 5) (-3))
      Ops.cmp i32 o .equalTo (.ff x8 (Raw.mk 2 15))),
    Passes (do
      let x9 ← Ops.arith i32 o .divides (.rf 3 (Raw.mk 3 2))
      Ops.cmp i32 o .equalTo (.ff x9 (Raw.mk 6 3))),
    Passes (do
      let x10 ← Ops.arith i32 o .divides (.rf 3 (Raw.mk (-3) 2))
      Ops.cmp i32 o .equalTo (.ff x10 (Raw.mk (-6) 3))),
    Passes (do
      let x11 ← Ops.arith i32 o .divides (.rf (-3) (Raw.mk 3 2))
      Ops.cmp i32 o .equalTo (.ff x11 (Raw.mk (-6) 3))),
    Passes (do
      let x12 ← Ops.arith i32 o .divides (.rf (-3) (Raw.mk (-3) 2))
      Ops.cmp i32 o .equalTo (.ff x12 (Raw.mk 6 3)))]

/-- Modulus (`/repo/src/ieme/ops.test.cpp:344`). -/
def opsModulus (o : Ops) : List Bool := [
    Passes (do
      let x1 ← Ops.arith i32 o .modulus (.ff (Raw.mk 9 11) (Raw.mk 5 11))
      Ops.cmp i32 o .equalTo (.ff x1 (Raw.mk 4 11))),
    Passes (do
      let x2 ← Ops.arith i32 o .modulus (.ff (Raw.mk 9 11) (Raw.mk (-5) 11))
      Ops.cmp i32 o .equalTo (.ff x2 (Raw.mk 4 11))),
    Passes (do
      let x3 ← Ops.arith i32 o .modulus (.ff (Raw.mk (-9) 11) (Raw.mk 5 11))
      Ops.cmp i32 o .equalTo (.ff x3 (Raw.mk (-4) 11))),
    Passes (do
      let x4 ← Ops.arith i32 o .modulus (.ff (Raw.mk (-9) 11) (Raw.mk (-5) 11))
      Ops.cmp i32 o .equalTo (.ff x4 (Raw.mk (-4) 11))),
    Passes (do
      let x5 ← Ops.arith i32 o .modulus (.ff (Raw.mk 4 7) (Raw.mk 2 5))
      Ops.cmp i32 o .equalTo (.ff x5 (Raw.mk 6 35))),
    Passes (do
      let x6 ← Ops.arith i32 o .modulus (.ff (Raw.mk 4 7) (Raw.mk (-2) 5))
      Ops.cmp i32 o .equalTo (.ff x6 (Raw.mk 6 35))),
    Passes (do
      let x7 ← Ops.arith i32 o .modulus (.ff (Raw.mk (-4) 7) (Raw.mk 2 5))
      Ops.cmp i32 o .equalTo (.ff x7 (Raw.mk (-6) 35))),
    Passes (do
      let x8 ← Ops.arith i32 o .modulus (.ff (Raw.mk (-4) 7) (Raw.mk (-2) 5))
      Ops.cmp i32 o .equalTo (.ff x8 (Raw.mk (-6) 35))),
    Passes (do
      let x9 ← Ops.arith i32 o .modulus (.fr (Raw.mk 12 5) 2)
      Ops.cmp i32 o .equalTo (.ff x9 (Raw.mk 2 5))),
    Passes (do
      let x10 ← Ops.arith i32 o .modulus (.fr (Raw.mk 12 5) (-2))
      Ops.cmp i32 o .equalTo (.ff x10 (Raw.mk 2 5))),
    Passes (do
      let x11 ← Ops.arith i32 o .modulus (.fr (Raw.mk (-12) 5) 2)
      Ops.cmp i32 o .equalTo (.ff x11 (Raw.mk (-2) 5))),
    Passes (do
      let x12 ← Ops.arith i32 o .modulus (.fr (Raw.mk (-12) 5) (-2))
      Ops.cmp i32 o .equalTo (.ff x12 (Raw.mk (-2) 5))),
    Passes (do
      let x13 ← Ops.arith i32 o .modulus (.rf 2 (Raw.mk 3 7))
      Ops.cmp i32 o .equalTo (.ff x13 (Raw.mk 2 7))),
    Passes (do
      let x14 ← Ops.arith i32 o .modulus (.rf 2 (Raw.mk (-3) 7))
      Ops.cmp i32 o .equalTo (.ff x14 (Raw.mk 2 7))),
    Passes (do
      let x15 ← Ops.arith i32 o .modulus (.rf (-2) (Raw.mk 3 7))
      Ops.cmp i32 o .equalTo (.ff x15 (Raw.mk (-2) 7))),
    Passes (do
      let x16 ← Ops.arith i32 o .modulus (.rf (-2) (Raw.mk (-3) 7))
      Ops.cmp i32 o .equalTo (.ff x16 (Raw.mk (-2) 7)))]

/-- The policies of the test, lines 22-29. -/
def opsPolicies : List Ops :=
  [.safe, Ops.safeReducedI, Ops.safeReducedO, Ops.safeReducedIO,
   .fast, Ops.fastReducedI, Ops.fastReducedO, Ops.fastReducedIO]

example : (opsPolicies.all fun o => (opsEquivalence o).all id) = true := by
  decide +kernel

example : (opsPolicies.all fun o => (opsOrder o).all id) = true := by
  decide +kernel

example : (opsPolicies.all fun o => (opsNegate o).all id) = true := by
  decide +kernel

example : (opsPolicies.all fun o => (opsPlus o).all id) = true := by
  decide +kernel

example : (opsPolicies.all fun o => (opsMinus o).all id) = true := by
  decide +kernel

example : (opsPolicies.all fun o => (opsMultiplies o).all id) = true := by
  decide +kernel

example : (opsPolicies.all fun o => (opsDivides o).all id) = true := by
  decide +kernel

example : (opsPolicies.all fun o => (opsModulus o).all id) = true := by
  decide +kernel

end Ieme.Tests
