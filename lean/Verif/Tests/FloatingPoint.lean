import Verif.Tests.Basic
import Verif.Model.FloatingPoint
import Verif.Model.Parse
import Verif.Model.Literals

/-!
# `floating_point.test.cpp` on the model

Floating-point literals are written as bit patterns; `long double` is the 80-bit format.  The 92
    assertions below are those of `/repo/src/ieme/floating_point.test.cpp`.
-/

namespace Ieme.Tests

/-! Floats can be converted to fractions (`/repo/src/ieme/floating_point.test.cpp:13`). -/

example : [
    Passes (do
      let x1 ← FloatingPoint.toFraction .little binary32 i32 .defaults 0x41c00000
      Fraction.cmp i32 i32 .defaults .equalTo (.fr x1 24)),
    Passes (do
      let x2 ← FloatingPoint.toFraction .little binary32 i32 .defaults 0x3ec00000
      let x3 ← DenLit.divRep i32 3 (DenLit.fr 8)
      Fraction.cmp i32 i32 .defaults .equalTo (.ff x2 x3)),
    Passes (do
      let x5 ← FloatingPoint.toFraction .little binary32 i32 .defaults (binary32.withSign true
          0x42008000)
      let x4 ← DenLit.divRep i32 1 (DenLit.fr 8)
      let x6 ← Fraction.arith i32 i32 .defaults .minus (.rf (-32) x4)
      Fraction.cmp i32 i32 .defaults .equalTo (.ff x5 x6)),
    Passes (do
      let x7 ← FloatingPoint.toFraction .little binary32 i32 .defaults (binary32.div 0x0 0x0)
      pure (Raw.isUndefined x7)),
    Passes (do
      let x8 ← FloatingPoint.toFraction .little binary64 i64 .defaults 0x4038000000000000
      Fraction.cmp i64 i32 .defaults .equalTo (.fr x8 24)),
    Passes (do
      let x9 ← FloatingPoint.toFraction .little binary64 i64 .defaults 0x3fd8000000000000
      let x10 ← DenLit.divRep i32 3 (DenLit.fr 8)
      Fraction.cmp i64 i32 .defaults .equalTo (.ff x9 x10)),
    Passes (do
      let x12 ← FloatingPoint.toFraction .little binary64 i64 .defaults (binary64.withSign true
          0x4040100000000000)
      let x11 ← DenLit.divRep i32 1 (DenLit.fr 8)
      let x13 ← Fraction.arith i32 i32 .defaults .minus (.rf (-32) x11)
      Fraction.cmp i64 i32 .defaults .equalTo (.ff x12 x13)),
    Passes (do
      let x14 ← FloatingPoint.toFraction .little binary32 i64 .defaults (binary32.div 0x0 0x0)
      pure (Raw.isUndefined x14))].all id = true := by
  decide +kernel

/-! Fractions can be converted to floats (`/repo/src/ieme/floating_point.test.cpp:26`). -/

example : [
    Passes (do
      let x1 ← DenLit.divRep i32 24 (DenLit.fr 1)
      let x2 ← FloatingPoint.ofFraction binary32 i32 x1
      pure (decide (x2 = 0x41c00000))),
    Passes (do
      let x3 ← DenLit.divRep i32 3 (DenLit.fr 8)
      let x4 ← FloatingPoint.ofFraction binary32 i32 x3
      pure (decide (x4 = 0x3ec00000))),
    Passes (do
      let x5 ← DenLit.divRep i32 1 (DenLit.fr 8)
      let x6 ← Fraction.arith i32 i32 .defaults .minus (.rf (-32) x5)
      let x7 ← FloatingPoint.ofFraction binary32 i32 x6
      pure (decide (x7 = (binary32.withSign true 0x42008000)))),
    Passes (do
      let x8 ← DenLit.divRep i32 24 (DenLit.fr 1)
      let x9 ← FloatingPoint.ofFraction binary64 i32 x8
      pure (decide (x9 = 0x4038000000000000))),
    Passes (do
      let x10 ← DenLit.divRep i32 3 (DenLit.fr 8)
      let x11 ← FloatingPoint.ofFraction binary64 i32 x10
      pure (decide (x11 = 0x3fd8000000000000))),
    Passes (do
      let x12 ← DenLit.divRep i32 1 (DenLit.fr 8)
      let x13 ← Fraction.arith i32 i32 .defaults .minus (.rf (-32) x12)
      let x14 ← FloatingPoint.ofFraction binary64 i32 x13
      pure (decide (x14 = (binary64.withSign true 0x4040100000000000)))),
    Passes (do
      let x15 ← DenLit.divRep i32 24 (DenLit.fr 1)
      let x16 ← FloatingPoint.ofFraction extended80 i32 x15
      pure (decide (x16 = 0x2001c000000000000000))),
    Passes (do
      let x17 ← DenLit.divRep i32 3 (DenLit.fr 8)
      let x18 ← FloatingPoint.ofFraction extended80 i32 x17
      pure (decide (x18 = 0x1ffec000000000000000))),
    Passes (do
      let x19 ← DenLit.divRep i32 1 (DenLit.fr 8)
      let x20 ← Fraction.arith i32 i32 .defaults .minus (.rf (-32) x19)
      let x21 ← FloatingPoint.ofFraction extended80 i32 x20
      pure (decide (x21 = (extended80.withSign true 0x20020080000000000000))))].all id = true :=
          by
  decide +kernel

/-! Floating point strings can be converted to fractions
    (`/repo/src/ieme/floating_point.test.cpp:41`). -/

example : [
    Passes (do
      let x1 ← Parse.toFraction i32 .defaults "0.".toList
      Fraction.cmp i32 i32 .defaults .equalTo (.fr x1 0)),
    Passes (do
      let x2 ← Parse.toFraction i32 .defaults "0.0".toList
      Fraction.cmp i32 i32 .defaults .equalTo (.fr x2 0)),
    Passes (do
      let x3 ← Parse.toFraction i32 .defaults ".0".toList
      Fraction.cmp i32 i32 .defaults .equalTo (.fr x3 0)),
    Passes (do
      let x4 ← Parse.toFraction i32 .defaults "5.".toList
      Fraction.cmp i32 i32 .defaults .equalTo (.fr x4 5)),
    Passes (do
      let x5 ← Parse.toFraction i32 .defaults "5.0".toList
      Fraction.cmp i32 i32 .defaults .equalTo (.fr x5 5)),
    Passes (do
      let x6 ← Parse.toFraction i32 .defaults ".5".toList
      let x7 ← DenLit.divRep i32 1 (DenLit.fr 2)
      Fraction.cmp i32 i32 .defaults .equalTo (.ff x6 x7)),
    Passes (do
      let x9 ← Parse.toFraction i32 .defaults "5.5".toList
      let x8 ← DenLit.divRep i32 1 (DenLit.fr 2)
      let x10 ← Fraction.arith i32 i32 .defaults .plus (.rf 5 x8)
      Fraction.cmp i32 i32 .defaults .equalTo (.ff x9 x10)),
    Passes (do
      let x12 ← Parse.toFraction i32 .defaults "58.025".toList
      let x11 ← DenLit.divRep i32 1 (DenLit.fr 40)
      let x13 ← Fraction.arith i32 i32 .defaults .plus (.rf 58 x11)
      Fraction.cmp i32 i32 .defaults .equalTo (.ff x12 x13)),
    Passes (do
      let x14 ← Parse.toFraction i32 .defaults "0.07".toList
      let x15 ← DenLit.divRep i32 7 (DenLit.fr 100)
      Fraction.cmp i32 i32 .defaults .equalTo (.ff x14 x15)),
    Passes (do
      let x16 ← Parse.toFraction i32 .defaults "0.0E1".toList
      Fraction.cmp i32 i32 .defaults .equalTo (.fr x16 0)),
    Passes (do
      let x17 ← Parse.toFraction i32 .defaults "0.0e+1".toList
      Fraction.cmp i32 i32 .defaults .equalTo (.fr x17 0)),
    Passes (do
      let x18 ← Parse.toFraction i32 .defaults "0.0E-1".toList
      Fraction.cmp i32 i32 .defaults .equalTo (.fr x18 0)),
    Passes (do
      let x19 ← Parse.toFraction i32 .defaults "9.0e1".toList
      Fraction.cmp i32 i32 .defaults .equalTo (.fr x19 90)),
    Passes (do
      let x20 ← Parse.toFraction i32 .defaults "9.0E+4".toList
      Fraction.cmp i32 i32 .defaults .equalTo (.fr x20 90000)),
    Passes (do
      let x21 ← Parse.toFraction i32 .defaults "39.0e-1".toList
      let x22 ← DenLit.divRep i32 39 (DenLit.fr 10)
      Fraction.cmp i32 i32 .defaults .equalTo (.ff x21 x22)),
    Passes (do
      let x23 ← Parse.toFraction i32 .defaults "4.3E2".toList
      Fraction.cmp i32 i32 .defaults .equalTo (.fr x23 430)),
    Passes (do
      let x24 ← Parse.toFraction i64 .defaults "4'9.3'9e-1'0".toList
      let x25 ← DenLit.divRep i64 4939 (DenLit.fr 1000000000000)
      Fraction.cmp i64 i64 .defaults .equalTo (.ff x24 x25)),
    Passes (do
      let x26 ← Parse.toFraction i32 .defaults "0X0.p0".toList
      Fraction.cmp i32 i32 .defaults .equalTo (.fr x26 0)),
    Passes (do
      let x27 ← Parse.toFraction i32 .defaults "0x0.0P0".toList
      Fraction.cmp i32 i32 .defaults .equalTo (.fr x27 0)),
    Passes (do
      let x28 ← Parse.toFraction i32 .defaults "0x.0p0".toList
      Fraction.cmp i32 i32 .defaults .equalTo (.fr x28 0)),
    Passes (do
      let x29 ← Parse.toFraction i32 .defaults "0xa.p0".toList
      Fraction.cmp i32 i32 .defaults .equalTo (.fr x29 10)),
    Passes (do
      let x30 ← Parse.toFraction i32 .defaults "0XA.0P0".toList
      Fraction.cmp i32 i32 .defaults .equalTo (.fr x30 10)),
    Passes (do
      let x31 ← Parse.toFraction i32 .defaults "0X.AP0".toList
      let x32 ← DenLit.divRep i32 5 (DenLit.fr 8)
      Fraction.cmp i32 i32 .defaults .equalTo (.ff x31 x32)),
    Passes (do
      let x34 ← Parse.toFraction i32 .defaults "0xB.Dp0".toList
      let x33 ← DenLit.divRep i32 13 (DenLit.fr 16)
      let x35 ← Fraction.arith i32 i32 .defaults .plus (.rf 11 x33)
      Fraction.cmp i32 i32 .defaults .equalTo (.ff x34 x35)),
    Passes (do
      let x37 ← Parse.toFraction i32 .defaults "0Xf5.0dEP0".toList
      let x36 ← DenLit.divRep i32 222 (DenLit.fr 4096)
      let x38 ← Fraction.arith i32 i32 .defaults .plus (.rf 245 x36)
      Fraction.cmp i32 i32 .defaults .equalTo (.ff x37 x38)),
    Passes (do
      let x39 ← Parse.toFraction i32 .defaults "0x0.07p0".toList
      let x40 ← DenLit.divRep i32 7 (DenLit.fr 256)
      Fraction.cmp i32 i32 .defaults .equalTo (.ff x39 x40)),
    Passes (do
      let x41 ← Parse.toFraction i32 .defaults "0X0.0P1".toList
      Fraction.cmp i32 i32 .defaults .equalTo (.fr x41 0)),
    Passes (do
      let x42 ← Parse.toFraction i32 .defaults "0x0.0p+1".toList
      Fraction.cmp i32 i32 .defaults .equalTo (.fr x42 0)),
    Passes (do
      let x43 ← Parse.toFraction i32 .defaults "0X0.0P-1".toList
      Fraction.cmp i32 i32 .defaults .equalTo (.fr x43 0)),
    Passes (do
      let x44 ← Parse.toFraction i32 .defaults "0x9.0p1".toList
      Fraction.cmp i32 i32 .defaults .equalTo (.fr x44 18)),
    Passes (do
      let x45 ← Parse.toFraction i32 .defaults "0X9.0P+4".toList
      Fraction.cmp i32 i32 .defaults .equalTo (.fr x45 144)),
    Passes (do
      let x46 ← Parse.toFraction i32 .defaults "0xD9.0p-1".toList
      let x47 ← DenLit.divRep i32 217 (DenLit.fr 2)
      Fraction.cmp i32 i32 .defaults .equalTo (.ff x46 x47)),
    Passes (do
      let x48 ← Parse.toFraction i32 .defaults "0XC.AP2".toList
      let x49 ← DenLit.divRep i32 101 (DenLit.fr 2)
      Fraction.cmp i32 i32 .defaults .equalTo (.ff x48 x49)),
    Passes (do
      let x50 ← Parse.toFraction i32 .defaults "0xC.Ap-2".toList
      let x51 ← DenLit.divRep i32 101 (DenLit.fr 32)
      Fraction.cmp i32 i32 .defaults .equalTo (.ff x50 x51)),
    Passes (do
      let x52 ← Parse.toFraction i32 .defaults "0xC'1.A'1P-1'0".toList
      let x53 ← DenLit.divRep i32 49569 (DenLit.fr 262144)
      Fraction.cmp i32 i32 .defaults .equalTo (.ff x52 x53)),
    Passes (do
      let x54 ← Parse.toFraction i32 .defaults "".toList
      pure (Raw.isUndefined x54)),
    Passes (do
      let x55 ← Parse.toFraction i32 .defaults "0".toList
      pure (Raw.isUndefined x55)),
    Passes (do
      let x56 ← Parse.toFraction i32 .defaults ".".toList
      pure (Raw.isUndefined x56)),
    Passes (do
      let x57 ← Parse.toFraction i32 .defaults "ABCDEF.".toList
      pure (Raw.isUndefined x57)),
    Passes (do
      let x58 ← Parse.toFraction i32 .defaults "-1.0".toList
      pure (Raw.isUndefined x58)),
    Passes (do
      let x59 ← Parse.toFraction i32 .defaults "1.0E".toList
      pure (Raw.isUndefined x59)),
    Passes (do
      let x60 ← Parse.toFraction i32 .defaults "1.0e+".toList
      pure (Raw.isUndefined x60)),
    Passes (do
      let x61 ← Parse.toFraction i32 .defaults "1.0E-".toList
      pure (Raw.isUndefined x61)),
    Passes (do
      let x62 ← Parse.toFraction i32 .defaults "1.0eA".toList
      pure (Raw.isUndefined x62)),
    Passes (do
      let x63 ← Parse.toFraction i32 .defaults "1.0E+d".toList
      pure (Raw.isUndefined x63)),
    Passes (do
      let x64 ← Parse.toFraction i32 .defaults "1.0e-B".toList
      pure (Raw.isUndefined x64)),
    Passes (do
      let x65 ← Parse.toFraction i32 .defaults "1.0P4".toList
      pure (Raw.isUndefined x65)),
    Passes (do
      let x66 ← Parse.toFraction i32 .defaults "1.0p-4".toList
      pure (Raw.isUndefined x66)),
    Passes (do
      let x67 ← Parse.toFraction i32 .defaults "1.0P+4".toList
      pure (Raw.isUndefined x67)),
    Passes (do
      let x68 ← Parse.toFraction i32 .defaults "z1.0".toList
      pure (Raw.isUndefined x68)),
    Passes (do
      let x69 ← Parse.toFraction i32 .defaults "1.0g".toList
      pure (Raw.isUndefined x69)),
    Passes (do
      let x70 ← Parse.toFraction i32 .defaults "e1.0e+4".toList
      pure (Raw.isUndefined x70)),
    Passes (do
      let x71 ← Parse.toFraction i32 .defaults "1.0E5r".toList
      pure (Raw.isUndefined x71)),
    Passes (do
      let x72 ← Parse.toFraction i32 .defaults "1.0ey5".toList
      pure (Raw.isUndefined x72)),
    Passes (do
      let x73 ← Parse.toFraction i32 .defaults "1.0LE5".toList
      pure (Raw.isUndefined x73)),
    Passes (do
      let x74 ← Parse.toFraction i32 .defaults "1.i0".toList
      pure (Raw.isUndefined x74)),
    Passes (do
      let x75 ← Parse.toFraction i32 .defaults "-0x1.0".toList
      pure (Raw.isUndefined x75)),
    Passes (do
      let x76 ← Parse.toFraction i32 .defaults "0x1.".toList
      pure (Raw.isUndefined x76)),
    Passes (do
      let x77 ← Parse.toFraction i32 .defaults "0x0.1".toList
      pure (Raw.isUndefined x77)),
    Passes (do
      let x78 ← Parse.toFraction i32 .defaults "0x1.0".toList
      pure (Raw.isUndefined x78)),
    Passes (do
      let x79 ← Parse.toFraction i32 .defaults "0x1.0p".toList
      pure (Raw.isUndefined x79)),
    Passes (do
      let x80 ← Parse.toFraction i32 .defaults "0x1.0P+".toList
      pure (Raw.isUndefined x80)),
    Passes (do
      let x81 ← Parse.toFraction i32 .defaults "0x1.0p-".toList
      pure (Raw.isUndefined x81)),
    Passes (do
      let x82 ← Parse.toFraction i32 .defaults "0x1.0E-4".toList
      pure (Raw.isUndefined x82)),
    Passes (do
      let x83 ← Parse.toFraction i32 .defaults "0x1.0e+4".toList
      pure (Raw.isUndefined x83)),
    Passes (do
      let x84 ← Parse.toFraction i32 .defaults "0xz1.0".toList
      pure (Raw.isUndefined x84)),
    Passes (do
      let x85 ← Parse.toFraction i32 .defaults "0x1.0g".toList
      pure (Raw.isUndefined x85)),
    Passes (do
      let x86 ← Parse.toFraction i32 .defaults "0xe1.0e+4".toList
      pure (Raw.isUndefined x86)),
    Passes (do
      let x87 ← Parse.toFraction i32 .defaults "0x1.0E5r".toList
      pure (Raw.isUndefined x87)),
    Passes (do
      let x88 ← Parse.toFraction i32 .defaults "0x1.0ey5".toList
      pure (Raw.isUndefined x88)),
    Passes (do
      let x89 ← Parse.toFraction i32 .defaults "0x1.0LE5".toList
      pure (Raw.isUndefined x89)),
    Passes (do
      let x90 ← Parse.toFraction i32 .defaults "0x1.i0".toList
      pure (Raw.isUndefined x90)),
    Passes (do
      let x91 ← Parse.toFraction i32 .defaults "Ox1.0".toList
      pure (Raw.isUndefined x91)),
    Passes (do
      let x92 ← Parse.toFraction i32 .defaults "0jx1.0g".toList
      pure (Raw.isUndefined x92)),
    Passes (do
      let x93 ← Parse.toFraction i32 .defaults "0xu1.0E5r".toList
      pure (Raw.isUndefined x93))].all id = true := by
  decide +kernel

end Ieme.Tests
