import Verif.Tests.Basic
import Verif.Model.Stream
import Verif.Model.Literals

/-!
# `fraction.test.cpp` on the model

The 97 assertions of the templated test of `/repo/src/ieme/fraction.test.cpp` under each of
its twelve instantiations, and the other assertions of that file and of
`/repo/src/ieme/raw_fraction.test.cpp`.
-/

namespace Ieme.Tests

/-- Equivalence (`/repo/src/ieme/fraction.test.cpp:87`). -/
def fractionEquivalence (L R : IntTy) (o : Ops) : List Bool := [
    Passes (do
      let x1 ← DenLit.divRep i32 3 (DenLit.fr 4)
      let x3 ← Fraction.ofOther L x1
      let x2 ← DenLit.divRep i32 3 (DenLit.fr 4)
      let x4 ← Fraction.ofOther R x2
      Fraction.cmp L R o .equalTo (.ff x3 x4)),
    Fails (do
      let x5 ← DenLit.divRep i32 3 (DenLit.fr 4)
      let x7 ← Fraction.ofOther L x5
      let x6 ← DenLit.divRep i32 3 (DenLit.fr 4)
      let x8 ← Fraction.ofOther R x6
      Fraction.cmp L R o .notEqualTo (.ff x7 x8)),
    Passes (do
      let x9 ← DenLit.divRep i32 6 (DenLit.fr 8)
      let x11 ← Fraction.ofOther L x9
      let x10 ← DenLit.divRep i32 3 (DenLit.fr 4)
      let x12 ← Fraction.ofOther R x10
      Fraction.cmp L R o .equalTo (.ff x11 x12)),
    Fails (do
      let x13 ← DenLit.divRep i32 6 (DenLit.fr 8)
      let x15 ← Fraction.ofOther L x13
      let x14 ← DenLit.divRep i32 3 (DenLit.fr 4)
      let x16 ← Fraction.ofOther R x14
      Fraction.cmp L R o .notEqualTo (.ff x15 x16)),
    Passes (do
      let x17 ← DenLit.divRep i32 3 (DenLit.fr 1)
      let x18 ← Fraction.ofOther L x17
      let x19 ← IntTy.conv R 3
      Fraction.cmp L R o .equalTo (.fr x18 x19)),
    Fails (do
      let x20 ← DenLit.divRep i32 3 (DenLit.fr 1)
      let x21 ← Fraction.ofOther L x20
      let x22 ← IntTy.conv R 3
      Fraction.cmp L R o .notEqualTo (.fr x21 x22)),
    Passes (do
      let x24 ← IntTy.conv L 3
      let x23 ← DenLit.divRep i32 3 (DenLit.fr 1)
      let x25 ← Fraction.ofOther R x23
      Fraction.cmp L R o .equalTo (.rf x24 x25)),
    Fails (do
      let x27 ← IntTy.conv L 3
      let x26 ← DenLit.divRep i32 3 (DenLit.fr 1)
      let x28 ← Fraction.ofOther R x26
      Fraction.cmp L R o .notEqualTo (.rf x27 x28)),
    Fails (do
      let x29 ← DenLit.divRep i32 3 (DenLit.fr 4)
      let x31 ← Fraction.ofOther L x29
      let x30 ← DenLit.divRep i32 4 (DenLit.fr 3)
      let x32 ← Fraction.ofOther R x30
      Fraction.cmp L R o .equalTo (.ff x31 x32)),
    Passes (do
      let x33 ← DenLit.divRep i32 3 (DenLit.fr 4)
      let x35 ← Fraction.ofOther L x33
      let x34 ← DenLit.divRep i32 4 (DenLit.fr 3)
      let x36 ← Fraction.ofOther R x34
      Fraction.cmp L R o .notEqualTo (.ff x35 x36)),
    Fails (do
      let x37 ← DenLit.divRep i32 4 (DenLit.fr 1)
      let x38 ← Fraction.ofOther L x37
      let x39 ← IntTy.conv R 3
      Fraction.cmp L R o .equalTo (.fr x38 x39)),
    Passes (do
      let x40 ← DenLit.divRep i32 4 (DenLit.fr 1)
      let x41 ← Fraction.ofOther L x40
      let x42 ← IntTy.conv R 3
      Fraction.cmp L R o .notEqualTo (.fr x41 x42)),
    Fails (do
      let x44 ← IntTy.conv L 3
      let x43 ← DenLit.divRep i32 2 (DenLit.fr 1)
      let x45 ← Fraction.ofOther R x43
      Fraction.cmp L R o .equalTo (.rf x44 x45)),
    Passes (do
      let x47 ← IntTy.conv L 3
      let x46 ← DenLit.divRep i32 2 (DenLit.fr 1)
      let x48 ← Fraction.ofOther R x46
      Fraction.cmp L R o .notEqualTo (.rf x47 x48)),
    Passes (do
      let x49 ← DenLit.divRep i32 3 (DenLit.fr 1)
      let x50 ← Fraction.ofOther L x49
      let x51 ← IntTy.conv R 3
      Fraction.cmp L R o .equalTo (.fr x50 x51)),
    Fails (do
      let x52 ← DenLit.divRep i32 3 (DenLit.fr 1)
      let x53 ← Fraction.ofOther L x52
      let x54 ← IntTy.conv R 3
      Fraction.cmp L R o .notEqualTo (.fr x53 x54)),
    Fails (do
      let x55 ← DenLit.divRep i32 3 (DenLit.fr 4)
      let x57 ← Fraction.ofOther L x55
      let x56 ← DenLit.divRep i32 4 (DenLit.fr 0)
      let x58 ← Fraction.ofOther R x56
      Fraction.cmp L R o .equalTo (.ff x57 x58)),
    Passes (do
      let x59 ← DenLit.divRep i32 3 (DenLit.fr 4)
      let x61 ← Fraction.ofOther L x59
      let x60 ← DenLit.divRep i32 4 (DenLit.fr 0)
      let x62 ← Fraction.ofOther R x60
      Fraction.cmp L R o .notEqualTo (.ff x61 x62)),
    Fails (do
      let x63 ← DenLit.divRep i32 3 (DenLit.fr 0)
      let x65 ← Fraction.ofOther L x63
      let x64 ← DenLit.divRep i32 4 (DenLit.fr 3)
      let x66 ← Fraction.ofOther R x64
      Fraction.cmp L R o .equalTo (.ff x65 x66)),
    Passes (do
      let x67 ← DenLit.divRep i32 3 (DenLit.fr 0)
      let x69 ← Fraction.ofOther L x67
      let x68 ← DenLit.divRep i32 4 (DenLit.fr 3)
      let x70 ← Fraction.ofOther R x68
      Fraction.cmp L R o .notEqualTo (.ff x69 x70)),
    Fails (do
      let x71 ← DenLit.divRep i32 4 (DenLit.fr 0)
      let x72 ← Fraction.ofOther L x71
      let x73 ← IntTy.conv R 3
      Fraction.cmp L R o .equalTo (.fr x72 x73)),
    Passes (do
      let x74 ← DenLit.divRep i32 4 (DenLit.fr 0)
      let x75 ← Fraction.ofOther L x74
      let x76 ← IntTy.conv R 3
      Fraction.cmp L R o .notEqualTo (.fr x75 x76)),
    Fails (do
      let x78 ← IntTy.conv L 3
      let x77 ← DenLit.divRep i32 2 (DenLit.fr 0)
      let x79 ← Fraction.ofOther R x77
      Fraction.cmp L R o .equalTo (.rf x78 x79)),
    Passes (do
      let x81 ← IntTy.conv L 3
      let x80 ← DenLit.divRep i32 2 (DenLit.fr 0)
      let x82 ← Fraction.ofOther R x80
      Fraction.cmp L R o .notEqualTo (.rf x81 x82))]

/-- Order (`/repo/src/ieme/fraction.test.cpp:126`). -/
def fractionOrder (L R : IntTy) (o : Ops) : List Bool := [
    Passes (do
      let x1 ← DenLit.divRep i32 3 (DenLit.fr 5)
      let x3 ← Fraction.ofOther L x1
      let x2 ← DenLit.divRep i32 4 (DenLit.fr 5)
      let x4 ← Fraction.ofOther R x2
      Fraction.cmp L R o .less (.ff x3 x4)),
    Passes (do
      let x5 ← DenLit.divRep i32 3 (DenLit.fr 5)
      let x7 ← Fraction.ofOther L x5
      let x6 ← DenLit.divRep i32 4 (DenLit.fr 5)
      let x8 ← Fraction.ofOther R x6
      Fraction.cmp L R o .lessEqual (.ff x7 x8)),
    Fails (do
      let x9 ← DenLit.divRep i32 3 (DenLit.fr 5)
      let x11 ← Fraction.ofOther L x9
      let x10 ← DenLit.divRep i32 4 (DenLit.fr 5)
      let x12 ← Fraction.ofOther R x10
      Fraction.cmp L R o .greater (.ff x11 x12)),
    Fails (do
      let x13 ← DenLit.divRep i32 3 (DenLit.fr 5)
      let x15 ← Fraction.ofOther L x13
      let x14 ← DenLit.divRep i32 4 (DenLit.fr 5)
      let x16 ← Fraction.ofOther R x14
      Fraction.cmp L R o .greaterEqual (.ff x15 x16)),
    Passes (do
      let x17 ← DenLit.divRep i32 3 (DenLit.fr 5)
      let x18 ← Fraction.ofOther L x17
      let x19 ← IntTy.conv R 2
      Fraction.cmp L R o .less (.fr x18 x19)),
    Passes (do
      let x20 ← DenLit.divRep i32 3 (DenLit.fr 5)
      let x21 ← Fraction.ofOther L x20
      let x22 ← IntTy.conv R 2
      Fraction.cmp L R o .lessEqual (.fr x21 x22)),
    Fails (do
      let x23 ← DenLit.divRep i32 3 (DenLit.fr 5)
      let x24 ← Fraction.ofOther L x23
      let x25 ← IntTy.conv R 2
      Fraction.cmp L R o .greater (.fr x24 x25)),
    Fails (do
      let x26 ← DenLit.divRep i32 3 (DenLit.fr 5)
      let x27 ← Fraction.ofOther L x26
      let x28 ← IntTy.conv R 2
      Fraction.cmp L R o .greaterEqual (.fr x27 x28)),
    Passes (do
      let x30 ← IntTy.conv L 0
      let x29 ← DenLit.divRep i32 4 (DenLit.fr 5)
      let x31 ← Fraction.ofOther R x29
      Fraction.cmp L R o .less (.rf x30 x31)),
    Passes (do
      let x33 ← IntTy.conv L 0
      let x32 ← DenLit.divRep i32 4 (DenLit.fr 5)
      let x34 ← Fraction.ofOther R x32
      Fraction.cmp L R o .lessEqual (.rf x33 x34)),
    Fails (do
      let x36 ← IntTy.conv L 0
      let x35 ← DenLit.divRep i32 4 (DenLit.fr 5)
      let x37 ← Fraction.ofOther R x35
      Fraction.cmp L R o .greater (.rf x36 x37)),
    Fails (do
      let x39 ← IntTy.conv L 0
      let x38 ← DenLit.divRep i32 4 (DenLit.fr 5)
      let x40 ← Fraction.ofOther R x38
      Fraction.cmp L R o .greaterEqual (.rf x39 x40)),
    Fails (do
      let x41 ← DenLit.divRep i32 3 (DenLit.fr 5)
      let x43 ← Fraction.ofOther L x41
      let x42 ← DenLit.divRep i32 3 (DenLit.fr 5)
      let x44 ← Fraction.ofOther R x42
      Fraction.cmp L R o .less (.ff x43 x44)),
    Passes (do
      let x45 ← DenLit.divRep i32 3 (DenLit.fr 5)
      let x47 ← Fraction.ofOther L x45
      let x46 ← DenLit.divRep i32 3 (DenLit.fr 5)
      let x48 ← Fraction.ofOther R x46
      Fraction.cmp L R o .lessEqual (.ff x47 x48)),
    Fails (do
      let x49 ← DenLit.divRep i32 3 (DenLit.fr 5)
      let x51 ← Fraction.ofOther L x49
      let x50 ← DenLit.divRep i32 3 (DenLit.fr 5)
      let x52 ← Fraction.ofOther R x50
      Fraction.cmp L R o .greater (.ff x51 x52)),
    Passes (do
      let x53 ← DenLit.divRep i32 3 (DenLit.fr 5)
      let x55 ← Fraction.ofOther L x53
      let x54 ← DenLit.divRep i32 3 (DenLit.fr 5)
      let x56 ← Fraction.ofOther R x54
      Fraction.cmp L R o .greaterEqual (.ff x55 x56)),
    Fails (do
      let x57 ← DenLit.divRep i32 5 (DenLit.fr 1)
      let x58 ← Fraction.ofOther L x57
      let x59 ← IntTy.conv R 5
      Fraction.cmp L R o .less (.fr x58 x59)),
    Passes (do
      let x60 ← DenLit.divRep i32 5 (DenLit.fr 1)
      let x61 ← Fraction.ofOther L x60
      let x62 ← IntTy.conv R 5
      Fraction.cmp L R o .lessEqual (.fr x61 x62)),
    Fails (do
      let x63 ← DenLit.divRep i32 1 (DenLit.fr 5)
      let x64 ← Fraction.ofOther L x63
      let x65 ← IntTy.conv R 5
      Fraction.cmp L R o .greater (.fr x64 x65)),
    Passes (do
      let x66 ← DenLit.divRep i32 5 (DenLit.fr 1)
      let x67 ← Fraction.ofOther L x66
      let x68 ← IntTy.conv R 5
      Fraction.cmp L R o .greaterEqual (.fr x67 x68)),
    Fails (do
      let x70 ← IntTy.conv L 5
      let x69 ← DenLit.divRep i32 5 (DenLit.fr 1)
      let x71 ← Fraction.ofOther R x69
      Fraction.cmp L R o .less (.rf x70 x71)),
    Passes (do
      let x73 ← IntTy.conv L 5
      let x72 ← DenLit.divRep i32 5 (DenLit.fr 1)
      let x74 ← Fraction.ofOther R x72
      Fraction.cmp L R o .lessEqual (.rf x73 x74)),
    Fails (do
      let x76 ← IntTy.conv L 5
      let x75 ← DenLit.divRep i32 5 (DenLit.fr 1)
      let x77 ← Fraction.ofOther R x75
      Fraction.cmp L R o .greater (.rf x76 x77)),
    Passes (do
      let x79 ← IntTy.conv L 5
      let x78 ← DenLit.divRep i32 5 (DenLit.fr 1)
      let x80 ← Fraction.ofOther R x78
      Fraction.cmp L R o .greaterEqual (.rf x79 x80)),
    Fails (do
      let x81 ← DenLit.divRep i32 3 (DenLit.fr 5)
      let x83 ← Fraction.ofOther L x81
      let x82 ← DenLit.divRep i32 2 (DenLit.fr 5)
      let x84 ← Fraction.ofOther R x82
      Fraction.cmp L R o .less (.ff x83 x84)),
    Fails (do
      let x85 ← DenLit.divRep i32 3 (DenLit.fr 5)
      let x87 ← Fraction.ofOther L x85
      let x86 ← DenLit.divRep i32 2 (DenLit.fr 5)
      let x88 ← Fraction.ofOther R x86
      Fraction.cmp L R o .lessEqual (.ff x87 x88)),
    Passes (do
      let x89 ← DenLit.divRep i32 3 (DenLit.fr 5)
      let x91 ← Fraction.ofOther L x89
      let x90 ← DenLit.divRep i32 2 (DenLit.fr 5)
      let x92 ← Fraction.ofOther R x90
      Fraction.cmp L R o .greater (.ff x91 x92)),
    Passes (do
      let x93 ← DenLit.divRep i32 3 (DenLit.fr 5)
      let x95 ← Fraction.ofOther L x93
      let x94 ← DenLit.divRep i32 2 (DenLit.fr 5)
      let x96 ← Fraction.ofOther R x94
      Fraction.cmp L R o .greaterEqual (.ff x95 x96)),
    Fails (do
      let x97 ← DenLit.divRep i32 3 (DenLit.fr 5)
      let x98 ← Fraction.ofOther L x97
      let x99 ← IntTy.conv R 0
      Fraction.cmp L R o .less (.fr x98 x99)),
    Fails (do
      let x100 ← DenLit.divRep i32 3 (DenLit.fr 5)
      let x101 ← Fraction.ofOther L x100
      let x102 ← IntTy.conv R 0
      Fraction.cmp L R o .lessEqual (.fr x101 x102)),
    Passes (do
      let x103 ← DenLit.divRep i32 3 (DenLit.fr 5)
      let x104 ← Fraction.ofOther L x103
      let x105 ← IntTy.conv R 0
      Fraction.cmp L R o .greater (.fr x104 x105)),
    Passes (do
      let x106 ← DenLit.divRep i32 3 (DenLit.fr 5)
      let x107 ← Fraction.ofOther L x106
      let x108 ← IntTy.conv R 0
      Fraction.cmp L R o .greaterEqual (.fr x107 x108)),
    Fails (do
      let x110 ← IntTy.conv L 2
      let x109 ← DenLit.divRep i32 2 (DenLit.fr 5)
      let x111 ← Fraction.ofOther R x109
      Fraction.cmp L R o .less (.rf x110 x111)),
    Fails (do
      let x113 ← IntTy.conv L 2
      let x112 ← DenLit.divRep i32 2 (DenLit.fr 5)
      let x114 ← Fraction.ofOther R x112
      Fraction.cmp L R o .lessEqual (.rf x113 x114)),
    Passes (do
      let x116 ← IntTy.conv L 2
      let x115 ← DenLit.divRep i32 2 (DenLit.fr 5)
      let x117 ← Fraction.ofOther R x115
      Fraction.cmp L R o .greater (.rf x116 x117)),
    Passes (do
      let x119 ← IntTy.conv L 2
      let x118 ← DenLit.divRep i32 2 (DenLit.fr 5)
      let x120 ← Fraction.ofOther R x118
      Fraction.cmp L R o .greaterEqual (.rf x119 x120)),
    Fails (do
      let x121 ← DenLit.divRep i32 3 (DenLit.fr 0)
      let x123 ← Fraction.ofOther L x121
      let x122 ← DenLit.divRep i32 2 (DenLit.fr 7)
      let x124 ← Fraction.ofOther R x122
      Fraction.cmp L R o .less (.ff x123 x124)),
    Fails (do
      let x125 ← DenLit.divRep i32 3 (DenLit.fr 0)
      let x127 ← Fraction.ofOther L x125
      let x126 ← DenLit.divRep i32 2 (DenLit.fr 7)
      let x128 ← Fraction.ofOther R x126
      Fraction.cmp L R o .lessEqual (.ff x127 x128)),
    Fails (do
      let x129 ← DenLit.divRep i32 3 (DenLit.fr 0)
      let x131 ← Fraction.ofOther L x129
      let x130 ← DenLit.divRep i32 2 (DenLit.fr 7)
      let x132 ← Fraction.ofOther R x130
      Fraction.cmp L R o .greater (.ff x131 x132)),
    Fails (do
      let x133 ← DenLit.divRep i32 3 (DenLit.fr 0)
      let x135 ← Fraction.ofOther L x133
      let x134 ← DenLit.divRep i32 2 (DenLit.fr 7)
      let x136 ← Fraction.ofOther R x134
      Fraction.cmp L R o .greaterEqual (.ff x135 x136)),
    Fails (do
      let x137 ← DenLit.divRep i32 3 (DenLit.fr 0)
      let x138 ← Fraction.ofOther L x137
      let x139 ← IntTy.conv R 3
      Fraction.cmp L R o .less (.fr x138 x139)),
    Fails (do
      let x140 ← DenLit.divRep i32 3 (DenLit.fr 0)
      let x141 ← Fraction.ofOther L x140
      let x142 ← IntTy.conv R 3
      Fraction.cmp L R o .lessEqual (.fr x141 x142)),
    Fails (do
      let x143 ← DenLit.divRep i32 3 (DenLit.fr 0)
      let x144 ← Fraction.ofOther L x143
      let x145 ← IntTy.conv R 3
      Fraction.cmp L R o .greater (.fr x144 x145)),
    Fails (do
      let x146 ← DenLit.divRep i32 3 (DenLit.fr 0)
      let x147 ← Fraction.ofOther L x146
      let x148 ← IntTy.conv R 3
      Fraction.cmp L R o .greaterEqual (.fr x147 x148)),
    Fails (do
      let x150 ← IntTy.conv L 2
      let x149 ← DenLit.divRep i32 2 (DenLit.fr 0)
      let x151 ← Fraction.ofOther R x149
      Fraction.cmp L R o .less (.rf x150 x151)),
    Fails (do
      let x153 ← IntTy.conv L 2
      let x152 ← DenLit.divRep i32 2 (DenLit.fr 0)
      let x154 ← Fraction.ofOther R x152
      Fraction.cmp L R o .lessEqual (.rf x153 x154)),
    Fails (do
      let x156 ← IntTy.conv L 2
      let x155 ← DenLit.divRep i32 2 (DenLit.fr 0)
      let x157 ← Fraction.ofOther R x155
      Fraction.cmp L R o .greater (.rf x156 x157)),
    Fails (do
      let x159 ← IntTy.conv L 2
      let x158 ← DenLit.divRep i32 2 (DenLit.fr 0)
      let x160 ← Fraction.ofOther R x158
      Fraction.cmp L R o .greaterEqual (.rf x159 x160))]

/-- Arithmetic (`/repo/src/ieme/fraction.test.cpp:189`). -/
def fractionArithmetic (L R : IntTy) (o : Ops) : List Bool := [
    Passes (do
      let x1 ← DenLit.divRep i32 3 (DenLit.fr 4)
      let x3 ← Fraction.ofOther L x1
      let x2 ← DenLit.divRep i32 1 (DenLit.fr 3)
      let x4 ← Fraction.ofOther R x2
      let x6 ← Fraction.arith L R o .plus (.ff x3 x4)
      let x5 ← DenLit.divRep i32 13 (DenLit.fr 12)
      let x7 ← Fraction.ofOther R x5
      Fraction.cmp (IntTy.common L R) R o .equalTo (.ff x6 x7)),
    Passes (do
      let x8 ← DenLit.divRep i32 3 (DenLit.fr 4)
      let x9 ← Fraction.ofOther L x8
      let x10 ← IntTy.conv R 1
      let x12 ← Fraction.arith L R o .plus (.fr x9 x10)
      let x11 ← DenLit.divRep i32 7 (DenLit.fr 4)
      let x13 ← Fraction.ofOther R x11
      Fraction.cmp (IntTy.common L R) R o .equalTo (.ff x12 x13)),
    Passes (do
      let x15 ← IntTy.conv L 1
      let x14 ← DenLit.divRep i32 1 (DenLit.fr 3)
      let x16 ← Fraction.ofOther R x14
      let x18 ← Fraction.arith L R o .plus (.rf x15 x16)
      let x17 ← DenLit.divRep i32 4 (DenLit.fr 3)
      let x19 ← Fraction.ofOther R x17
      Fraction.cmp (IntTy.common L R) R o .equalTo (.ff x18 x19)),
    Passes (do
      let x20 ← DenLit.divRep i32 3 (DenLit.fr 4)
      let x22 ← Fraction.ofOther L x20
      let x21 ← DenLit.divRep i32 1 (DenLit.fr 3)
      let x23 ← Fraction.ofOther R x21
      let x25 ← Fraction.arith L R o .minus (.ff x22 x23)
      let x24 ← DenLit.divRep i32 5 (DenLit.fr 12)
      let x26 ← Fraction.ofOther R x24
      Fraction.cmp (IntTy.common L R) R o .equalTo (.ff x25 x26)),
    Passes (do
      let x27 ← DenLit.divRep i32 5 (DenLit.fr 4)
      let x28 ← Fraction.ofOther L x27
      let x29 ← IntTy.conv R 1
      let x31 ← Fraction.arith L R o .minus (.fr x28 x29)
      let x30 ← DenLit.divRep i32 1 (DenLit.fr 4)
      let x32 ← Fraction.ofOther R x30
      Fraction.cmp (IntTy.common L R) R o .equalTo (.ff x31 x32)),
    Passes (do
      let x34 ← IntTy.conv L 1
      let x33 ← DenLit.divRep i32 1 (DenLit.fr 3)
      let x35 ← Fraction.ofOther R x33
      let x37 ← Fraction.arith L R o .minus (.rf x34 x35)
      let x36 ← DenLit.divRep i32 2 (DenLit.fr 3)
      let x38 ← Fraction.ofOther R x36
      Fraction.cmp (IntTy.common L R) R o .equalTo (.ff x37 x38)),
    Passes (do
      let x39 ← DenLit.divRep i32 3 (DenLit.fr 4)
      let x41 ← Fraction.ofOther L x39
      let x40 ← DenLit.divRep i32 1 (DenLit.fr 2)
      let x42 ← Fraction.ofOther R x40
      let x44 ← Fraction.arith L R o .multiplies (.ff x41 x42)
      let x43 ← DenLit.divRep i32 3 (DenLit.fr 8)
      let x45 ← Fraction.ofOther R x43
      Fraction.cmp (IntTy.common L R) R o .equalTo (.ff x44 x45)),
    Passes (do
      let x46 ← DenLit.divRep i32 3 (DenLit.fr 4)
      let x47 ← Fraction.ofOther L x46
      let x48 ← IntTy.conv R 2
      let x50 ← Fraction.arith L R o .multiplies (.fr x47 x48)
      let x49 ← DenLit.divRep i32 3 (DenLit.fr 2)
      let x51 ← Fraction.ofOther R x49
      Fraction.cmp (IntTy.common L R) R o .equalTo (.ff x50 x51)),
    Passes (do
      let x53 ← IntTy.conv L 2
      let x52 ← DenLit.divRep i32 1 (DenLit.fr 3)
      let x54 ← Fraction.ofOther R x52
      let x56 ← Fraction.arith L R o .multiplies (.rf x53 x54)
      let x55 ← DenLit.divRep i32 2 (DenLit.fr 3)
      let x57 ← Fraction.ofOther R x55
      Fraction.cmp (IntTy.common L R) R o .equalTo (.ff x56 x57)),
    Passes (do
      let x58 ← DenLit.divRep i32 3 (DenLit.fr 4)
      let x60 ← Fraction.ofOther L x58
      let x59 ← DenLit.divRep i32 3 (DenLit.fr 2)
      let x61 ← Fraction.ofOther R x59
      let x63 ← Fraction.arith L R o .divides (.ff x60 x61)
      let x62 ← DenLit.divRep i32 1 (DenLit.fr 2)
      let x64 ← Fraction.ofOther R x62
      Fraction.cmp (IntTy.common L R) R o .equalTo (.ff x63 x64)),
    Passes (do
      let x65 ← DenLit.divRep i32 2 (DenLit.fr 5)
      let x66 ← Fraction.ofOther L x65
      let x67 ← IntTy.conv R 3
      let x69 ← Fraction.arith L R o .divides (.fr x66 x67)
      let x68 ← DenLit.divRep i32 2 (DenLit.fr 15)
      let x70 ← Fraction.ofOther R x68
      Fraction.cmp (IntTy.common L R) R o .equalTo (.ff x69 x70)),
    Passes (do
      let x72 ← IntTy.conv L 2
      let x71 ← DenLit.divRep i32 3 (DenLit.fr 5)
      let x73 ← Fraction.ofOther R x71
      let x75 ← Fraction.arith L R o .divides (.rf x72 x73)
      let x74 ← DenLit.divRep i32 10 (DenLit.fr 3)
      let x76 ← Fraction.ofOther R x74
      Fraction.cmp (IntTy.common L R) R o .equalTo (.ff x75 x76)),
    Passes (do
      let x77 ← DenLit.divRep i32 4 (DenLit.fr 7)
      let x79 ← Fraction.ofOther L x77
      let x78 ← DenLit.divRep i32 2 (DenLit.fr 5)
      let x80 ← Fraction.ofOther R x78
      let x82 ← Fraction.arith L R o .modulus (.ff x79 x80)
      let x81 ← DenLit.divRep i32 6 (DenLit.fr 35)
      let x83 ← Fraction.ofOther R x81
      Fraction.cmp (IntTy.common L R) R o .equalTo (.ff x82 x83)),
    Passes (do
      let x84 ← DenLit.divRep i32 12 (DenLit.fr 5)
      let x85 ← Fraction.ofOther L x84
      let x86 ← IntTy.conv R 2
      let x88 ← Fraction.arith L R o .modulus (.fr x85 x86)
      let x87 ← DenLit.divRep i32 2 (DenLit.fr 5)
      let x89 ← Fraction.ofOther R x87
      Fraction.cmp (IntTy.common L R) R o .equalTo (.ff x88 x89)),
    Passes (do
      let x91 ← IntTy.conv L 2
      let x90 ← DenLit.divRep i32 3 (DenLit.fr 7)
      let x92 ← Fraction.ofOther R x90
      let x94 ← Fraction.arith L R o .modulus (.rf x91 x92)
      let x93 ← DenLit.divRep i32 2 (DenLit.fr 7)
      let x95 ← Fraction.ofOther R x93
      Fraction.cmp (IntTy.common L R) R o .equalTo (.ff x94 x95))]

/-- Compound assignment (`/repo/src/ieme/fraction.test.cpp:212`). -/
def fractionCompound (L R : IntTy) (o : Ops) : List Bool := [
    Passes (do
      let x1 ← DenLit.divRep i32 3 (DenLit.fr 4)
      let x3 ← Fraction.ofOther L x1
      let x2 ← DenLit.divRep i32 1 (DenLit.fr 3)
      let x4 ← Fraction.ofOther R x2
      let x6 ← Fraction.assignF L R o .plus x3 x4
      let x5 ← DenLit.divRep i32 13 (DenLit.fr 12)
      let x7 ← Fraction.ofOther R x5
      Fraction.cmp L R o .equalTo (.ff x6 x7)),
    Passes (do
      let x8 ← DenLit.divRep i32 3 (DenLit.fr 4)
      let x9 ← Fraction.ofOther L x8
      let x10 ← IntTy.conv R 1
      let x12 ← Fraction.assignR L R o .plus x9 x10
      let x11 ← DenLit.divRep i32 7 (DenLit.fr 4)
      let x13 ← Fraction.ofOther R x11
      Fraction.cmp L R o .equalTo (.ff x12 x13)),
    Passes (do
      let x14 ← DenLit.divRep i32 3 (DenLit.fr 4)
      let x16 ← Fraction.ofOther L x14
      let x15 ← DenLit.divRep i32 1 (DenLit.fr 3)
      let x17 ← Fraction.ofOther R x15
      let x19 ← Fraction.assignF L R o .minus x16 x17
      let x18 ← DenLit.divRep i32 5 (DenLit.fr 12)
      let x20 ← Fraction.ofOther R x18
      Fraction.cmp L R o .equalTo (.ff x19 x20)),
    Passes (do
      let x21 ← DenLit.divRep i32 5 (DenLit.fr 4)
      let x22 ← Fraction.ofOther L x21
      let x23 ← IntTy.conv R 1
      let x25 ← Fraction.assignR L R o .minus x22 x23
      let x24 ← DenLit.divRep i32 1 (DenLit.fr 4)
      let x26 ← Fraction.ofOther R x24
      Fraction.cmp L R o .equalTo (.ff x25 x26)),
    Passes (do
      let x27 ← DenLit.divRep i32 3 (DenLit.fr 4)
      let x29 ← Fraction.ofOther L x27
      let x28 ← DenLit.divRep i32 1 (DenLit.fr 2)
      let x30 ← Fraction.ofOther R x28
      let x32 ← Fraction.assignF L R o .multiplies x29 x30
      let x31 ← DenLit.divRep i32 3 (DenLit.fr 8)
      let x33 ← Fraction.ofOther R x31
      Fraction.cmp L R o .equalTo (.ff x32 x33)),
    Passes (do
      let x34 ← DenLit.divRep i32 3 (DenLit.fr 4)
      let x35 ← Fraction.ofOther L x34
      let x36 ← IntTy.conv R 2
      let x38 ← Fraction.assignR L R o .multiplies x35 x36
      let x37 ← DenLit.divRep i32 3 (DenLit.fr 2)
      let x39 ← Fraction.ofOther R x37
      Fraction.cmp L R o .equalTo (.ff x38 x39)),
    Passes (do
      let x40 ← DenLit.divRep i32 3 (DenLit.fr 4)
      let x42 ← Fraction.ofOther L x40
      let x41 ← DenLit.divRep i32 3 (DenLit.fr 2)
      let x43 ← Fraction.ofOther R x41
      let x45 ← Fraction.assignF L R o .divides x42 x43
      let x44 ← DenLit.divRep i32 1 (DenLit.fr 2)
      let x46 ← Fraction.ofOther R x44
      Fraction.cmp L R o .equalTo (.ff x45 x46)),
    Passes (do
      let x47 ← DenLit.divRep i32 2 (DenLit.fr 5)
      let x48 ← Fraction.ofOther L x47
      let x49 ← IntTy.conv R 3
      let x51 ← Fraction.assignR L R o .divides x48 x49
      let x50 ← DenLit.divRep i32 2 (DenLit.fr 15)
      let x52 ← Fraction.ofOther R x50
      Fraction.cmp L R o .equalTo (.ff x51 x52)),
    Passes (do
      let x53 ← DenLit.divRep i32 4 (DenLit.fr 7)
      let x55 ← Fraction.ofOther L x53
      let x54 ← DenLit.divRep i32 2 (DenLit.fr 5)
      let x56 ← Fraction.ofOther R x54
      let x58 ← Fraction.assignF L R o .modulus x55 x56
      let x57 ← DenLit.divRep i32 6 (DenLit.fr 35)
      let x59 ← Fraction.ofOther R x57
      Fraction.cmp L R o .equalTo (.ff x58 x59)),
    Passes (do
      let x60 ← DenLit.divRep i32 12 (DenLit.fr 5)
      let x61 ← Fraction.ofOther L x60
      let x62 ← IntTy.conv R 2
      let x64 ← Fraction.assignR L R o .modulus x61 x62
      let x63 ← DenLit.divRep i32 2 (DenLit.fr 5)
      let x65 ← Fraction.ofOther R x63
      Fraction.cmp L R o .equalTo (.ff x64 x65))]

/-- The instantiations of the test, lines 69-80. -/
def fractionInstances : List (IntTy × IntTy × Ops) :=
  [(i32, i32, .safe), (i32, i64, .safe), (i64, i32, .safe), (i32, u32, .safe), (u32, i32, .safe),
   (i64, u32, .safe), (u32, i64, .safe), (i32, i32, .fast), (i32, u32, .fast), (u32, i32, .fast),
   (i64, u32, .fast), (u32, i64, .fast)]

example : (fractionInstances.all fun (L, R, o) => (fractionEquivalence L R o).all id) = true := by
  decide +kernel

example : (fractionInstances.all fun (L, R, o) => (fractionOrder L R o).all id) = true := by
  decide +kernel

example : (fractionInstances.all fun (L, R, o) => (fractionArithmetic L R o).all id) = true := by
  decide +kernel

example : (fractionInstances.all fun (L, R, o) => (fractionCompound L R o).all id) = true := by
  decide +kernel

/-! A fraction can be promoted and negated (`/repo/src/ieme/fraction.test.cpp:246`). -/

example : [
    Passes (do
      let x1 ← DenLit.divRep i32 1 (DenLit.fr 2)
      let x2 ← DenLit.divRep i32 1 (DenLit.fr 2)
      Fraction.cmp i32 i32 .defaults .equalTo (.ff (Fraction.pos x1) x2)),
    Passes (do
      let x3 ← DenLit.divRep i32 (-1) (DenLit.fr 2)
      let x4 ← DenLit.divRep i32 (-1) (DenLit.fr 2)
      Fraction.cmp i32 i32 .defaults .equalTo (.ff (Fraction.pos x3) x4)),
    Passes (do
      let x5 ← DenLit.divRep i32 1 (DenLit.fr 2)
      let x6 ← Fraction.neg i32 .defaults x5
      let x7 ← DenLit.divRep i32 (-1) (DenLit.fr 2)
      Fraction.cmp i32 i32 .defaults .equalTo (.ff x6 x7)),
    Passes (do
      let x8 ← DenLit.divRep i32 (-1) (DenLit.fr 2)
      let x9 ← Fraction.neg i32 .defaults x8
      let x10 ← DenLit.divRep i32 1 (DenLit.fr 2)
      Fraction.cmp i32 i32 .defaults .equalTo (.ff x9 x10))].all id = true := by
  decide +kernel

/-! The constructors (lines 15-55). -/

example : Fraction.default = ⟨0, 1⟩ := rfl
example : Fraction.mk 3 4 = ⟨3, 4⟩ := rfl
example : Fraction.ofRaw (Fraction.mk (-5) 6) = ⟨-5, 6⟩ := rfl
example : Fraction.mk 5 = ⟨5, 1⟩ := rfl
example : Fraction.ofRatio i32 45 22 = .ok ⟨45, 22⟩ false := by decide +kernel

/-! Streams (lines 251-273, and `/repo/src/ieme/raw_fraction.test.cpp:29-48`). -/

example : Stream.write ⟨-5, 7⟩ = "-5/7".toList := by decide +kernel

example :
    (do let five ← DenLit.divRep i32 (-5) (DenLit.fr 7)
        Fraction.cmp i32 i32 .defaults .equalTo
          (.ff (Stream.read i32 ⟨" -5 / 7 ".toList, false, false⟩ Fraction.default).1 five))
      = .ok true false := by decide +kernel

/-! Raw fractions (`/repo/src/ieme/raw_fraction.test.cpp:10-27`). -/

example : Raw.conv i64 ⟨-54, 47⟩ = .ok ⟨-54, 47⟩ false := by decide +kernel

end Ieme.Tests
