import Verif.Model.MixedNumber

/-!
# `hash.hpp`

Models `/repo/include/ieme/hash.hpp` for a `std::size_t` of `z` bits.  The standard leaves
`std::hash<Rep>` open, so it is the parameter `h`; `stdHash` is the choice of libstdc++.
The specialisations of `std::hash` (lines 94-115) call the functions below.
-/

namespace Ieme.Hash

/-- `hash_combine`, lines 80-84. -/
def combine {z : Nat} (left right : BitVec z) : BitVec z := left ^^^ (right <<< 1)

/-- `hash(raw_fraction)` and `hash(fraction)`, lines 60-71. -/
def fraction {z : Nat} (h : Int → BitVec z) (f : Raw) : BitVec z := combine (h f.num) (h f.den)

/-- `hash(mixed_number)`, lines 73-78: `hw` is `std::hash<WRep>`, `hf` is
`std::hash<FRep>`. -/
def mixed {z : Nat} (hw hf : Int → BitVec z) (m : Mixed) : BitVec z :=
  combine (hw m.whole) (fraction hf m.frac)

/-- `std::hash` of an integer type in libstdc++: `static_cast<size_t>`. -/
def stdHash (z : Nat) (x : Int) : BitVec z := BitVec.ofInt z x

end Ieme.Hash
