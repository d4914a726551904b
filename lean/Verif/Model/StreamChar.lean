import Verif.Model.Stream
import Verif.Model.Narrow

/-!
# Streams of fractions with 8-bit representations

`signed char` and `unsigned char`, which are `std::int8_t` and `std::uint8_t`, are character types
to the standard streams: `stream << value.numerator` writes one character
([ostream.inserters.character]) and `stream >> value.numerator` skips whitespace and reads one
([istream.extractors]).  The operators of `/repo/include/ieme/raw_fraction.hpp:57-71` therefore
write and read characters for these representations.  Streams are those of
`Verif/Model/Stream.lean`; a character is its code, below 256.
-/

namespace Ieme.Stream

/-- `stream << value` for a character type: the character with the code `value` modulo 256. -/
def charOf (v : Int) : Char := Char.ofNat (v % 256).toNat

/-- The value that a character type has for a character. -/
def charVal (N : NarrowTy) (c : Char) : Int := N.wrap c.toNat

/-- `stream >> value` for a character type: new value and stream.  No character after the one
read is looked at. -/
def getChar (N : NarrowTy) (s : IStream) (old : Int) : Int × IStream :=
  if s.eof || s.fail then (old, { s with fail := true })
  else
    match s.rest.dropWhile isSpace with
    | [] => (old, ⟨[], true, true⟩)
    | c :: t => (charVal N c, ⟨t, false, false⟩)

/-- `operator<<`, `/repo/include/ieme/raw_fraction.hpp:57-62`, for an 8-bit representation. -/
def writeChar (value : Raw) : List Char := [charOf value.num, '/', charOf value.den]

/-- `operator>>`, `/repo/include/ieme/raw_fraction.hpp:64-71`, for an 8-bit representation. -/
def readChar (N : NarrowTy) (s : IStream) (value : Raw) : Raw × IStream :=
  let n := getChar N s value.num
  let s' := ignore n.2 '/'
  let d := getChar N s' value.den
  (⟨n.1, d.1⟩, d.2)

end Ieme.Stream
