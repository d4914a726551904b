import Verif.Model.Fraction

/-!
# Stream input and output

Models the stream operators of `/repo/include/ieme/raw_fraction.hpp:57-71`, to which those of
`/repo/include/ieme/fraction.hpp:499-511` forward, on top of a model of the standard streams:

* the text that remains to be read is a list of characters; of the state bits `eofbit` and
  `failbit` are kept (for exceptions see `Model/StreamExcept`, for `badbit` on output
  `Model/StreamOut`);
* streams have their default formatting (decimal, no width, whitespace is skipped) and the
  classic locale;
* integer input follows [istream.formatted.arithmetic] and [facet.num.get.virtuals]; for
  unsigned types a minus sign is accepted and negates modulo `2^bits`, as in libstdc++ and
  in `std::strtoull`.
-/

namespace Ieme.Stream

/-- An input stream. -/
structure IStream where
  rest : List Char
  eof : Bool
  fail : Bool
deriving DecidableEq, Repr

/-- `std::isspace` in the classic locale. -/
def isSpace (c : Char) : Bool := c = ' ' ∨ (9 ≤ c.toNat ∧ c.toNat ≤ 13)

/-- A decimal digit. -/
def isDigit (c : Char) : Bool := 48 ≤ c.toNat ∧ c.toNat ≤ 57

/-- Value of a sequence of decimal digits. -/
def decimal (ds : List Char) : Nat := ds.foldl (fun a c => 10 * a + (c.toNat - 48)) 0

/-- An optional sign. -/
def splitSign : List Char → Bool × List Char
  | '-' :: t => (true, t)
  | '+' :: t => (false, t)
  | t => (false, t)

/-- Stage 3 of integer input: the value stored and whether the number is rejected. -/
def store (T : IntTy) (neg : Bool) (m : Nat) : Int × Bool :=
  let v : Int := if neg then -m else m
  if T.signed then
    if v < T.min then (T.min, true) else if T.max < v then (T.max, true) else (v, false)
  else
    if T.max < m then (T.max, true) else (T.wrap v, false)

/-- `stream >> value` for an integer: new value and stream. -/
def getInt (T : IntTy) (s : IStream) (old : Int) : Int × IStream :=
  if s.eof || s.fail then (old, { s with fail := true })
  else
    let r := s.rest.dropWhile isSpace
    if r.isEmpty then (old, ⟨[], true, true⟩)
    else
      let sign := (splitSign r).1
      let body := (splitSign r).2
      let ds := body.takeWhile isDigit
      let after := body.dropWhile isDigit
      if ds.isEmpty then (0, ⟨after, after.isEmpty, true⟩)
      else
        let v := store T sign (decimal ds)
        (v.1, ⟨after, after.isEmpty, v.2⟩)

/-- `stream.ignore(std::numeric_limits<std::streamsize>::max(), delim)`. -/
def ignore (s : IStream) (delim : Char) : IStream :=
  if s.eof || s.fail then { s with fail := true }
  else
    match s.rest.dropWhile (· ≠ delim) with
    | [] => ⟨[], true, false⟩
    | _ :: t => ⟨t, false, false⟩

/-- `operator>>`, `/repo/include/ieme/raw_fraction.hpp:64-71`: new value and stream. -/
def read (T : IntTy) (s : IStream) (value : Raw) : Raw × IStream :=
  let n := getInt T s value.num
  let s' := ignore n.2 '/'
  let d := getInt T s' value.den
  (⟨n.1, d.1⟩, d.2)

/-- Decimal digits of a natural number. -/
def digits (n : Nat) : List Char :=
  if n < 10 then [Char.ofNat (48 + n)]
  else digits (n / 10) ++ [Char.ofNat (48 + n % 10)]
termination_by n
decreasing_by omega

/-- `stream << value` for an integer: the characters written. -/
def showInt (v : Int) : List Char :=
  if v < 0 then '-' :: digits v.natAbs else digits v.natAbs

/-- `operator<<`, `/repo/include/ieme/raw_fraction.hpp:57-62`: the characters written. -/
def write (value : Raw) : List Char := showInt value.num ++ '/' :: showInt value.den

/-- A user program that reads into one fraction after the other,
`stream >> v1 >> v2 >> …`. -/
def readAll (T : IntTy) (s : IStream) : List Raw → List Raw × IStream
  | [] => ([], s)
  | v :: vs =>
    let r := read T s v
    let q := readAll T r.2 vs
    (r.1 :: q.1, q.2)

/-- A user program that writes fractions with a separator before each. -/
def writeAll : List (List Char × Raw) → List Char
  | [] => []
  | (w, v) :: vs => w ++ (write v ++ writeAll vs)

end Ieme.Stream
