import Verif.Model.Stream

/-!
# Stream input and output with formatting flags

`Verif/Model/Stream.lean` models the stream operators of
`/repo/include/ieme/raw_fraction.hpp:57-71` for streams with their default formatting.  The
operators do not touch the formatting, so a user may have changed it; here it is a parameter.

* Output of an integer follows [facet.num.put.virtuals]: the base, `showbase`, `showpos` (only for
  signed types in decimal, as in libstdc++), `uppercase`, and padding to the width, which the first
  inserter resets to zero ([ostream.formatted.reqmts]).
* Input of an integer follows [facet.num.get.virtuals]: the base decides about the digits and
  about the prefix `0x`; without base flags the number decides about its base itself.
* `std::ios_base::skipws` decides whether whitespace is skipped.

The parts with default values are proved to agree with `Verif/Model/Stream.lean` (C98).
-/

namespace Ieme.Stream

/-- `std::ios_base::basefield`; `unset` when none of the flags is set. -/
inductive Base where
  | dec | oct | hex | unset
deriving DecidableEq, Repr

/-- `std::ios_base::adjustfield`; `right` also when none of the flags is set. -/
inductive Adjust where
  | left | right | internal
deriving DecidableEq, Repr

/-- The formatting state of a stream without the width. -/
structure Flags where
  base : Base := .dec
  adjust : Adjust := .right
  showbase : Bool := false
  showpos : Bool := false
  uppercase : Bool := false
  skipws : Bool := true
  fill : Char := ' '
deriving DecidableEq, Repr

/-! ## Output -/

/-- The base of the digits that are written. -/
def Base.outRadix : Base → Nat
  | .dec => 10
  | .oct => 8
  | .hex => 16
  | .unset => 10

/-- One digit. -/
def digitChar (upper : Bool) (d : Nat) : Char :=
  if d < 10 then Char.ofNat (48 + d) else Char.ofNat ((if upper then 65 else 97) + (d - 10))

/-- Digits of a natural number. -/
def digitsIn (b : Base) (upper : Bool) (n : Nat) : List Char :=
  if n < b.outRadix then [digitChar upper n]
  else digitsIn b upper (n / b.outRadix) ++ [digitChar upper (n % b.outRadix)]
termination_by n
decreasing_by
  have : 1 < b.outRadix := by cases b <;> decide
  exact Nat.div_lt_self (by omega) this

/-- The value that is written in octal or hexadecimal: that of the unsigned type. -/
def asUnsigned (T : IntTy) (v : Int) : Nat := (v % 2 ^ T.bits).toNat

/-- Sign, prefix and digits of `stream << value`. -/
def parts (fl : Flags) (T : IntTy) (v : Int) : List Char × List Char × List Char :=
  match fl.base with
  | .oct =>
    let m := asUnsigned T v
    ([], if fl.showbase ∧ m ≠ 0 then ['0'] else [], digitsIn .oct fl.uppercase m)
  | .hex =>
    let m := asUnsigned T v
    ([], if fl.showbase ∧ m ≠ 0 then ['0', if fl.uppercase then 'X' else 'x'] else [],
      digitsIn .hex fl.uppercase m)
  | b =>
    (if v < 0 then ['-'] else if fl.showpos ∧ T.signed then ['+'] else [], [],
      digitsIn b fl.uppercase v.natAbs)

/-- `stream << value` for an integer and a stream of the given width: the characters written. -/
def put (fl : Flags) (width : Nat) (T : IntTy) (v : Int) : List Char :=
  let (sign, pre, ds) := parts fl T v
  let pad := List.replicate (width - (sign ++ pre ++ ds).length) fl.fill
  match fl.adjust with
  | .left => sign ++ pre ++ ds ++ pad
  | .right => pad ++ (sign ++ pre ++ ds)
  | .internal =>
    if sign ≠ [] ∨ fl.base = .hex then sign ++ pre ++ pad ++ ds else pad ++ (sign ++ pre ++ ds)

/-- `operator<<`, `/repo/include/ieme/raw_fraction.hpp:57-62`: the characters written.  After the
numerator the width is zero. -/
def writeF (fl : Flags) (width : Nat) (T : IntTy) (value : Raw) : List Char :=
  put fl width T value.num ++ '/' :: put fl 0 T value.den

/-! ## Input -/

/-- The digits of a base. -/
def isDigitIn (r : Nat) (c : Char) : Bool :=
  (48 ≤ c.toNat ∧ c.toNat ≤ 57 ∧ c.toNat - 48 < r) ∨
    (r = 16 ∧ ((97 ≤ c.toNat ∧ c.toNat ≤ 102) ∨ (65 ≤ c.toNat ∧ c.toNat ≤ 70)))

/-- Value of a digit. -/
def digitVal (c : Char) : Nat :=
  if c.toNat ≤ 57 then c.toNat - 48 else if c.toNat ≤ 70 then c.toNat - 55 else c.toNat - 87

/-- Value of a sequence of digits. -/
def valueIn (r : Nat) (ds : List Char) : Nat := ds.foldl (fun a c => r * a + digitVal c) 0

/-- The base and the text after a prefix `0x`. -/
def splitBase (b : Base) (body : List Char) : Nat × List Char :=
  match b with
  | .dec => (10, body)
  | .oct => (8, body)
  | .hex =>
    match body with
    | '0' :: 'x' :: t => (16, t)
    | '0' :: 'X' :: t => (16, t)
    | _ => (16, body)
  | .unset =>
    match body with
    | '0' :: 'x' :: t => (16, t)
    | '0' :: 'X' :: t => (16, t)
    | '0' :: _ => (8, body)
    | _ => (10, body)

/-- `stream >> value` for an integer: new value and stream.  When whitespace is skipped and nothing
is left the sentry fails and the value is not touched. -/
def getIntF (fl : Flags) (T : IntTy) (s : IStream) (old : Int) : Int × IStream :=
  if s.eof || s.fail then (old, { s with fail := true })
  else
    let r := if fl.skipws then s.rest.dropWhile isSpace else s.rest
    if fl.skipws && r.isEmpty then (old, ⟨[], true, true⟩)
    else
      let sign := (splitSign r).1
      let (radix, body) := splitBase fl.base (splitSign r).2
      let ds := body.takeWhile (isDigitIn radix)
      let after := body.dropWhile (isDigitIn radix)
      if ds.isEmpty then (0, ⟨after, after.isEmpty, true⟩)
      else
        let v := store T sign (valueIn radix ds)
        (v.1, ⟨after, after.isEmpty, v.2⟩)

/-- `operator>>`, `/repo/include/ieme/raw_fraction.hpp:64-71`: new value and stream. -/
def readF (fl : Flags) (T : IntTy) (s : IStream) (value : Raw) : Raw × IStream :=
  let n := getIntF fl T s value.num
  let s' := ignore n.2 '/'
  let d := getIntF fl T s' value.den
  (⟨n.1, d.1⟩, d.2)

end Ieme.Stream
