import Verif.Model.FractionMath

/-!
# Parsing floating-point literals

Models `/repo/include/ieme/parse_utilities.hpp` and `floating_point_string_to_fraction` of
`/repo/include/ieme/floating_point.hpp`.  A `std::string_view` is a list of characters; a
`char` is a Lean `Char` (every byte is one), which makes the model slightly more general.
`std::string_view::npos` is `none`.
-/

namespace Ieme

/-! The members of `std::string_view` used by the parser ([string.view]). -/
namespace View

/-- `find(c)`: position of the first `c`, or `npos`. -/
def find (c : Char) : List Char → Option Nat
  | [] => none
  | x :: s => if x = c then some 0 else (find c s).map (· + 1)

/-- `substr(0, n)`: the first `n` characters, or all of them when there are fewer. -/
def prefix' (s : List Char) : Option Nat → List Char
  | none => s
  | some n => s.take n

/-- `remove_prefix(n)`: undefined behaviour when `n` exceeds the size. -/
def removePrefix (s : List Char) (n : Nat) : Res (List Char) :=
  if n ≤ s.length then pure (s.drop n) else .fault .outOfBounds

/-- `front()`: undefined behaviour on an empty view. -/
def front : List Char → Res Char
  | [] => .fault .outOfBounds
  | c :: _ => pure c

/-- `size() - 1` in `std::size_t`: `npos` for an empty view. -/
def lastPos (s : List Char) : Option Nat := if s.length = 0 then none else some (s.length - 1)

end View

namespace Parse

/-- `floating_point_string_scan_results`,
`/repo/include/ieme/parse_utilities.hpp:19-26`. `negative` is `exponent_sign`. -/
structure Scan where
  base : Int := 10
  whole : List Char := []
  fractional : List Char := []
  precision : Int := 0
  negative : Bool := false
  exponent : List Char := []
deriving DecidableEq, Repr

/-- The loop of `is_valid_digit_sequence`; `preceded` is `digit_preceeded`.
`/repo/include/ieme/parse_utilities.hpp:159-180`. -/
def validLoop (base : Int) : Bool → List Char → Bool
  | preceded, [] => preceded
  | preceded, c :: s =>
    if c = '\'' then
      if !preceded then false else validLoop base false s
    else if (c < '0' || c > '9') && (((c < 'a' || c > 'f') && (c < 'A' || c > 'F')) || base != 16)
    then false
    else validLoop base true s

/-- `is_valid_digit_sequence`, lines 156-181. -/
def isValidDigitSequence (s : List Char) (base : Int) : Bool := validLoop base false s

/-- `digit_as_int`, lines 195-203; the characters are promoted to `int`. -/
def digitAsInt (T : IntTy) (c : Char) : Res Int :=
  if c ≥ 'A' ∧ c ≤ 'F' then T.conv ((c.toNat : Int) - 65 + 10)
  else if c ≥ 'a' ∧ c ≤ 'f' then T.conv ((c.toNat : Int) - 97 + 10)
  else T.conv ((c.toNat : Int) - 48)

/-- The loop of `digit_sequence_to_int` over the reversed sequence, lines 190-207. -/
def digitLoop (T : IntTy) (base : Int) : List Char → Int → Int → Res Int
  | [], result, _ => pure result
  | c :: s, result, power =>
    if c = '\'' then digitLoop T base s result power
    else do
      let d ← digitAsInt T c
      let p ← T.mul d power
      let result' ← T.add result p
      let power' ← T.mul power base
      digitLoop T base s result' power'

/-- `digit_sequence_to_int`, lines 183-210. -/
def digitSequenceToInt (T : IntTy) (s : List Char) (base : Int) : Res Int :=
  digitLoop T base s.reverse 0 1

/-- The count of `fractional_precision`, lines 121-129: an `unsigned int`, stored in an
`int`. -/
def precision (fractional : List Char) : Res Int := do
  let n ← fractional.foldlM (fun n c => if c ≠ '\'' then u32.add n 1 else pure n) 0
  i32.conv n

/-- Base prefix, lines 54-63: the base and the remaining string. -/
def scanPrefix (string : List Char) : Res (Int × List Char) :=
  if string.length > 2 then
    if View.prefix' string (some 2) = ['0', 'x'] ∨ View.prefix' string (some 2) = ['0', 'X'] then do
      let rest ← View.removePrefix string 2
      return (16, rest)
    else return (10, string)
  else return (10, string)

/-- Exponent sign and digits, lines 136-153. -/
def scanExponent (results : Scan) (remaining : List Char) : Res (Option Scan) := do
  let c ← View.front remaining
  let (negative, rest) ←
    if c = '-' then do
      let r ← View.removePrefix remaining 1
      pure (true, r)
    else if c = '+' then do
      let r ← View.removePrefix remaining 1
      pure (results.negative, r)
    else pure (results.negative, remaining)
  if !isValidDigitSequence rest 10 then return none
  return some { results with negative := negative, exponent := rest }

/-- `exponent_separator_pos`, lines 87-96. -/
def exponentPos (base : Int) (remaining : List Char) : Option Nat :=
  let (lower, upper) := if base = 10 then ('e', 'E') else ('p', 'P')
  match View.find lower remaining with
  | some p => some p
  | none => View.find upper remaining

/-- Fraction and exponent, lines 87-153, after the radix separator (if any) was removed. -/
def scanFractional (results : Scan) (noWhole noRadix : Bool) (remaining : List Char) :
    Res (Option Scan) :=
  let pos := exponentPos results.base remaining
  if pos = View.lastPos remaining then pure none
  else if noRadix && pos.isNone then pure none
  else if results.base = 16 && pos.isNone then pure none
  else
    let fractional := View.prefix' remaining pos
    let noFractional := fractional.isEmpty
    if noWhole && noFractional then pure none
    else if !(noFractional || isValidDigitSequence fractional results.base) then pure none
    else do
      let p ← precision fractional
      let results' := { results with fractional := fractional, precision := p }
      match pos with
      | none => return some results'
      | some n => do
        let rest ← View.removePrefix remaining (n + 1)
        scanExponent results' rest

/-- Whole part, lines 65-85. -/
def scanWhole (base : Int) (remaining : List Char) : Res (Option Scan) :=
  let radix := View.find '.' remaining
  let whole := View.prefix' remaining radix
  let results : Scan := { base := base, whole := whole }
  let noWhole := whole.isEmpty
  if !(noWhole || isValidDigitSequence whole base) then pure none
  else if radix = View.lastPos remaining then
    if base = 10 then pure (some results) else pure none
  else match radix with
    | none => scanFractional results noWhole true remaining
    | some n => do
      let rest ← View.removePrefix remaining (n + 1)
      scanFractional results noWhole false rest

/-- `scan_floating_point_string`, lines 42-154. -/
def scan (string : List Char) : Res (Option Scan) :=
  if string.length < 2 then pure none
  else do
    let (base, remaining) ← scanPrefix string
    scanWhole base remaining

/-- `floating_point_string_to_fraction` after a successful scan,
`/repo/include/ieme/floating_point.hpp:101-128`. -/
def scanValue (T : IntTy) (o : Ops) (r : Scan) : Res Raw := do
  let base ← T.conv r.base
  let whole ← digitSequenceToInt T r.whole base
  let num ← digitSequenceToInt T r.fractional base
  let prec ← T.conv r.precision
  let den ← mathPow T base prec
  let exponentBase : Int := if r.base = 10 then 10 else 2
  let multiplier : Int := if r.negative then -1 else 1
  let e ← digitSequenceToInt i32 r.exponent 10
  let exponent ← i32.mul multiplier e
  let sum ← Fraction.arith T T o .plus (.rf whole (Fraction.mk num den))
  let power ← Fraction.pow T exponentBase exponent
  Fraction.arith T T o .multiplies (.ff sum power)

/-- `floating_point_string_to_fraction`,
`/repo/include/ieme/floating_point.hpp:91-129`; `limits::undefined()` is `0/0`
(`/repo/include/ieme/limits.hpp:169-173`). -/
def toFraction (T : IntTy) (o : Ops) (string : List Char) : Res Raw := do
  match ← scan string with
  | none => return ⟨0, 0⟩
  | some r => scanValue T o r

/-- `operator""_dec`, `/repo/include/ieme/fraction_literals.hpp:106-113`. -/
def dec (string : List Char) : Res Raw := do
  let r ← toFraction i64 .defaults string
  if r.isDefined then return r else .fault .thrown

end Parse
end Ieme
