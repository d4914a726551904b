import Verif.Model.StreamFmt

/-!
# Stream extraction with exceptions enabled

`stream.exceptions(mask)` makes a stream throw `std::ios_base::failure` as soon as its state has a
bit of the mask: `setstate` throws if the state it arrives at has one ([iostate.flags]).  The
extraction operators of `/repo/include/ieme/raw_fraction.hpp:64-71` and
`/repo/include/ieme/fraction.hpp:506-511` are declared `noexcept`; an exception that would leave
such a function calls `std::terminate` ([except.spec]).  Of the mask `eofbit` and `failbit` are
kept, as of the state.
-/

namespace Ieme.Stream

/-- `stream.exceptions()`. -/
structure Mask where
  eof : Bool := false
  fail : Bool := false
deriving DecidableEq, Repr

/-- The state of the stream has a bit of the mask. -/
def Mask.hits (m : Mask) (s : IStream) : Bool := (m.eof && s.eof) || (m.fail && s.fail)

/-- How a call ends. -/
inductive Call (α : Type) where
  | returned (a : α)
  /-- an exception that the caller can catch -/
  | thrown
  /-- `std::terminate` -/
  | terminated
deriving DecidableEq, Repr

/-- What follows a call: nothing after an exception. -/
def Call.andThen {α β : Type} (c : Call α) (k : α → Call β) : Call β :=
  match c with
  | .returned a => k a
  | .thrown => .thrown
  | .terminated => .terminated

/-- A `noexcept` function with the given body. -/
def Call.noexcept {α : Type} (c : Call α) : Call α :=
  match c with
  | .returned a => .returned a
  | .thrown => .terminated
  | .terminated => .terminated

/-- `stream >> value` for an integer. -/
def getIntX (m : Mask) (fl : Flags) (T : IntTy) (s : IStream) (old : Int) : Call (Int × IStream) :=
  let r := getIntF fl T s old
  if m.hits r.2 then .thrown else .returned r

/-- `stream.ignore(std::numeric_limits<std::streamsize>::max(), delim)`. -/
def ignoreX (m : Mask) (s : IStream) (delim : Char) : Call IStream :=
  let r := ignore s delim
  if m.hits r then .thrown else .returned r

/-- `operator>>`, `/repo/include/ieme/raw_fraction.hpp:64-71`. -/
def readX (m : Mask) (fl : Flags) (T : IntTy) (s : IStream) (value : Raw) : Call (Raw × IStream) :=
  .noexcept <|
    (getIntX m fl T s value.num).andThen fun n =>
      (ignoreX m n.2 '/').andThen fun s' =>
        (getIntX m fl T s' value.den).andThen fun d =>
          .returned (⟨n.1, d.1⟩, d.2)

/-- A user program that reads to the end, `while (stream >> value) values.push_back(value);`, with at
most `fuel` extractions: `none` if they are not enough. -/
def readWhile (m : Mask) (fl : Flags) (T : IntTy) :
    (fuel : Nat) → IStream → Raw → Option (Call (List Raw × IStream))
  | 0, _, _ => none
  | fuel + 1, s, value =>
    match readX m fl T s value with
    | .returned r =>
      if r.2.fail then some (.returned ([], r.2))
      else (readWhile m fl T fuel r.2 r.1).map fun c =>
        c.andThen fun q => .returned (r.1 :: q.1, q.2)
    | .thrown => some .thrown
    | .terminated => some .terminated

end Ieme.Stream
