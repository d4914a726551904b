import Verif.Model.StreamExcept

/-!
# Stream input from a device that can break down

`Verif/Model/Stream.lean` and `Verif/Model/StreamFmt.lean` read from a device that delivers its text
and then reports the end.  Here the device may instead break down after its text: the stream buffer
throws when it is asked for more (`std::streambuf::underflow` of a file with a read error does in
libstdc++).  For the operators of `/repo/include/ieme/raw_fraction.hpp:64-71` and
`/repo/include/ieme/fraction.hpp:506-511` that means:

* an input function that meets the exception stores nothing, sets `badbit` and, if exceptions are
  enabled for `badbit`, passes the exception on ([istream.formatted.reqmts],
  [istream.unformatted]); it asks for more than the text exactly where it would have found the end;
* if that happens while whitespace is skipped, `failbit` is set too, since the stream is not good at
  the end of the sentry ([istream.sentry], as in libstdc++);
* on a stream that is not good every input function only sets `failbit`.
-/

namespace Ieme.Stream

/-- An input stream: the text that the device still delivers, whether the device then breaks down or
reports the end, and the state. -/
structure DStream where
  rest : List Char
  breaks : Bool
  eof : Bool := false
  fail : Bool := false
  bad : Bool := false
deriving DecidableEq, Repr

/-- `stream.good()` -/
def DStream.good (s : DStream) : Bool := !s.eof && !s.fail && !s.bad

/-- `stream.fail()`, the negation of the stream as a condition. -/
def DStream.failed (s : DStream) : Bool := s.fail || s.bad

/-- `stream.exceptions()`. -/
structure DMask where
  eof : Bool := false
  fail : Bool := false
  bad : Bool := false
deriving DecidableEq, Repr

/-- The state of the stream has a bit of the mask. -/
def DMask.hits (m : DMask) (s : DStream) : Bool :=
  (m.eof && s.eof) || (m.fail && s.fail) || (m.bad && s.bad)

/-- A function that ends with `setstate`. -/
def DMask.call {α : Type} (m : DMask) (a : α) (s : DStream) : Call (α × DStream) :=
  if m.hits s then .thrown else .returned (a, s)

/-- The state after an exception of the device. -/
def DStream.broken (s : DStream) (sentry : Bool) : DStream :=
  { s with rest := [], bad := true, fail := sentry }

/-- `stream >> value` for an integer. -/
def getIntD (m : DMask) (fl : Flags) (T : IntTy) (s : DStream) (old : Int) : Call (Int × DStream) :=
  if s.good then
    let r := getIntF fl T ⟨s.rest, false, false⟩ old
    if s.breaks && r.2.eof then
      m.call old (s.broken (fl.skipws && (s.rest.dropWhile isSpace).isEmpty))
    else m.call r.1 { s with rest := r.2.rest, eof := r.2.eof, fail := r.2.fail }
  else m.call old { s with fail := true }

/-- `stream.ignore(std::numeric_limits<std::streamsize>::max(), delim)`. -/
def ignoreD (m : DMask) (s : DStream) (delim : Char) : Call (Unit × DStream) :=
  if s.good then
    let r := ignore ⟨s.rest, false, false⟩ delim
    if s.breaks && r.eof then m.call () (s.broken false)
    else m.call () { s with rest := r.rest, eof := r.eof, fail := r.fail }
  else m.call () { s with fail := true }

/-- `operator>>`, `/repo/include/ieme/raw_fraction.hpp:64-71`. -/
def readD (m : DMask) (fl : Flags) (T : IntTy) (s : DStream) (value : Raw) : Call (Raw × DStream) :=
  .noexcept <|
    (getIntD m fl T s value.num).andThen fun n =>
      (ignoreD m n.2 '/').andThen fun s' =>
        (getIntD m fl T s'.2 value.den).andThen fun d =>
          .returned (⟨n.1, d.1⟩, d.2)

/-- A user program that reads as far as it can, `while (stream >> value) values.push_back(value);`,
with at most `fuel` extractions: `none` if they are not enough. -/
def readWhileD (m : DMask) (fl : Flags) (T : IntTy) :
    (fuel : Nat) → DStream → Raw → Option (Call (List Raw × DStream))
  | 0, _, _ => none
  | fuel + 1, s, value =>
    match readD m fl T s value with
    | .returned r =>
      if r.2.failed then some (.returned ([], r.2))
      else (readWhileD m fl T fuel r.2 r.1).map fun c =>
        c.andThen fun q => .returned (r.1 :: q.1, q.2)
    | .thrown => some .thrown
    | .terminated => some .terminated

end Ieme.Stream
