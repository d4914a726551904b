import Verif.Model.StreamExcept

/-!
# Stream output to a device that can be full

`Verif/Model/Stream.lean` and `Verif/Model/StreamFmt.lean` give the characters that the operators
of `/repo/include/ieme/raw_fraction.hpp:57-62` and `/repo/include/ieme/fraction.hpp:499-504` write
if the device takes them all.  Here the device takes as many as it has room for, and the state of
the stream is kept:

* an inserter does nothing but set `failbit` unless the stream is good ([ostream.sentry]);
* it sends its characters until the device refuses one, and then sets `badbit`
  ([ostream.formatted.reqmts], [ostream.formatted.arithmetic], [ostream.inserters.character]); the
  width is zero afterwards;
* `setstate` throws if the state it arrives at has a bit of `stream.exceptions()`
  ([iostate.flags]), and both operators are declared `noexcept`.

`eofbit`, which output never sets, is left out.
-/

namespace Ieme.Stream

/-- An output stream: what the device has received and, unless it is unlimited, how many more
characters it takes; the width; `badbit` and `failbit`. -/
structure OStream where
  text : List Char
  room : Option Nat
  width : Nat := 0
  bad : Bool := false
  fail : Bool := false
deriving DecidableEq, Repr

/-- `stream.good()` -/
def OStream.good (s : OStream) : Bool := !s.bad && !s.fail

/-- Sending characters to the device. -/
def OStream.send (s : OStream) (cs : List Char) : OStream :=
  match s.room with
  | none => { s with text := s.text ++ cs }
  | some k =>
    if cs.length ≤ k then { s with text := s.text ++ cs, room := some (k - cs.length) }
    else { s with text := s.text ++ cs.take k, room := some 0, bad := true }

/-- A formatted output function that produces the given characters. -/
def OStream.insert (s : OStream) (cs : List Char) : OStream :=
  if s.good then { s.send cs with width := 0 } else { s with fail := true }

/-- `stream << value` for an integer. -/
def OStream.putInt (fl : Flags) (T : IntTy) (s : OStream) (v : Int) : OStream :=
  s.insert (put fl s.width T v)

/-- `stream << c` for a character, padded like a string. -/
def OStream.putChar (fl : Flags) (s : OStream) (c : Char) : OStream :=
  let pad := List.replicate (s.width - 1) fl.fill
  s.insert (if fl.adjust = .left then c :: pad else pad ++ [c])

/-- `operator<<`, `/repo/include/ieme/raw_fraction.hpp:57-62`, for a stream that does not throw. -/
def OStream.write (fl : Flags) (T : IntTy) (s : OStream) (value : Raw) : OStream :=
  ((s.putInt fl T value.num).putChar fl '/').putInt fl T value.den

/-- The bits of `stream.exceptions()` that concern output. -/
structure OMask where
  bad : Bool := false
  fail : Bool := false
deriving DecidableEq, Repr

/-- The state of the stream has a bit of the mask. -/
def OMask.hits (m : OMask) (s : OStream) : Bool := (m.bad && s.bad) || (m.fail && s.fail)

/-- A function that ends with `setstate`. -/
def OMask.call (m : OMask) (s : OStream) : Call OStream := if m.hits s then .thrown else .returned s

/-- `operator<<`, `/repo/include/ieme/raw_fraction.hpp:57-62`. -/
def writeX (m : OMask) (fl : Flags) (T : IntTy) (s : OStream) (value : Raw) : Call OStream :=
  .noexcept <|
    (m.call (s.putInt fl T value.num)).andThen fun s₁ =>
      (m.call (s₁.putChar fl '/')).andThen fun s₂ =>
        m.call (s₂.putInt fl T value.den)

/-- A user program, `for (auto const& v : values) stream << v << sep;`. -/
def writeEach (fl : Flags) (T : IntTy) (sep : Char) (s : OStream) : List Raw → OStream
  | [] => s
  | v :: vs => writeEach fl T sep ((s.write fl T v).putChar fl sep) vs

end Ieme.Stream
