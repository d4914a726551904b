import Verif.Model.StreamText
import Verif.Model.StreamChar
import Verif.Model.StreamIn
import Verif.Model.StreamLocale
import Verif.Model.StreamOut

/-!
# Spec: what the text of the stream operators does, and the streams of the model as devices
-/

namespace Ieme.StreamText

open Stream

variable {σ : Type}

/-- Evaluated from the text, `stream << v` or `stream >> v` ends with `r`: how the call ends, and
the object and the stream afterwards. -/
def Gives (D : Device σ) (d : Dir) (v : Obj) (s : σ) (r : Call (Obj × σ)) : Prop :=
  ∃ k, ∀ n, k ≤ n → invoke D program n d v s = some r

/-- The two kinds of objects, with the same parts. -/
def forms : List (Raw → Obj) := [.raw, .frac]

/-- A result without the object. -/
def _root_.Ieme.Stream.Call.map {α β : Type} (c : Call α) (k : α → β) : Call β :=
  c.andThen fun a => .returned (k a)

/-- A stream for input: nothing can be written. -/
def input (get : σ → Int → Call (Int × σ)) (ignore : σ → Char → Call σ) : Device σ :=
  ⟨fun _ _ => .terminated, fun _ _ => .terminated, get, ignore⟩

/-- A stream for output: nothing can be read. -/
def output (put : σ → Int → Call σ) (putChar : σ → Char → Call σ) : Device σ :=
  ⟨put, putChar, fun _ _ => .terminated, fun _ _ => .terminated⟩

/-- The input stream of `Verif/Model/Stream.lean`, given what it does with integers. -/
def plain (get : IStream → Int → Int × IStream) : Device IStream :=
  input (fun s x => .returned (get s x)) fun s c => .returned (ignore s c)

/-- That of `Verif/Model/StreamExcept.lean`. -/
def throwing (m : Mask) (fl : Flags) (T : IntTy) : Device IStream :=
  input (getIntX m fl T) (ignoreX m)

/-- That of `Verif/Model/StreamIn.lean`. -/
def breaking (m : DMask) (fl : Flags) (T : IntTy) : Device DStream :=
  input (getIntD m fl T) fun s c => (ignoreD m s c).map Prod.snd

/-- An unlimited output stream, as the text written so far, given the characters of integers. -/
def text (sh : Int → List Char) : Device (List Char) :=
  output (fun s x => .returned (s ++ sh x)) fun s c => .returned (s ++ [c])

/-- The same with a width, which goes back to zero. -/
def formatted (fl : Flags) (T : IntTy) : Device (List Char × Nat) :=
  output (fun s x => .returned (s.1 ++ put fl s.2 T x, 0)) fun s c =>
    let pad := List.replicate (s.2 - 1) fl.fill
    .returned (s.1 ++ (if fl.adjust = .left then c :: pad else pad ++ [c]), 0)

/-- The output stream of `Verif/Model/StreamOut.lean`. -/
def limited (m : OMask) (fl : Flags) (T : IntTy) : Device OStream :=
  output (fun s x => m.call (s.putInt fl T x)) fun s c => m.call (s.putChar fl c)

/-- What `stream << v` should do: the numerator, a slash, the denominator. -/
def insertion (D : Device σ) (f : Raw) (s : σ) : Call σ :=
  (D.put s f.num).andThen fun s => (D.putChar s '/').andThen fun s => D.put s f.den

/-- What `stream >> v` should do: the numerator, everything to the next slash, the denominator. -/
def extraction (D : Device σ) (f : Raw) (s : σ) : Call (Raw × σ) :=
  (D.get s f.num).andThen fun n => (D.ignore n.2 '/').andThen fun s =>
    (D.get s f.den).andThen fun d => .returned (⟨n.1, d.1⟩, d.2)

end Ieme.StreamText
