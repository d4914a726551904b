import Verif.Model.StreamOut

/-!
# What a device with limited room receives
-/

namespace Ieme.Stream

/-- The device has room for `n` more characters. -/
def OStream.Takes (s : OStream) (n : Nat) : Prop := ∀ k, s.room = some k → n ≤ k

/-- As much of a text as the device takes. -/
def OStream.cut (s : OStream) (cs : List Char) : List Char :=
  match s.room with
  | none => cs
  | some k => cs.take k

instance (s : OStream) (n : Nat) : Decidable (s.Takes n) :=
  match h : s.room with
  | none => isTrue fun k e => by rw [h] at e; cases e
  | some k =>
    if hk : n ≤ k then isTrue fun k' e => by rw [h] at e; cases e; exact hk
    else isFalse fun e => hk (e k h)

end Ieme.Stream
