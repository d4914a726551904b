import Verif.Spec.Source
import Verif.Spec.TypedProgram
import Verif.Model.StaticAssert

/-!
# What a comparison in program text means

Of the model only the data types are used.
-/

namespace Ieme.Source

open Overload

/-- The operators as they are written. -/
def cmpText : CmpOp → List Char
  | .equalTo => ['=', '=']
  | .notEqualTo => ['!', '=']
  | .less => ['<']
  | .lessEqual => ['<', '=']
  | .greater => ['>']
  | .greaterEqual => ['>', '=']

/-- The text is the expression `e` ([expr.add]). -/
def Spells (text : List Char) (e : Src) : Prop := ∃ ts, Lexes text ts ∧ Additive e ts

/-- The text is the comparison `l op r` ([expr.rel], [expr.eq]). -/
def SpellsCmp (text : List Char) (op : CmpOp) (l r : Src) : Prop :=
  ∃ a b, text = a ++ cmpText op ++ b ∧ Spells a l ∧ Spells b r

/-- The expression is a `_fr` literal, perhaps with signs. -/
def Src.IsFr : Src → Prop
  | .fr _ => True
  | .pos e => e.IsFr
  | .neg e => e.IsFr
  | _ => False

/-- No `_fr` literal has a minus sign. -/
def Src.Plain : Src → Prop
  | .int _ _ => True
  | .fr _ => True
  | .dec _ => True
  | .pos e => e.Plain
  | .neg e => e.Plain ∧ ¬ e.IsFr
  | .bin _ l r => l.Plain ∧ r.Plain

end Ieme.Source
