import Verif.Model.MixedNumber

/-!
# Results in wide types
-/

namespace Ieme

/-- From some width of signed types on, the computation finishes without overflow or wrap-around, and
always with the same result. -/
def Settles {α : Type} (f : IntTy → Res α) (v : α) : Prop :=
  ∃ N : Nat, ∀ T : IntTy, T.signed = true → N ≤ T.bits → f T ⇓ v

/-- An expression over mixed numbers with every type replaced by `T`. -/
def MExpr.retype (T : IntTy) : MExpr → MExpr
  | .dflt _ _ => .dflt T T
  | .mk _ _ w f => .mk T T w f
  | .ofFraction _ _ _ f => .ofFraction T T T f
  | .pos e => .pos (e.retype T)
  | .neg e => .neg (e.retype T)
  | .add l r => .add (l.retype T) (r.retype T)
  | .addFraction e _ f => .addFraction (e.retype T) T f
  | .addWhole e _ n => .addWhole (e.retype T) T n

end Ieme
