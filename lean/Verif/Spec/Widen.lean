import Verif.Model.Machine

/-!
# Wider integer types
-/

namespace Ieme

/-- Every value of type `T` is a value of type `T'`. -/
def IntTy.Within (T T' : IntTy) : Prop := ∀ x : Int, T.InRange x → T'.InRange x

end Ieme
