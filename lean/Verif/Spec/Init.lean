import Verif.Model.Init
import Verif.Spec.MixedNumber
import Verif.Spec.Rational

/-!
# Which conversions there should be, and what they should preserve
-/

namespace Ieme.Init

/-- The implicit conversions, apart from those to floating-point types. -/
inductive Implicit : Ty → Ty → Prop
  | refl (X) : Implicit X X
  | intInt (S T) : Implicit (.int S) (.int T)
  | fltInt (T) : Implicit .flt (.int T)
  | intFrac (S T o) : Implicit (.int S) (.frac T o)
  | fltFrac (T o) : Implicit .flt (.frac T o)
  | intMixed (S W F o) : Implicit (.int S) (.mixed W F o)
  | fltMixed (W F o) : Implicit .flt (.mixed W F o)
  | intLit (S s o) : Implicit (.int S) (.lit s o)
  | fltLit (s o) : Implicit .flt (.lit s o)
  | ratioFrac (N D T o) : Implicit (.ratio N D) (.frac T o)
  | rawRaw (S T) : Implicit (.raw S) (.raw T)
  | rawFrac (T o) : Implicit (.raw T) (.frac T o)
  | fracFrac (S T o) : Implicit (.frac S o) (.frac T o)
  | fracMixed (S W F o) : Implicit (.frac S o) (.mixed W F o)
  | mixedFrac (W F o) : Implicit (.mixed W F o) (.frac (IntTy.common W F) o)

/-- The conversions that are possible when asked for with parentheses. -/
inductive Explicit : Ty → Ty → Prop
  | implicit {S X} (h : Implicit S X) : Explicit S X
  | rawFrac (S T o) : Explicit (.raw S) (.frac T o)
  | fracFrac (S T o o') : Explicit (.frac S o) (.frac T o')
  | fracMixed (S W F o o') : Explicit (.frac S o) (.mixed W F o')

/-- Whether an initialisation compiles. -/
def Compiles (form : Form) (S X : Ty) : Prop := ∃ f i, resolve form S X = .calls f i

/-- The policy of a class. -/
def Ty.policy : Ty → Option Ops
  | .frac _ o => some o
  | .mixed _ _ o => some o
  | .lit _ o => some o
  | _ => none

/-- The value of an object of type `S` is the rational number `q`. -/
def Means : Ty → Val → ℚ → Prop
  | .int _, .int n, q => q = n
  | .flt, .flt (some x), q => q = x
  | .ratio N D, .ratio, q => D ≠ 0 ∧ q = (N : ℚ) / D
  | .raw _, .raw f, q => Denotes f q
  | .frac _ _, .frac f, q => Denotes f q
  | .mixed _ _ _, .mixed m, q => m.Denotes q
  | .lit _ _, .lit n, q => q = n
  | _, _, _ => False

/-- The value is one that an object of the type can have. -/
def Valid : Ty → Val → Prop
  | .int S, .int n => S.InRange n
  | .flt, .flt _ => True
  | .ratio _ _, .ratio => True
  | .raw S, .raw f => f.InRange S
  | .frac S _, .frac f => f.InRange S
  | .mixed W F _, .mixed m => m.InRange W F
  | .lit s _, .lit n => (litTy s).InRange n
  | _, _ => False

/-- The parts of a fraction. -/
def parts : Val → Option Raw
  | .raw f => some f
  | .frac f => some f
  | _ => none

/-- The representation of a fraction. -/
def rep : Ty → Option IntTy
  | .raw T => some T
  | .frac T _ => some T
  | _ => none

/-- One initialisation after the other. -/
def chain (S : Ty) (v : Val) : List (Form × Ty) → Res Val
  | [] => pure v
  | (form, X) :: l => do
    let w ← init form S X v
    chain X w l

/-- The type at the end of a chain. -/
def chainTy (S : Ty) : List (Form × Ty) → Ty
  | [] => S
  | (_, X) :: l => chainTy X l

end Ieme.Init
