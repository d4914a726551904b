import Verif.Spec.Algorithms

/-!
# What a map is
-/

namespace Ieme

/-- The value to which the first entry maps the number `q`. -/
def firstWith (q : ℚ) : List (Raw × ℤ) → Option ℤ
  | [] => none
  | (k, v) :: rest => if k.quot = q then some v else firstWith q rest

/-- The entries are in strictly ascending order of their keys' values. -/
def Ascending (l : List (Raw × ℤ)) : Prop := l.Pairwise fun a b => a.1.quot < b.1.quot

end Ieme
