import Verif.Model.FractionMath

/-!
# `math_utilities::pow` with its calls counted

The same function as `mathPow`, returning also how many calls of `pow` are made.  Each call
makes at most one further call, so that number is also the greatest number of calls active at
one time.  The recursive call comes before the multiplication, so it is made whether or not
the multiplication overflows.
-/

namespace Ieme

/-- `math_utilities::pow<Int>`, with the number of calls.
`/repo/include/ieme/math_utilities.hpp:40-52`. -/
def mathPowCalls (T : IntTy) (base exponent : Int) : Res Int × Nat :=
  if exponent = 0 then (pure 1, 1)
  else if exponent.tmod 2 = 1 then
    let p := mathPowCalls T base (exponent - 1)
    (do T.mul base (← p.1), p.2 + 1)
  else
    let squareRoot := mathPowCalls T base (exponent.tdiv 2)
    (do let s ← squareRoot.1; T.mul s s, squareRoot.2 + 1)
termination_by exponent.natAbs
decreasing_by
  · rename_i h0 h1
    rcases Int.lt_or_le exponent 0 with h | h
    · have h2 := Int.neg_tmod (-exponent) 2
      have h3 := Int.tmod_nonneg 2 (a := -exponent) (by omega)
      rw [Int.neg_neg] at h2
      omega
    · omega
  · rename_i h0 h1
    rw [Int.natAbs_tdiv]
    exact Nat.div_lt_self (by omega) (by decide)

end Ieme
