import Verif.Lemmas.Fraction

/-!
# Lemmas on the operands of comparisons
-/

namespace Ieme

open Res IntTy

variable {T : IntTy} {o : Ops} {a : Args} {x y : ℚ} {b c : Bool}

/-- The operands are all defined or some operand is undefined. -/
theorem Args.denote_or_undefined (a : Args) : (∃ x y, a.Denote x y) ∨ a.HasUndefined := by
  cases a with
  | ff l r =>
    by_cases hl : l.den = 0
    · exact .inr (.inl hl)
    · by_cases hr : r.den = 0
      · exact .inr (.inr hr)
      · exact .inl ⟨_, _, denotes_self hl, denotes_self hr⟩
  | fr l r =>
    by_cases hl : l.den = 0
    · exact .inr hl
    · exact .inl ⟨_, _, denotes_self hl, rfl⟩
  | rf l r =>
    by_cases hl : r.den = 0
    · exact .inr hl
    · exact .inl ⟨_, _, rfl, denotes_self hl⟩

end Ieme
