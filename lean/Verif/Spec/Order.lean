import Verif.Model.Machine

/-!
# Evaluation order

C++ does not fix the order in which the operands of an operator or the arguments of a function
call are evaluated; operands of built-in operators may even be interleaved ([intro.execution],
[expr.call]).  A computation says which evaluations are sequenced; its outcomes are those of all the
permitted orders.
-/

namespace Ieme

/-- Computations with unsequenced parts. -/
inductive Comp : Type → Type 1 where
  /-- a single step -/
  | done {α : Type} (r : Res α) : Comp α
  /-- one computation after another: statements, braced initialisers, `&&`, `||`, `?:` -/
  | seq {α β : Type} (x : Comp α) (f : α → Comp β) : Comp β
  /-- both computations in any order or interleaved: operands and function arguments -/
  | unseq {α β : Type} (x : Comp α) (y : Comp β) : Comp (α × β)

namespace Comp

/-- `r` is a possible outcome.  A sequence fails with a failure of its first part or goes on with
its second; two unsequenced parts fail with a failure of either. -/
def Outcome : {α : Type} → Comp α → Res α → Prop
  | _, .done r, s => s = r
  | _, .seq x f, s =>
    (∃ k, x.Outcome (.fault k) ∧ s = .fault k) ∨
    (∃ a w k, x.Outcome (.ok a w) ∧ (f a).Outcome (.fault k) ∧ s = .fault k) ∨
    (∃ a w b w', x.Outcome (.ok a w) ∧ (f a).Outcome (.ok b w') ∧ s = .ok b (w || w'))
  | _, .unseq x y, s =>
    (∃ k, x.Outcome (.fault k) ∧ s = .fault k) ∨
    (∃ k, y.Outcome (.fault k) ∧ s = .fault k) ∨
    (∃ a w b w', x.Outcome (.ok a w) ∧ y.Outcome (.ok b w') ∧ s = .ok (a, b) (w || w'))

end Comp

/-- Two outcomes are the same or both are failures. -/
def Res.Agree {α : Type} (x y : Res α) : Prop := x = y ∨ ∃ k k', x = .fault k ∧ y = .fault k'

end Ieme
