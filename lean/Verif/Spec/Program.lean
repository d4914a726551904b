import Verif.Model.Program
import Verif.Spec.Expr

/-!
# What a program means over the rational numbers

A big-step relation, without any bound on the number of steps.
-/

namespace Ieme

/-- The value of an expression when the variables hold `s`; `none` if something in it has no
value. -/
def PExpr.value (s : ℕ → ℚ) : PExpr → Option ℚ
  | .var x => some (s x)
  | .lit f => litValue f
  | .neg e => (e.value s).map fun x => -x
  | .pos e => e.value s
  | .ff op e1 e2 => (e1.value s).bind fun x => (e2.value s).bind fun y => op.value x y
  | .fr op e n => (e.value s).bind fun x => op.value x n
  | .rf op n e => (e.value s).bind fun y => op.value n y

/-- `Runs c s s'`: the program `c`, started with `s`, terminates with `s'`, and everything it
evaluates has a value. -/
inductive Runs : Cmd → (ℕ → ℚ) → (ℕ → ℚ) → Prop
  | skip {s} : Runs .skip s s
  | assign {s x e q} (he : e.value s = some q) :
      Runs (.assign x e) s fun y => if y = x then q else s y
  | seq {c d s s' s''} (hc : Runs c s s') (hd : Runs d s' s'') : Runs (.seq c d) s s''
  | iteTrue {op e1 e2 c d s s' p q} (h1 : e1.value s = some p) (h2 : e2.value s = some q)
      (h : op.Holds p q) (hc : Runs c s s') : Runs (.ite op e1 e2 c d) s s'
  | iteFalse {op e1 e2 c d s s' p q} (h1 : e1.value s = some p) (h2 : e2.value s = some q)
      (h : ¬ op.Holds p q) (hd : Runs d s s') : Runs (.ite op e1 e2 c d) s s'
  | loopTrue {op e1 e2 c s s' s'' p q} (h1 : e1.value s = some p) (h2 : e2.value s = some q)
      (h : op.Holds p q) (hc : Runs c s s') (hl : Runs (.loop op e1 e2 c) s' s'') :
      Runs (.loop op e1 e2 c) s s''
  | loopFalse {op e1 e2 c s p q} (h1 : e1.value s = some p) (h2 : e2.value s = some q)
      (h : ¬ op.Holds p q) : Runs (.loop op e1 e2 c) s s

/-- Every variable holds a fraction with the given value. -/
def Mem.Holds (m : Mem) (s : ℕ → ℚ) : Prop := ∀ x, Denotes (m x) (s x)

/-- Every condition in the program tests for equality or inequality. -/
def Cmd.OnlyEquality : Cmd → Prop
  | .skip | .assign _ _ => True
  | .seq c d => c.OnlyEquality ∧ d.OnlyEquality
  | .ite op _ _ c d => ¬ op.IsOrder ∧ c.OnlyEquality ∧ d.OnlyEquality
  | .loop op _ _ c => ¬ op.IsOrder ∧ c.OnlyEquality

end Ieme
