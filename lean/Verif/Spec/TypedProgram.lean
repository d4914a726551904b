import Verif.Spec.Overload
import Verif.Spec.Program
import Verif.Model.TypedProgram

/-!
# What programs with variables of different types mean
-/

namespace Ieme.Overload

/-- The value of an expression when the variables hold `s`; `none` if something in it has no value. -/
def VExpr.value (Γ : Decls) (s : ℕ → ℚ) : VExpr → Option ℚ
  | .var x => some (s x)
  | .obj _ v => v.value
  | .pos e => e.value Γ s
  | .neg e => (e.value Γ s).map fun x => -x
  | .bin op l r =>
    match l.ty Γ, r.ty Γ with
    | some a, some b => (l.value Γ s).bind fun x => (r.value Γ s).bind fun y => binValue op a b x y
    | _, _ => none

/-- What the functions compute. -/
def Call.value : Call → ℚ → Option ℚ
  | .trunc, x => some (ratTrunc x)
  | .abs, x => some |x|
  | .reciprocal, x => if x = 0 then none else some x⁻¹
  | .whole, x => some (ratTrunc x)
  | .fractional, x => some (x - ratTrunc x)
  | .asFraction, x => some x

/-- `s` with `q` for the variable `x`. -/
def put (s : ℕ → ℚ) (x : ℕ) (q : ℚ) : ℕ → ℚ := fun y => if y = x then q else s y

/-- `Meaning Γ c s s'`: the program `c`, started with `s`, terminates with `s'`, and everything it
evaluates has a value.  Types matter only where integers are divided by integers. -/
inductive Meaning (Γ : Decls) : Stmt → (ℕ → ℚ) → (ℕ → ℚ) → Prop
  | skip {s} : Meaning Γ .skip s s
  | assign {s x e q} (he : e.value Γ s = some q) : Meaning Γ (.assign x e) s (put s x q)
  | compound {s op x e t p q} (ht : e.ty Γ = some t) (he : e.value Γ s = some p)
      (hq : binValue op (Γ x) t (s x) p = some q) : Meaning Γ (.compound op x e) s (put s x q)
  | call {s f x e p q} (he : e.value Γ s = some p) (hq : f.value p = some q) :
      Meaning Γ (.call f x e) s (put s x q)
  | seq {c d s s' s''} (hc : Meaning Γ c s s') (hd : Meaning Γ d s' s'') : Meaning Γ (.seq c d) s s''
  | iteTrue {op e1 e2 c d s s' p q} (h1 : e1.value Γ s = some p) (h2 : e2.value Γ s = some q)
      (h : op.Holds p q) (hc : Meaning Γ c s s') : Meaning Γ (.ite op e1 e2 c d) s s'
  | iteFalse {op e1 e2 c d s s' p q} (h1 : e1.value Γ s = some p) (h2 : e2.value Γ s = some q)
      (h : ¬ op.Holds p q) (hd : Meaning Γ d s s') : Meaning Γ (.ite op e1 e2 c d) s s'
  | loopTrue {op e1 e2 c s s' s'' p q} (h1 : e1.value Γ s = some p) (h2 : e2.value Γ s = some q)
      (h : op.Holds p q) (hc : Meaning Γ c s s') (hl : Meaning Γ (.loop op e1 e2 c) s' s'') :
      Meaning Γ (.loop op e1 e2 c) s s''
  | loopFalse {op e1 e2 c s p q} (h1 : e1.value Γ s = some p) (h2 : e2.value Γ s = some q)
      (h : ¬ op.Holds p q) : Meaning Γ (.loop op e1 e2 c) s s

/-- Mixed numbers satisfy their class invariant. -/
def Val.Proper : Val → Prop
  | .mixed m => m.Invariant
  | _ => True

/-- Every object written in the expression satisfies its class invariant. -/
def VExpr.Proper : VExpr → Prop
  | .var _ => True
  | .obj _ v => v.Proper
  | .pos e => e.Proper
  | .neg e => e.Proper
  | .bin _ l r => l.Proper ∧ r.Proper

/-- Every object written in the expression is one of its type. -/
def VExpr.Objects : VExpr → Prop
  | .var _ => True
  | .obj t v => v.HasTy t
  | .pos e => e.Objects
  | .neg e => e.Objects
  | .bin _ l r => l.Objects ∧ r.Objects

/-- A property of all expressions in the program. -/
def Stmt.All (P : VExpr → Prop) : Stmt → Prop
  | .skip => True
  | .assign _ e => P e
  | .compound _ _ e => P e
  | .call _ _ e => P e
  | .seq c d => c.All P ∧ d.All P
  | .ite _ e1 e2 c d => P e1 ∧ P e2 ∧ c.All P ∧ d.All P
  | .loop _ e1 e2 c => P e1 ∧ P e2 ∧ c.All P

/-- Comparisons that are exact whatever the signs of the denominators: equality, integers with
integers, and fractions with fractions of a policy built on `safe`. -/
def Reliable (op : CmpOp) (l r : Option Ty) : Prop :=
  ¬ op.IsOrder ∨ match l, r with
    | some (.int _), some (.int _) => True
    | some (.frac _ o), some (.frac _ _) => o.SafeBased
    | _, _ => False

/-- Every condition in the program is such a comparison. -/
def Stmt.Reliable (Γ : Decls) : Stmt → Prop
  | .seq c d => c.Reliable Γ ∧ d.Reliable Γ
  | .ite op e1 e2 c d => Overload.Reliable op (e1.ty Γ) (e2.ty Γ) ∧ c.Reliable Γ ∧ d.Reliable Γ
  | .loop op e1 e2 c => Overload.Reliable op (e1.ty Γ) (e2.ty Γ) ∧ c.Reliable Γ
  | _ => True

/-- The compiler accepts the program. -/
def Stmt.Compiles (Γ : Decls) : Stmt → Prop
  | .skip => True
  | .assign x e => ∃ t, e.ty Γ = some t ∧ t.converts (Γ x) = true
  | .compound _ x e => ∃ t, e.ty Γ = some t ∧ (Γ x).compounds t = true
  | .call f x e => ∃ t t', e.ty Γ = some t ∧ f.ty t = some t' ∧ t'.converts (Γ x) = true
  | .seq c d => c.Compiles Γ ∧ d.Compiles Γ
  | .ite _ e1 e2 c d => (∃ a b, e1.ty Γ = some a ∧ e2.ty Γ = some b ∧ a.compares b = true) ∧
      c.Compiles Γ ∧ d.Compiles Γ
  | .loop _ e1 e2 c => (∃ a b, e1.ty Γ = some a ∧ e2.ty Γ = some b ∧ a.compares b = true) ∧
      c.Compiles Γ

/-- Every variable holds an object with the given value that satisfies its class invariant. -/
def Vars.Holds (m : Vars) (s : ℕ → ℚ) : Prop := ∀ x, (m x).Denotes (s x) ∧ (m x).Proper

/-- Every variable holds an object of its type. -/
def Vars.HasTy (m : Vars) (Γ : Decls) : Prop := ∀ x, (m x).HasTy (Γ x)

end Ieme.Overload

namespace Ieme

/-- Expressions over one representation and policy with the types written out. -/
def PExpr.typed (T : IntTy) (o : Ops) : PExpr → Overload.VExpr
  | .var x => .var x
  | .lit f => .obj (.frac T o) (.frac f)
  | .neg e => .neg (e.typed T o)
  | .pos e => .pos (e.typed T o)
  | .ff op a b => .bin op (a.typed T o) (b.typed T o)
  | .fr op a n => .bin op (a.typed T o) (.obj (.int T) (.int n))
  | .rf op n b => .bin op (.obj (.int T) (.int n)) (b.typed T o)

/-- Programs over one representation and policy with the types written out. -/
def Cmd.typed (T : IntTy) (o : Ops) : Cmd → Overload.Stmt
  | .skip => .skip
  | .assign x e => .assign x (e.typed T o)
  | .seq c d => .seq (c.typed T o) (d.typed T o)
  | .ite op e1 e2 c d => .ite op (e1.typed T o) (e2.typed T o) (c.typed T o) (d.typed T o)
  | .loop op e1 e2 c => .loop op (e1.typed T o) (e2.typed T o) (c.typed T o)

end Ieme
