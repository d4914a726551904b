import Verif.Spec.TypedProgram

/-!
# Programs with variables of different types whose denominators stay positive
-/

namespace Ieme.Overload

/-- Fractions and the fractional parts of mixed numbers have positive denominators. -/
def Val.Upright : Val → Prop
  | .frac f => 0 < f.den
  | .mixed k => 0 < k.frac.den
  | .int _ | .lit _ => True

/-- Every variable holds such an object. -/
def Vars.Upright (m : Vars) : Prop := ∀ x, (m x).Upright

/-- A quotient of operands of these types, the divisor of value `y`, gets a positive denominator: the
divisor is positive, or the policy normalises the signs of its results.  An integer divided by a
literal is not normalised by any policy. -/
def DivisorOk (l r : Ty) (y : ℚ) : Prop :=
  match l, r with
  | .int _, .int _ => True
  | .frac _ o, _ => 0 < y ∨ o.NormalizesOutput
  | .int _, .frac _ o => 0 < y ∨ o.NormalizesOutput
  | _, _ => 0 < y

/-- The objects written in the expression have positive denominators and so do its quotients, when
the variables hold `s`. -/
def VExpr.Upright (Γ : Decls) (s : ℕ → ℚ) : VExpr → Prop
  | .var _ => True
  | .obj _ v => v.Upright
  | .pos e => e.Upright Γ s
  | .neg e => e.Upright Γ s
  | .bin op l r => l.Upright Γ s ∧ r.Upright Γ s ∧ (op = .divides → ∀ a b y, l.ty Γ = some a →
      r.ty Γ = some b → r.value Γ s = some y → DivisorOk a b y)

/-- `Straight Γ c s s'`: the program `c`, started with `s`, terminates with `s'` as in `Meaning`, and
wherever it divides or takes a reciprocal, the result has a positive denominator. -/
inductive Straight (Γ : Decls) : Stmt → (ℕ → ℚ) → (ℕ → ℚ) → Prop
  | skip {s} : Straight Γ .skip s s
  | assign {s x e q} (he : e.value Γ s = some q) (ue : e.Upright Γ s) :
      Straight Γ (.assign x e) s (put s x q)
  | compound {s op x e t p q} (ht : e.ty Γ = some t) (he : e.value Γ s = some p)
      (hq : binValue op (Γ x) t (s x) p = some q) (ue : e.Upright Γ s)
      (ud : op = .divides → DivisorOk (Γ x) t p) : Straight Γ (.compound op x e) s (put s x q)
  | call {s f x e p q} (he : e.value Γ s = some p) (hq : f.value p = some q) (ue : e.Upright Γ s)
      (uf : f = .reciprocal → 0 < p) : Straight Γ (.call f x e) s (put s x q)
  | seq {c d s s' s''} (hc : Straight Γ c s s') (hd : Straight Γ d s' s'') :
      Straight Γ (.seq c d) s s''
  | iteTrue {op e1 e2 c d s s' p q} (h1 : e1.value Γ s = some p) (h2 : e2.value Γ s = some q)
      (u1 : e1.Upright Γ s) (u2 : e2.Upright Γ s) (h : op.Holds p q) (hc : Straight Γ c s s') :
      Straight Γ (.ite op e1 e2 c d) s s'
  | iteFalse {op e1 e2 c d s s' p q} (h1 : e1.value Γ s = some p) (h2 : e2.value Γ s = some q)
      (u1 : e1.Upright Γ s) (u2 : e2.Upright Γ s) (h : ¬ op.Holds p q) (hd : Straight Γ d s s') :
      Straight Γ (.ite op e1 e2 c d) s s'
  | loopTrue {op e1 e2 c s s' s'' p q} (h1 : e1.value Γ s = some p) (h2 : e2.value Γ s = some q)
      (u1 : e1.Upright Γ s) (u2 : e2.Upright Γ s) (h : op.Holds p q) (hc : Straight Γ c s s')
      (hl : Straight Γ (.loop op e1 e2 c) s' s'') : Straight Γ (.loop op e1 e2 c) s s''
  | loopFalse {op e1 e2 c s p q} (h1 : e1.value Γ s = some p) (h2 : e2.value Γ s = some q)
      (u1 : e1.Upright Γ s) (u2 : e2.Upright Γ s) (h : ¬ op.Holds p q) :
      Straight Γ (.loop op e1 e2 c) s s

/-- Whatever the variables hold, quotients get positive denominators, and there is no call of
`reciprocal`. -/
def Stmt.Upright (Γ : Decls) : Stmt → Prop
  | .skip => True
  | .assign _ e => ∀ s, e.Upright Γ s
  | .compound op x e => (∀ s, e.Upright Γ s) ∧
      (op = .divides → ∀ t s y, e.ty Γ = some t → e.value Γ s = some y → DivisorOk (Γ x) t y)
  | .call f _ e => (∀ s, e.Upright Γ s) ∧ f ≠ .reciprocal
  | .seq c d => c.Upright Γ ∧ d.Upright Γ
  | .ite _ e1 e2 c d => (∀ s, e1.Upright Γ s ∧ e2.Upright Γ s) ∧ c.Upright Γ ∧ d.Upright Γ
  | .loop _ e1 e2 c => (∀ s, e1.Upright Γ s ∧ e2.Upright Γ s) ∧ c.Upright Γ

end Ieme.Overload
