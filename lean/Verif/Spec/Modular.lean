import Verif.Spec.Program

/-!
# Arithmetic modulo a power of two

What `fast` computes over an unsigned type, said with unbounded integers: carry out all
operations by the schoolbook formulas and take both parts modulo `2^N` at the end.
-/

namespace Ieme

/-- Both parts modulo `2^N`. -/
def Raw.residue (N : ℕ) (f : Raw) : Raw := ⟨f.num % 2 ^ N, f.den % 2 ^ N⟩

/-- The parts of an expression by the schoolbook formulas, in unbounded integers, without any
reduction. -/
def Expr.formal : Expr → Raw
  | .lit f => f
  | .neg e => ⟨-e.formal.num, e.formal.den⟩
  | .pos e => e.formal
  | .ff op e1 e2 => op.crossParts e1.formal e2.formal
  | .fr op e n => op.crossParts e.formal ⟨n, 1⟩
  | .rf op n e => op.crossParts ⟨n, 1⟩ e.formal

/-- The operator `%` does not occur, and all fraction objects fit the type. -/
def Expr.Plain (T : IntTy) : Expr → Prop
  | .lit f => f.InRange T
  | .neg e => e.Plain T
  | .pos e => e.Plain T
  | .ff op e1 e2 => op ≠ .modulus ∧ e1.Plain T ∧ e2.Plain T
  | .fr op e _ => op ≠ .modulus ∧ e.Plain T
  | .rf op _ e => op ≠ .modulus ∧ e.Plain T

/-- The operator `%` does not occur, and the fractions written in the expression fit the type. -/
def PExpr.Plain (T : IntTy) : PExpr → Prop
  | .var _ => True
  | .lit f => f.InRange T
  | .neg e => e.Plain T
  | .pos e => e.Plain T
  | .ff op e1 e2 => op ≠ .modulus ∧ e1.Plain T ∧ e2.Plain T
  | .fr op e _ => op ≠ .modulus ∧ e.Plain T
  | .rf op _ e => op ≠ .modulus ∧ e.Plain T

/-- The comparison of two integers. -/
def CmpOp.decideInt : CmpOp → ℤ → ℤ → Bool
  | .equalTo, p, q => p = q
  | .notEqualTo, p, q => p ≠ q
  | .less, p, q => p < q
  | .lessEqual, p, q => p ≤ q
  | .greater, p, q => p > q
  | .greaterEqual, p, q => p ≥ q

/-- Comparison of fractions by the residues of the cross products; false if a denominator is zero
modulo `2^N`, except for `!=`. -/
def CmpOp.holdsMod (op : CmpOp) (N : ℕ) (f g : Raw) : Bool :=
  if f.den % 2 ^ N = 0 ∨ g.den % 2 ^ N = 0 then op = .notEqualTo
  else op.decideInt (f.num * g.den % 2 ^ N) (g.num * f.den % 2 ^ N)

/-- All expressions of the program are plain. -/
def Cmd.Plain (T : IntTy) : Cmd → Prop
  | .skip => True
  | .assign _ e => e.Plain T
  | .seq c d => c.Plain T ∧ d.Plain T
  | .ite _ e1 e2 c d => e1.Plain T ∧ e2.Plain T ∧ c.Plain T ∧ d.Plain T
  | .loop _ e1 e2 c => e1.Plain T ∧ e2.Plain T ∧ c.Plain T

/-- Running a program on unbounded integers; only comparisons look at residues. -/
def Cmd.formalExec (N : ℕ) : ℕ → Cmd → Mem → Option Mem
  | 0, _, _ => none
  | _ + 1, .skip, m => some m
  | _ + 1, .assign x e, m => some fun y => if y = x then (e.inst m).formal else m y
  | n + 1, .seq c d, m => (Cmd.formalExec N n c m).bind (Cmd.formalExec N n d)
  | n + 1, .ite op e1 e2 c d, m =>
    if op.holdsMod N (e1.inst m).formal (e2.inst m).formal then Cmd.formalExec N n c m
    else Cmd.formalExec N n d m
  | n + 1, .loop op e1 e2 c, m =>
    if op.holdsMod N (e1.inst m).formal (e2.inst m).formal then
      (Cmd.formalExec N n c m).bind (Cmd.formalExec N n (.loop op e1 e2 c))
    else some m

/-- Only sums, differences and products, and quotients by positive integers; all fraction objects
have positive denominators. -/
def Expr.Polynomial : Expr → Prop
  | .lit f => 0 < f.den
  | .neg e => e.Polynomial
  | .pos e => e.Polynomial
  | .ff op e1 e2 => (op = .plus ∨ op = .minus ∨ op = .multiplies) ∧ e1.Polynomial ∧ e2.Polynomial
  | .fr op e n => (op = .plus ∨ op = .minus ∨ op = .multiplies ∨ op = .divides ∧ 0 < n) ∧
      e.Polynomial
  | .rf op _ e => (op = .plus ∨ op = .minus ∨ op = .multiplies) ∧ e.Polynomial

/-- The denominator of such an expression without cancelling: the least common multiple for sums
and differences, the product for products and quotients. -/
def Expr.commonDen : Expr → ℕ
  | .lit f => f.den.natAbs
  | .neg e => e.commonDen
  | .pos e => e.commonDen
  | .ff .multiplies e1 e2 => e1.commonDen * e2.commonDen
  | .ff _ e1 e2 => Nat.lcm e1.commonDen e2.commonDen
  | .fr .divides e n => e.commonDen * n.natAbs
  | .fr _ e _ => e.commonDen
  | .rf _ _ e => e.commonDen

end Ieme
