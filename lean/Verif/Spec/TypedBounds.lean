import Verif.Spec.ProgramBounds
import Verif.Spec.TypedProgram

/-!
# A static check that excludes overflow in a program with variables of different types

How large the parts of integers, fractions, mixed numbers and literals can get, computed from sizes
for the initial contents of the variables without running the program.  Whether a part can be
negative is followed too, for the sake of unsigned types and of comparisons.
-/

namespace Ieme.Overload

/-- How large the parts of an object can get: an integer, a literal or a whole part; a numerator; a
denominator; and whether any of them can be negative. -/
structure Size where
  whole : ℕ := 0
  num : ℕ := 0
  den : ℕ := 0
  neg : Bool
deriving DecidableEq, Repr

/-- An integer of magnitude at most `k`, negative only if `neg`. -/
def Part (k : ℕ) (neg : Bool) (n : ℤ) : Prop := n.natAbs ≤ k ∧ (neg = false → 0 ≤ n)

/-- An object of the type is within the size. -/
def Size.Admits (a : Size) : Ty → Val → Prop
  | .int _, .int n => Part a.whole a.neg n
  | .frac _ _, .frac f => Part a.num a.neg f.num ∧ Part a.den a.neg f.den
  | .mixed _ _ _, .mixed k =>
    Part a.whole a.neg k.whole ∧ Part a.num a.neg k.frac.num ∧ Part a.den a.neg k.frac.den
  | .lit _ _, .lit n => Part a.whole a.neg n
  | _, _ => False

/-- All such integers are values of `T`. -/
def Room (T : IntTy) (k : ℕ) (neg : Bool) : Prop := (k : ℤ) ≤ T.max ∧ (neg = true → T.signed = true)

instance (T : IntTy) (k : ℕ) (neg : Bool) : Decidable (Room T k neg) :=
  inferInstanceAs (Decidable (_ ∧ _))

/-- The size of an object that is written down. -/
def Val.size : Ty → Val → Option Size
  | .int _, .int n => some { whole := n.natAbs, neg := decide (n < 0) }
  | .frac _ _, .frac f =>
    some { num := f.num.natAbs, den := f.den.natAbs, neg := decide (f.num < 0 ∨ f.den < 0) }
  | .mixed _ _ _, .mixed k =>
    some { whole := k.whole.natAbs, num := k.frac.num.natAbs, den := k.frac.den.natAbs,
           neg := decide (k.whole < 0 ∨ k.frac.num < 0 ∨ k.frac.den < 0) }
  | .lit _ _, .lit n => some { whole := n.natAbs, neg := decide (n < 0) }
  | _, _ => none

/-- Unary minus. -/
def Size.negate : Ty → Size → Option Size
  | .int T, a => if Room T a.whole true then some { whole := a.whole, neg := true } else none
  | .frac T _, a =>
    if Room T a.num true ∧ Room T a.den true then some { num := a.num, den := a.den, neg := true }
    else none
  | .mixed W F _, a =>
    if Room W a.whole true ∧ Room F a.den true then
      some { whole := a.whole, num := a.den, den := a.den, neg := true } else none
  | .lit _ _, a => if Room i64 a.whole true then some { whole := a.whole, neg := true } else none

/-- The magnitude of the result of a built-in operator. -/
def intSize : ArithOp → ℕ → ℕ → ℕ
  | .plus, m, n => m + n
  | .minus, m, n => m + n
  | .multiplies, m, n => m * n
  | .divides, m, _ => m
  | .modulus, m, _ => m

/-- A built-in operator in the type `T`. -/
def Size.builtin (op : ArithOp) (T : IntTy) (m n : ℕ) (neg : Bool) : Option Size :=
  if Room T m neg ∧ Room T n neg ∧ Room T (intSize op m n) neg then
    some { whole := intSize op m n, neg := neg } else none

/-- An operator on fractions of representation `T`. -/
def Size.arith (op : ArithOp) (T : IntTy) (A B : Bound) (neg : Bool) : Option Size :=
  if A.Le T.max ∧ B.Le T.max ∧ op.Bounded A B T.max ∧ (neg = true → T.signed = true) then
    some { num := (op.bound A B).num, den := (op.bound A B).den, neg := neg } else none

/-- The sum of two mixed numbers with whole parts up to `w` and `w'` and denominators up to `d` and
`d'`: the fractional parts are proper, so that their sum carries at most one. -/
def Size.sum (W F : IntTy) (w d w' d' : ℕ) (neg : Bool) : Option Size :=
  if Room W (w + w' + 1) neg ∧ Room F (2 * (d * d')) true then
    some { whole := w + w' + 1, num := d * d', den := d * d', neg := neg } else none

/-- The parts of a fraction. -/
def Size.frac (a : Size) : Bound := ⟨a.num, a.den⟩

/-- An integer as a fraction over one. -/
def Size.over (a : Size) : Bound := ⟨a.whole, 1⟩

/-- A binary operator on operands of the given types.  Fractional parts of mixed numbers must have a
signed type. -/
def Size.bin (op : ArithOp) (l r : Ty) (a b : Size) : Option Size :=
  let neg := a.neg || b.neg || decide (op = .minus)
  match l, r with
  | .int A, .int B => Size.builtin op (IntTy.common A B) a.whole b.whole neg
  | .frac L o, .frac R o' =>
    if o = o' then Size.arith op (IntTy.common L R) a.frac b.frac neg else none
  | .frac L _, .int R => Size.arith op (IntTy.common L R) a.frac b.over neg
  | .int L, .frac R _ => Size.arith op (IntTy.common L R) a.over b.frac neg
  | .mixed W F o, .mixed W' F' o' =>
    if op = .plus ∧ o = o' then
      Size.sum (IntTy.common W W') (IntTy.common F F') a.whole a.den b.whole b.den neg else none
  | .mixed W F o, .frac R o' =>
    if op = .plus ∧ o = o' ∧ Room R b.num true ∧ Room R b.den true then
      Size.sum (IntTy.common W R) (IntTy.common F R) a.whole a.den b.num b.den neg else none
  | .frac L o, .mixed W F o' =>
    if op = .plus ∧ o = o' ∧ Room L a.num true ∧ Room L a.den true then
      Size.sum (IntTy.common W L) (IntTy.common F L) b.whole b.den a.num a.den neg else none
  | .mixed W F _, .int R =>
    if op = .plus ∧ Room (IntTy.common W R) (a.whole + b.whole) neg ∧ Room F a.den true then
      some { whole := a.whole + b.whole, num := a.den, den := a.den, neg := neg } else none
  | .int L, .mixed W F _ =>
    if op = .plus ∧ Room (IntTy.common W L) (b.whole + a.whole) neg ∧ Room F b.den true then
      some { whole := b.whole + a.whole, num := b.den, den := b.den, neg := neg } else none
  | .frac T o, .lit _ o' =>
    if op = .divides ∧ o = o' then Size.arith .divides T a.frac b.over neg else none
  | .int T, .lit _ _ =>
    if op = .divides ∧ Room T b.whole b.neg then
      some { num := a.whole, den := b.whole, neg := neg } else none
  | _, _ => none

/-- Conversion to the type of a variable. -/
def Size.convert (l r : Ty) (a : Size) : Option Size :=
  match l, r with
  | .int _, .int T => if Room T a.whole a.neg then some { whole := a.whole, neg := a.neg } else none
  | .int _, .frac T _ =>
    if Room T a.whole a.neg then some { num := a.whole, den := 1, neg := a.neg } else none
  | .int _, .mixed W F _ =>
    if Room W a.whole a.neg ∧ Room F 1 true then
      some { whole := a.whole, num := 1, den := 1, neg := a.neg } else none
  | .int _, .lit s _ =>
    if Room (if s then i64 else u64) a.whole a.neg then some { whole := a.whole, neg := a.neg }
    else none
  | .frac S o, .frac T o' =>
    if o = o' ∧ (S = T ∨ Room T a.num a.neg ∧ Room T a.den a.neg) then
      some { num := a.num, den := a.den, neg := a.neg } else none
  | .frac S o, .mixed W F o' =>
    if o = o' ∧ Room S a.num true ∧ Room S a.den true ∧ Room F a.num true ∧ Room F a.den true ∧
        Room W a.num a.neg then
      some { whole := a.num, num := a.den, den := a.den, neg := a.neg } else none
  | .mixed W F o, .frac T o' =>
    if T = IntTy.common W F ∧ o = o' then
      Size.arith .plus (IntTy.common W F) a.over ⟨a.den, a.den⟩ a.neg else none
  | .mixed W F o, .mixed W' F' o' => if W = W' ∧ F = F' ∧ o = o' then some a else none
  | .lit s o, .lit s' o' => if s = s' ∧ o = o' then some a else none
  | _, _ => none

/-- `x op= y`. -/
def Size.compound (op : ArithOp) (l r : Ty) (a b : Size) : Option Size :=
  let neg := a.neg || b.neg || decide (op = .minus)
  match l, r with
  | .int A, .int B =>
    (Size.builtin op (IntTy.common A B) a.whole b.whole neg).bind fun c =>
      if Room A c.whole c.neg then some c else none
  | .frac L o, .frac _ o' => if o = o' then Size.arith op L a.frac b.frac neg else none
  | .frac L _, .int _ => Size.arith op L a.frac b.over neg
  | _, _ => none

instance : (op : CmpOp) → Decidable op.IsOrder
  | .equalTo | .notEqualTo => inferInstanceAs (Decidable False)
  | .less | .lessEqual | .greater | .greaterEqual => inferInstanceAs (Decidable True)

instance decidableSafeBased : (o : Ops) → Decidable o.SafeBased
  | .safe => inferInstanceAs (Decidable True)
  | .fast => inferInstanceAs (Decidable False)
  | .reducedInput o _ => decidableSafeBased o
  | .reducedOutput o _ => decidableSafeBased o

/-- A comparison stays within the common type, and is exact: see `Reliable`, or nothing is
negative. -/
def Size.compares (op : CmpOp) (l r : Ty) (a b : Size) : Bool :=
  let fits (T : IntTy) (A B : Bound) : Bool :=
    decide (A.Le T.max ∧ B.Le T.max ∧ A.Comparable B T.max ∧
      ((a.neg || b.neg) = true → T.signed = true))
  let exact : Bool := decide (¬ op.IsOrder ∨ (a.neg || b.neg) = false)
  match l, r with
  | .int A, .int B =>
    decide (Room (IntTy.common A B) a.whole a.neg ∧ Room (IntTy.common A B) b.whole b.neg)
  | .frac L o, .frac R o' =>
    decide (o = o') && fits (IntTy.common L R) a.frac b.frac && (exact || decide o.SafeBased)
  | .frac L _, .int R => fits (IntTy.common L R) a.frac b.over && exact
  | .int L, .frac R _ => fits (IntTy.common L R) a.over b.frac && exact
  | _, _ => false

/-- A function or member. -/
def Size.call (f : Call) (t : Ty) (a : Size) : Option Size :=
  match f, t with
  | .trunc, .frac T _ =>
    if Room T a.num a.neg ∧ Room T a.den a.neg then some { whole := a.num, neg := a.neg } else none
  | .abs, .frac T _ =>
    if Room T a.num a.neg ∧ Room T a.den a.neg then
      some { num := a.num, den := a.den, neg := a.neg } else none
  | .reciprocal, .frac _ _ => some { num := a.den, den := a.num, neg := a.neg }
  | .whole, .mixed _ _ _ => some { whole := a.whole, neg := a.neg }
  | .fractional, .mixed _ _ _ => some { num := a.num, den := a.den, neg := a.neg }
  | .asFraction, .mixed W F _ =>
    Size.arith .plus (IntTy.common W F) a.over ⟨a.den, a.den⟩ a.neg
  | _, _ => none

/-- Sizes for the contents of the variables. -/
abbrev Sizes := ℕ → Size

/-- The size of the value of an expression; `none` if something in it might exceed its type. -/
def VExpr.size (Γ : Decls) (A : Sizes) : VExpr → Option Size
  | .var x => some (A x)
  | .obj t v => v.size t
  | .pos e => e.size Γ A
  | .neg e => (e.ty Γ).bind fun t => (e.size Γ A).bind fun a => a.negate t
  | .bin op l r => (l.ty Γ).bind fun t => (r.ty Γ).bind fun t' =>
      (l.size Γ A).bind fun a => (r.size Γ A).bind fun b => Size.bin op t t' a b

/-- A condition stays within its types and is exact. -/
def VExpr.checks (Γ : Decls) (A : Sizes) (op : CmpOp) (e1 e2 : VExpr) : Bool :=
  match e1.ty Γ, e2.ty Γ, e1.size Γ A, e2.size Γ A with
  | some t, some t', some a, some b => Size.compares op t t' a b
  | _, _, _, _ => false

/-- What is known after a step: `unreached` if it does not complete in the given number of steps,
otherwise sizes for the variables. -/
inductive After where
  | unreached
  | within (A : Sizes)

/-- Either of two sizes. -/
def Size.join (a b : Size) : Size :=
  ⟨max a.whole b.whole, max a.num b.num, max a.den b.den, a.neg || b.neg⟩

/-- Either of two outcomes. -/
def After.join : After → After → After
  | .unreached, o => o
  | o, .unreached => o
  | .within A, .within B => .within fun x => (A x).join (B x)

/-- The variable `x` gets the size `a`. -/
def Sizes.set (A : Sizes) (x : ℕ) (a : Size) : Sizes := fun y => if y = x then a else A y

/-- The static check: sizes after at most `n` nested steps of a program, from the sizes before it;
`none` if something might exceed its type, or a comparison might be wrong. -/
def Stmt.check (Γ : Decls) : ℕ → Stmt → Sizes → Option After
  | 0, _, _ => some .unreached
  | _ + 1, .skip, A => some (.within A)
  | _ + 1, .assign x e, A => (e.ty Γ).bind fun t => (e.size Γ A).bind fun a =>
      (Size.convert t (Γ x) a).map fun b => .within (A.set x b)
  | _ + 1, .compound op x e, A => (e.ty Γ).bind fun t => (e.size Γ A).bind fun a =>
      (Size.compound op (Γ x) t (A x) a).map fun b => .within (A.set x b)
  | _ + 1, .call f x e, A => (e.ty Γ).bind fun t => (f.ty t).bind fun t' =>
      (e.size Γ A).bind fun a => (Size.call f t a).bind fun b =>
        (Size.convert t' (Γ x) b).map fun c => .within (A.set x c)
  | n + 1, .seq c d, A =>
    match Stmt.check Γ n c A with
    | none => none
    | some .unreached => some .unreached
    | some (.within B) => Stmt.check Γ n d B
  | n + 1, .ite op e1 e2 c d, A =>
    if VExpr.checks Γ A op e1 e2 then
      match Stmt.check Γ n c A, Stmt.check Γ n d A with
      | some o1, some o2 => some (o1.join o2)
      | _, _ => none
    else none
  | n + 1, .loop op e1 e2 c, A =>
    if VExpr.checks Γ A op e1 e2 then
      match Stmt.check Γ n c A with
      | none => none
      | some .unreached => some (.within A)
      | some (.within B) => (Stmt.check Γ n (.loop op e1 e2 c) B).map ((After.within A).join ·)
    else none

/-- The contents of every variable are of its type and within its size. -/
def Vars.Within (m : Vars) (Γ : Decls) (A : Sizes) : Prop := ∀ x, (A x).Admits (Γ x) (m x)

/-- The program has no loop. -/
def Stmt.LoopFree : Stmt → Prop
  | .seq c d => c.LoopFree ∧ d.LoopFree
  | .ite _ _ _ c d => c.LoopFree ∧ d.LoopFree
  | .loop _ _ _ _ => False
  | _ => True

/-- The number of nested steps a program without loops can take. -/
def Stmt.depth : Stmt → ℕ
  | .seq c d => max c.depth d.depth + 1
  | .ite _ _ _ c d => max c.depth d.depth + 1
  | .loop _ _ _ c => c.depth + 1
  | _ => 1

end Ieme.Overload
