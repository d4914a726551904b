import Mathlib.Data.Int.ModEq
import Verif.Model.Ops
import Mathlib.Data.Rat.Floor

/-!
# What fractions mean

The specification side: rational numbers.  These definitions mention only the data
types of the model (a numerator and a denominator), none of its functions.
-/

namespace Ieme

/-- The fraction `f` is defined and its value is the rational `q`. -/
def Denotes (f : Raw) (q : ℚ) : Prop := f.den ≠ 0 ∧ (f.num : ℚ) / (f.den : ℚ) = q

/-- The operands are defined and their values are `x` and `y`. -/
def Args.Denote : Args → ℚ → ℚ → Prop
  | .ff l r, x, y => Denotes l x ∧ Denotes r y
  | .fr l r, x, y => Denotes l x ∧ (r : ℚ) = y
  | .rf l r, x, y => (l : ℚ) = x ∧ Denotes r y

/-- Rounding towards zero. -/
def ratTrunc (q : ℚ) : ℤ := if 0 ≤ q then ⌊q⌋ else ⌈q⌉

/-- `n` is the integer nearest to `x`, and of two equally near the larger. -/
def NearestUp (x : ℚ) (n : ℤ) : Prop :=
  |(n : ℚ) - x| ≤ 1 / 2 ∧ ∀ m : ℤ, |(m : ℚ) - x| = 1 / 2 → m ≤ n

/-- The multiples of `1/d`. -/
def gridPoint (d m : ℤ) : ℚ := (m : ℚ) / d

/-- The mathematical result that `x op y` must have: exact sum, difference and product;
exact quotient, undefined for a zero divisor; truncated remainder for a non-zero divisor. -/
def ArithOp.Exact : ArithOp → ℚ → ℚ → Raw → Prop
  | .plus, x, y, r => Denotes r (x + y)
  | .minus, x, y, r => Denotes r (x - y)
  | .multiplies, x, y, r => Denotes r (x * y)
  | .divides, x, y, r => (y ≠ 0 → Denotes r (x / y)) ∧ (y = 0 → r.den = 0)
  | .modulus, x, y, r => y ≠ 0 ∧ Denotes r (x - y * ratTrunc (x / y))

/-- The truth value that the comparison of `x` and `y` must have. -/
def CmpOp.Holds : CmpOp → ℚ → ℚ → Prop
  | .equalTo, x, y => x = y
  | .notEqualTo, x, y => x ≠ y
  | .less, x, y => x < y
  | .lessEqual, x, y => x ≤ y
  | .greater, x, y => x > y
  | .greaterEqual, x, y => x ≥ y

/-- All operands are values of the type `T`. -/
def Args.InRange (T : IntTy) : Args → Prop
  | .ff l r => l.InRange T ∧ r.InRange T
  | .fr l r => l.InRange T ∧ T.InRange r
  | .rf l r => T.InRange l ∧ r.InRange T

/-- Every fraction among the operands has a positive denominator. -/
def Args.PosDen : Args → Prop
  | .ff l r => 0 < l.den ∧ 0 < r.den
  | .fr l _ => 0 < l.den
  | .rf _ r => 0 < r.den

/-- Some operand is an undefined fraction. -/
def Args.HasUndefined : Args → Prop
  | .ff l r => l.den = 0 ∨ r.den = 0
  | .fr l _ => l.den = 0
  | .rf _ r => r.den = 0

/-- Lowest terms with positive denominator. -/
def Canonical (f : Raw) : Prop := 0 < f.den ∧ Int.gcd f.num f.den = 1

/-- Both fractions are defined and have the same value. -/
def SameValue (f g : Raw) : Prop := ∃ q, Denotes f q ∧ Denotes g q

/-- Both parts are at most `B` in absolute value. -/
def Raw.AbsLe (B : ℕ) (f : Raw) : Prop := f.num.natAbs ≤ B ∧ f.den.natAbs ≤ B

/-- Every part of every operand is at most `B` in absolute value. -/
def Args.AbsLe (B : ℕ) : Args → Prop
  | .ff l r => l.AbsLe B ∧ r.AbsLe B
  | .fr l r => l.AbsLe B ∧ r.natAbs ≤ B
  | .rf l r => l.natAbs ≤ B ∧ r.AbsLe B

/-- The same fraction with both parts multiplied by `k`. -/
def Raw.expand (k : ℤ) (f : Raw) : Raw := ⟨k * f.num, k * f.den⟩

/-- The same operands with the parts of a left fraction multiplied by `j`, those of a right
fraction by `k`. -/
def Args.expand (j k : ℤ) : Args → Args
  | .ff l r => .ff (l.expand j) (r.expand k)
  | .fr l r => .fr (l.expand j) r
  | .rf l r => .rf l (r.expand k)

/-- The absolute values of both parts are representable: neither is the minimum of a signed
type. -/
def Raw.AbsInRange (T : IntTy) (f : Raw) : Prop :=
  T.InRange f.num.natAbs ∧ T.InRange f.den.natAbs

/-- The absolute values of all parts of all fractions are representable. -/
def Args.AbsInRange (T : IntTy) : Args → Prop
  | .ff l r => l.AbsInRange T ∧ r.AbsInRange T
  | .fr l _ => l.AbsInRange T
  | .rf _ r => r.AbsInRange T

/-- The same policy built on `safe`. -/
def Ops.toSafe : Ops → Ops
  | .safe | .fast => .safe
  | .reducedInput o mode => .reducedInput o.toSafe mode
  | .reducedOutput o mode => .reducedOutput o.toSafe mode

/-- The left operand, an integer `n` as `n/1`. -/
def Args.left : Args → Raw
  | .ff l _ | .fr l _ => l
  | .rf l _ => ⟨l, 1⟩

/-- The right operand, an integer `n` as `n/1`. -/
def Args.right : Args → Raw
  | .ff _ r | .rf _ r => r
  | .fr _ r => ⟨r, 1⟩

/-- The numerator of the result over a common denominator, from the numerators of the operands
over that denominator. -/
def ArithOp.overCommon : ArithOp → ℤ → ℤ → ℤ
  | .plus, p, q => p + q
  | .minus, p, q => p - q
  | .modulus, p, q => p.tmod q
  | .multiplies, p, q | .divides, p, q => p * q

/-- The operator brings its operands to a common denominator. -/
def ArithOp.UsesCommon : ArithOp → Prop
  | .plus | .minus | .modulus => True
  | .multiplies | .divides => False

/-- The textbook formula in unbounded integers: cross multiplication. -/
def ArithOp.crossParts : ArithOp → Raw → Raw → Raw
  | .multiplies, l, r => ⟨l.num * r.num, l.den * r.den⟩
  | .divides, l, r => ⟨l.num * r.den, l.den * r.num⟩
  | op, l, r => ⟨op.overCommon (l.num * r.den) (r.num * l.den), l.den * r.den⟩

/-- The truth value of a comparison of integers. -/
def CmpOp.HoldsInt : CmpOp → ℤ → ℤ → Prop
  | .equalTo, p, q => p = q
  | .notEqualTo, p, q => p ≠ q
  | .less, p, q => p < q
  | .lessEqual, p, q => p ≤ q
  | .greater, p, q => p > q
  | .greaterEqual, p, q => p ≥ q

/-- The policy's outermost sign-relevant output step normalises signs. -/
def Ops.NormalizesOutput : Ops → Prop
  | .safe | .fast => False
  | .reducedInput o _ => o.NormalizesOutput
  | .reducedOutput _ .normalizeSigns => True
  | .reducedOutput o .ignoreSigns => o.NormalizesOutput

/-- No layer of the policy normalises signs. -/
def Ops.IgnoresSigns : Ops → Prop
  | .safe | .fast => True
  | .reducedInput o mode | .reducedOutput o mode => mode = .ignoreSigns ∧ o.IgnoresSigns

/-- `op` is one of the four order comparisons. -/
def CmpOp.IsOrder : CmpOp → Prop
  | .equalTo | .notEqualTo => False
  | _ => True

/-- The exact condition on denominator signs under which a policy orders correctly. -/
def Ops.OrderSafe : Ops → Args → Prop
  | .safe, .ff _ _ => True
  | .safe, .fr l _ => 0 < l.den
  | .safe, .rf _ r => 0 < r.den
  | .fast, .ff l r => 0 < l.den * r.den
  | .fast, .fr l _ => 0 < l.den
  | .fast, .rf _ r => 0 < r.den
  | .reducedInput _ .normalizeSigns, _ => True
  | .reducedInput o .ignoreSigns, a => o.OrderSafe a
  | .reducedOutput o _, a => o.OrderSafe a

/-- The answer a comparison gives when an operand is undefined. -/
def CmpOp.undefAnswer : CmpOp → Bool
  | .notEqualTo => true
  | _ => false

/-- The divisor is an undefined fraction with a non-zero numerator and the dividend is
defined: the one case in which an undefined operand disappears. -/
def Args.LostDivisor : Args → Prop
  | .ff l r => l.den ≠ 0 ∧ r.den = 0 ∧ r.num ≠ 0
  | .fr _ _ => False
  | .rf _ r => r.den = 0 ∧ r.num ≠ 0

/-- The policy reduces its operands before anything else. -/
def Ops.ReducesInput : Ops → Prop
  | .safe | .fast => False
  | .reducedInput _ _ => True
  | .reducedOutput o _ => o.ReducesInput

/-- Exchange the operands. -/
def Args.swap : Args → Args
  | .ff l r => .ff r l
  | .fr l r => .rf r l
  | .rf l r => .fr r l

/-- The operator that holds for exchanged operands. -/
def CmpOp.swap : CmpOp → CmpOp
  | .less => .greater
  | .lessEqual => .greaterEqual
  | .greater => .less
  | .greaterEqual => .lessEqual
  | o => o

/-- The policy is built on `safe`. -/
def Ops.SafeBased : Ops → Prop
  | .safe => True
  | .fast => False
  | .reducedInput o _ => o.SafeBased
  | .reducedOutput o _ => o.SafeBased

/-- The exact condition under which a policy rounds the fraction correctly: some layer fixes
the signs, or they need no fixing. -/
def Ops.RoundsProperly (o : Ops) (f : Raw) : Prop :=
  0 < f.den ∨ o.SafeBased ∨ ¬ o.IgnoresSigns

/-- The fraction without common factors: positive ones only, or also the sign of the
denominator; an undefined fraction becomes `0/0`. -/
def Raw.lowest (mode : ReduceMode) (f : Raw) : Raw :=
  if f.den = 0 then ⟨0, 0⟩
  else if mode = .normalizeSigns ∧ f.den < 0 then
    ⟨-(f.num / Int.gcd f.num f.den), -(f.den / Int.gcd f.num f.den)⟩
  else ⟨f.num / Int.gcd f.num f.den, f.den / Int.gcd f.num f.den⟩

/-- The same for every fraction among the operands. -/
def Args.lowest (mode : ReduceMode) : Args → Args
  | .ff l r => .ff (l.lowest mode) (r.lowest mode)
  | .fr l r => .fr (l.lowest mode) r
  | .rf l r => .rf l (r.lowest mode)

/-- The fraction is undefined, or the absolute values of its parts are representable. -/
def Raw.Cancellable (T : IntTy) (f : Raw) : Prop := f.den = 0 ∨ f.AbsInRange T

/-- The same for every fraction among the operands. -/
def Args.Cancellable (T : IntTy) : Args → Prop
  | .ff l r => l.Cancellable T ∧ r.Cancellable T
  | .fr l _ => l.Cancellable T
  | .rf _ r => r.Cancellable T

/-- The left operand is of representation type `L`, the right one of type `R`. -/
def Args.HaveTypes (L R : IntTy) : Args → Prop
  | .ff l r => l.InRange L ∧ r.InRange R
  | .fr l r => l.InRange L ∧ R.InRange r
  | .rf l r => L.InRange l ∧ r.InRange R

/-- `g` is in range of `C` and congruent to `f` modulo the size of `C`, part by part. -/
def Raw.ReducedMod (C : IntTy) (f g : Raw) : Prop :=
  g.InRange C ∧ g.num ≡ f.num [ZMOD 2 ^ C.bits] ∧ g.den ≡ f.den [ZMOD 2 ^ C.bits]

/-- The operands `b` are in range of `C` and congruent to `a` modulo the size of `C`, part by
part. -/
def Args.ReducedMod (C : IntTy) : Args → Args → Prop
  | .ff l r, .ff l' r' => l.ReducedMod C l' ∧ r.ReducedMod C r'
  | .fr l r, .fr l' r' => l.ReducedMod C l' ∧ C.InRange r' ∧ r' ≡ r [ZMOD 2 ^ C.bits]
  | .rf l r, .rf l' r' => (C.InRange l' ∧ l' ≡ l [ZMOD 2 ^ C.bits]) ∧ r.ReducedMod C r'
  | _, _ => False

end Ieme
