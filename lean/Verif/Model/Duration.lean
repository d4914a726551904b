import Verif.Model.Chrono

/-!
# Arithmetic and comparison of fractional durations

`ieme::chrono::duration<Rep, Period, Ops>` is an alias of `std::chrono::duration` with a
fraction as count (`/repo/include/ieme/chrono.hpp:30-31`), so its operators are those of
`std::chrono` ([time.duration.nonmember], [time.duration.arithmetic],
[time.duration.comparisons]) over the operators of `fraction`.  They first convert both
operands to their common type, whose period is the greatest of which both are multiples
([time.traits.specializations]).

At least one operand counts in fractions; the other counts in the same fractions or in
integers, which `std::common_type` turns into fractions.  `operator+` and `operator-` of a
`time_point` and a `duration`, and the comparisons of two time points, do the same with the
time since the epoch ([time.point.nonmember], [time.point.comparisons]).
-/

namespace Ieme.Chrono

theorem commonPeriod_coprime (p q : Period) :
    Int.gcd (Int.gcd p.num q.num : Nat) (Int.lcm p.den q.den : Nat) = 1 := by
  have h1 : Nat.Coprime p.num.natAbs p.den.natAbs := p.coprime
  have h2 : Nat.Coprime q.num.natAbs q.den.natAbs := q.coprime
  have a : Nat.Coprime (Int.gcd p.num q.num) p.den.natAbs :=
    h1.coprime_dvd_left (Nat.gcd_dvd_left _ _)
  have b : Nat.Coprime (Int.gcd p.num q.num) q.den.natAbs :=
    h2.coprime_dvd_left (Nat.gcd_dvd_right _ _)
  exact Nat.Coprime.coprime_dvd_right (Nat.lcm_dvd_mul _ _) (a.mul_right b)

/-- The period of the common type of two durations: ill-formed when its denominator does not
fit `std::intmax_t`. -/
def commonPeriod (p q : Period) : Option Period :=
  if i64.InRange (Int.lcm p.den q.den : Nat) then
    some ⟨(Int.gcd p.num q.num : Nat), (Int.lcm p.den q.den : Nat),
      by exact_mod_cast Int.gcd_pos_of_ne_zero_left _ (Int.ne_of_gt p.num_pos),
      by exact_mod_cast Int.lcm_pos (Int.ne_of_gt p.den_pos) (Int.ne_of_gt q.den_pos), commonPeriod_coprime p q⟩
  else none

/-- Both operands converted to the common type.  Whether the conversions are well-formed does
not depend on the counts. -/
def common (T : IntTy) (o : Ops) (p q : Period) (l r : Count) : Res (Raw × Raw) :=
  match commonPeriod p q with
  | none => .fault .illFormed
  | some c =>
    if (ratioDivide p c).isNone ∨ (ratioDivide q c).isNone then .fault .illFormed
    else do
      let x ← convert T o p c l
      let y ← convert T o q c r
      return (x, y)

/-- `operator+`, `operator-` and `operator%` of two durations: the count of the result, whose
period is the common one.  Also `operator/` of two durations, which is a plain fraction. -/
def arith (T : IntTy) (o : Ops) (op : ArithOp) (p q : Period) (l r : Count) : Res Raw := do
  let (x, y) ← common T o p q l r
  Fraction.arith T T o op (.ff x y)

/-- `operator==` and `operator<`, and the other comparisons as the standard defines them from
these two. -/
def cmp (T : IntTy) (o : Ops) (op : CmpOp) (p q : Period) (l r : Count) : Res Bool :=
  let eq (p q : Period) (l r : Count) : Res Bool := do
    let (x, y) ← common T o p q l r
    Fraction.cmp T T o .equalTo (.ff x y)
  let lt (p q : Period) (l r : Count) : Res Bool := do
    let (x, y) ← common T o p q l r
    Fraction.cmp T T o .less (.ff x y)
  let not (b : Res Bool) : Res Bool := do
    let v ← b
    return !v
  match op with
  | .equalTo => eq p q l r
  | .notEqualTo => not (eq p q l r)
  | .less => lt p q l r
  | .greater => lt q p r l
  | .lessEqual => not (lt q p r l)
  | .greaterEqual => not (lt p q l r)

/-- Unary `operator-` of a duration: the period does not change. -/
def neg (T : IntTy) (o : Ops) (f : Raw) : Res Raw := Fraction.neg T o f

/-- `operator*`, `operator/` and `operator%` of a duration and an integer of the
representation type, or of the integer and the duration for `operator*`; the period does not
change. -/
def scaleInt (T : IntTy) (o : Ops) (op : ArithOp) (f : Raw) (n : Int) : Res Raw :=
  Fraction.arith T T o op (.fr f n)

/-- `operator*`, `operator/` and `operator%` of a duration and a fraction. -/
def scaleFrac (T : IntTy) (o : Ops) (op : ArithOp) (f g : Raw) : Res Raw :=
  Fraction.arith T T o op (.ff f g)

/-- `operator+=` and `operator-=` with a duration on the right: that is first converted to
the period of the left one ([time.duration.arithmetic]). -/
def assign (T : IntTy) (o : Ops) (op : ArithOp) (p q : Period) (f : Raw) (r : Count) :
    Res Raw := do
  let y ← convert T o q p r
  Fraction.assignF T T o op f y

end Ieme.Chrono
