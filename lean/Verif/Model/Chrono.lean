import Verif.Model.Fraction

/-!
# `chrono.hpp`

Models `/repo/include/ieme/chrono.hpp` on top of the conversion of
`std::chrono::duration` that the standard prescribes ([time.duration.cast],
[time.duration.cons], [ratio.arithmetic]).

For a target `duration<fraction<Rep, Ops>, Period>` the common type of `fraction<Rep, Ops>`,
an integer type and `std::intmax_t` is `fraction<Rep, Ops>`: integers convert to it
implicitly (`/repo/include/ieme/fraction.hpp:40`) and it converts to no integer.  Between
fractions of different representations or policies there is no common type, so the source of
a conversion is an integer count or a count of the same fraction type.
-/

namespace Ieme.Chrono

/-- A period: a positive `std::ratio`, in lowest terms. -/
structure Period where
  num : Int
  den : Int
  num_pos : 0 < num
  den_pos : 0 < den
  coprime : Int.gcd num den = 1

/-- `std::ratio_divide<P, Q>`: ill-formed when the parts in lowest terms do not fit
`std::intmax_t`. -/
def ratioDivide (p q : Period) : Option (Int × Int) :=
  let n := p.num * q.den
  let d := p.den * q.num
  let g := (Int.gcd n d : Int)
  if i64.InRange (n / g) ∧ i64.InRange (d / g) then some (n / g, d / g) else none

/-- The count of the source duration: an integer, or a fraction of the target type. -/
inductive Count where
  | int (n : Int)
  | frac (f : Raw)

/-- `static_cast<CR>` of the count. -/
def Count.cast (T : IntTy) : Count → Res Raw
  | .int n => do
    let n' ← T.conv n
    return Fraction.mk n'
  | .frac f => pure f

/-- `static_cast<CR>` of a part of the conversion factor. -/
def factor (T : IntTy) (n : Int) : Res Raw := do
  let n' ← T.conv n
  return Fraction.mk n'

/-- `std::chrono::duration_cast` to `duration<fraction<T, o>, q>` from a duration with period
`p`, with its four cases. -/
def durationCast (T : IntTy) (o : Ops) (p q : Period) (c : Count) : Res Raw :=
  match ratioDivide p q with
  | none => .fault .illFormed
  | some (n, d) => do
    let x ← c.cast T
    if n = 1 ∧ d = 1 then return x
    else if d = 1 then
      let n' ← factor T n
      Fraction.arith T T o .multiplies (.ff x n')
    else if n = 1 then
      let d' ← factor T d
      Fraction.arith T T o .divides (.ff x d')
    else
      let n' ← factor T n
      let y ← Fraction.arith T T o .multiplies (.ff x n')
      let d' ← factor T d
      Fraction.arith T T o .divides (.ff y d')

/-- `std::chrono::treat_as_floating_point` for fractions, lines 17-19. -/
def treatAsFloatingPoint : Bool := true

/-- `treat_as_floating_point` of the source. -/
def Count.isFloating : Count → Bool
  | .int _ => false
  | .frac _ => treatAsFloatingPoint

/-- Converting constructor of `ieme::chrono::duration` (alias of lines 30-31): ill-formed
unless the target counts as floating, or the factor is a whole number and the source does
not count as floating.  The converting constructor of `time_point` (alias of lines 49-53)
does the same with the time since the epoch. -/
def convert (T : IntTy) (o : Ops) (p q : Period) (c : Count) : Res Raw :=
  match ratioDivide p q with
  | none => .fault .illFormed
  | some (_, d) =>
    if treatAsFloatingPoint ∨ (d = 1 ∧ ¬ c.isFloating) then durationCast T o p q c
    else .fault .illFormed

/-- `to_fractional` of a duration (lines 92-97) and of a time point (lines 99-106) with
representation `T` and period `p`. -/
def toFractional (T : IntTy) (o : Ops) (p : Period) (n : Int) : Res Raw :=
  convert T o p p (.int n)

/-- `clock_wrapper<Clock, q, o>::now`, line 85, for a clock of period `p` and representation
`T` that reads `n`. -/
def now (T : IntTy) (o : Ops) (p q : Period) (n : Int) : Res Raw :=
  convert T o p q (.int n)

end Ieme.Chrono
