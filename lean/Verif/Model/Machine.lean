/-!
# Fixed-width integer semantics

C++ integer arithmetic as used by the library.  Nothing here models a function of
`/repo`; it models the language rules and the standard-library functions
(`std::gcd`, `std::lcm`) on which every function of `/repo/include/ieme` rests.
-/

namespace Ieme

/-- Ways in which a C++ evaluation can fail to return a value.
`thrown` is an exception and `illFormed` a program the compiler must reject; all the
others are undefined behaviour. -/
inductive Fault where
  /-- signed integer overflow -/
  | overflow
  /-- division or remainder by zero -/
  | divByZero
  /-- shift count not smaller than the width -/
  | shiftRange
  /-- precondition of `std::gcd` violated -/
  | gcdPrecond
  /-- precondition of `std::lcm` violated -/
  | lcmPrecond
  /-- `std::string_view` access past the end -/
  | outOfBounds
  /-- the program is ill-formed (for instance a narrowing conversion in braces) -/
  | illFormed
  /-- an exception is thrown -/
  | thrown
deriving DecidableEq, Repr

/-- Outcome of evaluating a C++ expression.  `wrapped` records whether some unsigned
operation wrapped around or some `static_cast` changed a value on the way; C++ carries
on silently in that case and so does the model. -/
inductive Res (α : Type) where
  | ok (val : α) (wrapped : Bool)
  | fault (kind : Fault)
deriving DecidableEq, Repr

namespace Res

/-- Sequencing: faults stop the evaluation, the wrap flags accumulate. -/
def bind {α β : Type} (x : Res α) (f : α → Res β) : Res β :=
  match x with
  | fault k => fault k
  | ok a w =>
    match f a with
    | fault k => fault k
    | ok b w' => ok b (w || w')

instance : Monad Res where
  pure a := ok a false
  bind := bind

/-- The evaluation returns a value (possibly after silent wrap-around). -/
def Finishes {α : Type} (x : Res α) : Prop := ∃ r w, x = ok r w

end Res

/-- `e ⇓ r`: the evaluation returns `r` and nothing wrapped on the way. -/
notation:50 e:51 " ⇓ " r:51 => e = Res.ok r false

/-- A fixed-width two's complement integer type of at least 32 bits.  Narrower types
are excluded because C++ promotes their operands to `int`. -/
structure IntTy where
  signed : Bool
  bits : Nat
  wide : 32 ≤ bits
deriving DecidableEq

namespace IntTy

/-- `std::numeric_limits<T>::min()` -/
def min (T : IntTy) : Int := if T.signed then -((2 ^ (T.bits - 1) : Nat) : Int) else 0

/-- `std::numeric_limits<T>::max()` -/
def max (T : IntTy) : Int :=
  if T.signed then ((2 ^ (T.bits - 1) : Nat) : Int) - 1 else ((2 ^ T.bits : Nat) : Int) - 1

/-- The value `x` is representable in `T`. -/
def InRange (T : IntTy) (x : Int) : Prop := T.min ≤ x ∧ x ≤ T.max

instance (T : IntTy) (x : Int) : Decidable (T.InRange x) :=
  inferInstanceAs (Decidable (_ ∧ _))

/-- The value of `T` congruent to `x` modulo `2^bits`. -/
def wrap (T : IntTy) (x : Int) : Int :=
  if T.signed then Int.bmod x (2 ^ T.bits) else x % ((2 ^ T.bits : Nat) : Int)

/-- `std::make_unsigned_t<T>` -/
def toUnsigned (T : IntTy) : IntTy := ⟨false, T.bits, T.wide⟩

/-- Result of an arithmetic operator whose mathematical result is `x`: exact when
representable; otherwise undefined for signed and modular for unsigned types
([expr.pre]/4, [basic.fundamental]/2). -/
def arith (T : IntTy) (x : Int) : Res Int :=
  if T.InRange x then .ok x false
  else if T.signed then .fault .overflow
  else .ok (T.wrap x) true

/-- `a + b` -/
def add (T : IntTy) (a b : Int) : Res Int := T.arith (a + b)
/-- `a - b` -/
def sub (T : IntTy) (a b : Int) : Res Int := T.arith (a - b)
/-- `a * b` -/
def mul (T : IntTy) (a b : Int) : Res Int := T.arith (a * b)
/-- `-a` -/
def neg (T : IntTy) (a : Int) : Res Int := T.arith (-a)

/-- `a / b`: truncated quotient; undefined when `b` is zero or the quotient is not
representable ([expr.mul]/4). -/
def div (T : IntTy) (a b : Int) : Res Int :=
  if b = 0 then .fault .divByZero
  else if T.InRange (a.tdiv b) then .ok (a.tdiv b) false
  else .fault .overflow

/-- `a % b`: remainder of the truncated quotient; undefined in the same cases as `a / b`
([expr.mul]/4). -/
def mod (T : IntTy) (a b : Int) : Res Int :=
  if b = 0 then .fault .divByZero
  else if T.InRange (a.tdiv b) then .ok (a.tmod b) false
  else .fault .overflow

/-- `static_cast<T>(x)`: the congruent value of `T` ([conv.integral]/3). -/
def conv (T : IntTy) (x : Int) : Res Int :=
  if T.InRange x then .ok x false else .ok (T.wrap x) true

/-- `std::gcd(m, n)` with both arguments of type `T`: undefined unless both absolute
values are representable ([numeric.ops.gcd]). -/
def gcd (T : IntTy) (m n : Int) : Res Int :=
  if T.InRange m.natAbs ∧ T.InRange n.natAbs then .ok (Int.gcd m n) false
  else .fault .gcdPrecond

/-- `std::lcm(m, n)` with both arguments of type `T`: zero when either is zero; undefined
unless both absolute values and the least common multiple are representable
([numeric.ops.lcm]). -/
def lcm (T : IntTy) (m n : Int) : Res Int :=
  if T.InRange m.natAbs ∧ T.InRange n.natAbs ∧ T.InRange (Int.lcm m n) then
    .ok (Int.lcm m n) false
  else .fault .lcmPrecond

/-- `a << n` for an unsigned type: undefined when `n` is at least the width, otherwise
modular ([expr.shift]). -/
def shl (T : IntTy) (a n : Int) : Res Int :=
  if 0 ≤ n ∧ n < T.bits then T.arith (a * ((2 ^ n.toNat : Nat) : Int))
  else .fault .shiftRange

/-- `std::common_type_t<A, B>` of two integer types by the usual arithmetic conversions
([expr.arith.conv]); integer types of equal width and signedness are identified. -/
def common (A B : IntTy) : IntTy :=
  if A.signed = B.signed then
    if A.bits < B.bits then B else A
  else if A.signed then
    if A.bits ≤ B.bits then B else A
  else
    if B.bits ≤ A.bits then A else B

end IntTy

/-- `int` -/
def i32 : IntTy := ⟨true, 32, by decide⟩
/-- `unsigned int` -/
def u32 : IntTy := ⟨false, 32, by decide⟩
/-- `long long` / `std::int64_t` / `std::intmax_t` -/
def i64 : IntTy := ⟨true, 64, by decide⟩
/-- `unsigned long long` / `std::uint64_t` -/
def u64 : IntTy := ⟨false, 64, by decide⟩

end Ieme
