import Verif.Spec.HeaderText
import Verif.Spec.Rational
import Verif.Spec.MixedNumber

/-!
# Spec: what code that uses fractions means

Code of a user of the library: expressions, statements and `while` loops over variables that hold
integers, fractions, mixed numbers and truth values.  `Runs` evaluates such code with the text of the headers.
`Sem`, `DoesStmt` and `Does` say what the code means over the integers and the rational numbers; they
know nothing of types, representations, reduction or overflow.

The meaning is left open where the library does not compute it: a zero divisor, and order comparisons
under a policy built on `fast` or between a fraction and an integer (C15), and the roundings that are
wrong (C30, C31, C32).
-/

namespace Ieme.User

open Header

/-! ## Meanings -/

/-- A truth value, an integer, or a rational number as a fraction or as a mixed number. -/
inductive Meaning where
  | bool (b : Bool)
  | int (n : ℤ)
  | rat (q : ℚ)
  | mix (q : ℚ)

/-- The object has this meaning; fractions and mixed numbers have the policy `o`, and mixed numbers
satisfy their class invariant. -/
def Means (o : Ops) : Val → Meaning → Prop
  | .bool b, .bool c => b = c
  | .int _ n, .int k => n = k
  | .frac _ p r, .rat q => p = o ∧ Denotes r q
  | .mixed _ _ p m, .mix q => p = o ∧ m.Invariant ∧ m.Denotes q
  | _, _ => False

/-- Names and what they mean, the latest first. -/
abbrev Mem := List (Nat × Meaning)

/-- The variables have these meanings. -/
def MeansAll (o : Ops) (ents : List (Nat × Val)) (M : Mem) : Prop :=
  List.Forall₂ (fun p q => p.1 = q.1 ∧ Means o p.2 q.2) ents M

/-- The names of types that the code has declared, such as `using rational = fraction<int>;`. -/
abbrev Types := List (Nat × TVal)

/-- A number as a rational number. -/
def Meaning.rat? : Meaning → Option ℚ
  | .int n => some n
  | .rat q => some q
  | .bool _ | .mix _ => none

/-- C++ operators on integers. -/
def intOp : BinOp → ℤ → ℤ → Option Meaning
  | .add, x, y => some (.int (x + y))
  | .sub, x, y => some (.int (x - y))
  | .mul, x, y => some (.int (x * y))
  | .div, x, y => if y = 0 then none else some (.int (x.tdiv y))
  | .mod, x, y => if y = 0 then none else some (.int (x.tmod y))
  | .eq, x, y => some (.bool (decide (x = y)))
  | .ne, x, y => some (.bool (decide (x ≠ y)))
  | .lt, x, y => some (.bool (decide (x < y)))
  | .le, x, y => some (.bool (decide (x ≤ y)))
  | .gt, x, y => some (.bool (decide (x > y)))
  | .ge, x, y => some (.bool (decide (x ≥ y)))
  | _, _, _ => none

/-- Arithmetic and equality of rational numbers; `%` is the remainder of truncating division. -/
def ratOp : BinOp → ℚ → ℚ → Option Meaning
  | .add, x, y => some (.rat (x + y))
  | .sub, x, y => some (.rat (x - y))
  | .mul, x, y => some (.rat (x * y))
  | .div, x, y => if y = 0 then none else some (.rat (x / y))
  | .mod, x, y => if y = 0 then none else some (.rat (x - y * ratTrunc (x / y)))
  | .eq, x, y => some (.bool (decide (x = y)))
  | .ne, x, y => some (.bool (decide (x ≠ y)))
  | _, _, _ => none

/-- The order of rational numbers. -/
def ratOrder : BinOp → ℚ → ℚ → Option Bool
  | .lt, x, y => some (decide (x < y))
  | .le, x, y => some (decide (x ≤ y))
  | .gt, x, y => some (decide (x > y))
  | .ge, x, y => some (decide (x ≥ y))
  | _, _, _ => none

/-- Queries of the library about a fraction. -/
def ratQuery (f : Nat) (q : ℚ) : Option Bool :=
  if f = N.«is_zero» then some (decide (q = 0))
  else if f = N.«is_positive» then some (decide (0 < q))
  else if f = N.«is_negative» then some (decide (q < 0))
  else if f = N.«is_non_negative» then some (decide (0 ≤ q))
  else if f = N.«is_non_positive» then some (decide (q ≤ 0))
  else if f = N.«is_integer» then some (decide (q.den = 1))
  else if f = N.«is_unit_fraction» then some (decide (q.num = 1 ∨ q.num = -1))
  else if f = N.«is_defined» then some true
  else if f = N.«is_undefined» then some false
  else none

/-- Queries of the library about the size of a fraction. -/
def ratSize (f : Nat) (q : ℚ) : Option Bool :=
  if f = N.«is_proper» then some (decide (|q| < 1))
  else if f = N.«is_improper» then some (decide (1 ≤ |q|))
  else none

/-- Functions of the library on a fraction.  `floor` and `ceil` are left open in (-1, 0), where the
library is wrong (C30, C31). -/
def ratFun (f : Nat) (q : ℚ) : Option Meaning :=
  if f = N.«abs» then some (.rat |q|)
  else if f = N.«reduce» then some (.rat q)
  else if f = N.«normalize_signs» then some (.rat q)
  else if f = N.«reciprocal» then if q = 0 then none else some (.rat q⁻¹)
  else if f = N.«trunc» then some (.int (ratTrunc q))
  else if f = N.«floor» then if -1 < q ∧ q < 0 then none else some (.int ⌊q⌋)
  else if f = N.«ceil» then if -1 < q ∧ q < 0 then none else some (.int ⌈q⌉)
  else ((ratQuery f q).or (ratSize f q)).map .bool

/-- The multiples of `1 / d` that a fraction is truncated, rounded down and rounded up to.  The last two
are left open where the library is wrong (C34). -/
def ratRedenominate (f : Nat) (q : ℚ) (d : ℤ) : Option ℚ :=
  if f = N.«trunc_redenominate» then some (ratTrunc (q * d) / d)
  else if -1 < q * |(d : ℚ)| ∧ q * |(d : ℚ)| < 0 then none
  else if f = N.«floor_redenominate» then some (⌊q * |(d : ℚ)|⌋ / |(d : ℚ)|)
  else if f = N.«ceil_redenominate» then some (⌈q * |(d : ℚ)|⌉ / |(d : ℚ)|)
  else none

/-- What an expression means. -/
inductive Sem (o : Ops) (tys : Types) (M : Mem) : Header.Expr → Meaning → Prop
  | num (n) : Sem o tys M (.num n) (.int n)
  | var {x m} : M.lookup x = some m → Sem o tys M (.var 0 x) m
  | negInt {e n} : Sem o tys M e (.int n) → Sem o tys M (.un .neg e) (.int (-n))
  | negRat {e q} : Sem o tys M e (.rat q) → Sem o tys M (.un .neg e) (.rat (-q))
  | posInt {e n} : Sem o tys M e (.int n) → Sem o tys M (.un .pos e) (.int n)
  | posRat {e q} : Sem o tys M e (.rat q) → Sem o tys M (.un .pos e) (.rat q)
  | not {e b} : Sem o tys M e (.bool b) → Sem o tys M (.un .not e) (.bool !b)
  | ints {op a b x y z} : Sem o tys M a (.int x) → Sem o tys M b (.int y) → intOp op x y = some z →
      Sem o tys M (.bin op a b) z
  | rats {op a b x y z} : Sem o tys M a (.rat x) → Sem o tys M b (.rat y) → ratOp op x y = some z →
      Sem o tys M (.bin op a b) z
  | ratInt {op a b x} {y : ℤ} {z} : Sem o tys M a (.rat x) → Sem o tys M b (.int y) →
      ratOp op x y = some z → Sem o tys M (.bin op a b) z
  | intRat {op a b y} {x : ℤ} {z} : Sem o tys M a (.int x) → Sem o tys M b (.rat y) →
      ratOp op x y = some z → Sem o tys M (.bin op a b) z
  | order {op a b x y z} : o.SafeBased → Sem o tys M a (.rat x) → Sem o tys M b (.rat y) →
      ratOrder op x y = some z → Sem o tys M (.bin op a b) (.bool z)
  | andFalse {a b} : Sem o tys M a (.bool false) → Sem o tys M (.bin .and a b) (.bool false)
  | andTrue {a b m} : Sem o tys M a (.bool true) → Sem o tys M b m → Sem o tys M (.bin .and a b) m
  | orTrue {a b} : Sem o tys M a (.bool true) → Sem o tys M (.bin .or a b) (.bool true)
  | orFalse {a b m} : Sem o tys M a (.bool false) → Sem o tys M b m → Sem o tys M (.bin .or a b) m
  | condTrue {c a b m} : Sem o tys M c (.bool true) → Sem o tys M a m → Sem o tys M (.cond c a b) m
  | condFalse {c a b m} : Sem o tys M c (.bool false) → Sem o tys M b m → Sem o tys M (.cond c a b) m
  | call {f e q m} : tys.lookup f = none → Sem o tys M e (.rat q) → ratFun f q = some m →
      Sem o tys M (.call 0 f [] (.cons e .nil)) m
  | round {e q} : tys.lookup N.«round» = none → Sem o tys M e (.rat q) →
      o.SafeBased ∨ ¬ o.IgnoresSigns → ¬ (-1 < q ∧ q < -1 / 2) →
      Sem o tys M (.call 0 N.«round» [] (.cons e .nil)) (.int ⌊q + 1 / 2⌋)
  | redenominate {f e a q x} {d : ℤ} : tys.lookup f = none → Sem o tys M e (.rat q) →
      Sem o tys M a (.int d) → d ≠ 0 → ratRedenominate f q d = some x →
      Sem o tys M (.call 0 f [] (.cons e (.cons a .nil))) (.rat x)
  | roundRedenominate {f e a q} {d : ℤ} : f ∈ [N.«round_redenominate», N.«redenominate»] →
      tys.lookup f = none → Sem o tys M e (.rat q) → Sem o tys M a (.int d) → d ≠ 0 →
      o.SafeBased ∨ ¬ o.IgnoresSigns → ¬ (-1 < q * d ∧ q * d < -1 / 2) →
      Sem o tys M (.call 0 f [] (.cons e (.cons a .nil))) (.rat (⌊q * d + 1 / 2⌋ / d))
  | reducedNum {f e q} : f ∈ [N.«numerator», N.«num»] → tys.lookup N.«reduce» = none →
      Sem o tys M e (.rat q) → Sem o tys M (.method (.call 0 N.«reduce» [] (.cons e .nil)) f) (.int q.num)
  | reducedDen {f e q} : f ∈ [N.«denominator», N.«den»] → tys.lookup N.«reduce» = none →
      Sem o tys M e (.rat q) → Sem o tys M (.method (.call 0 N.«reduce» [] (.cons e .nil)) f) (.int q.den)
  | make {f T a b} {x y : ℤ} : tys.lookup f = some (.frac T o) → Sem o tys M a (.int x) →
      Sem o tys M b (.int y) → y ≠ 0 →
      Sem o tys M (.call 0 f [] (.cons a (.cons b .nil))) (.rat (x / y))
  | makeInt {f T e n} : tys.lookup f = some (.int T) → Sem o tys M e (.int n) →
      Sem o tys M (.call 0 f [] (.cons e .nil)) (.int n)
  | makeRat {f T e m q} : tys.lookup f = some (.frac T o) → Sem o tys M e m → m.rat? = some q →
      Sem o tys M (.call 0 f [] (.cons e .nil)) (.rat q)
  | castInt {t T e n} : evalTy tys t = some (.int T) → Sem o tys M e (.int n) →
      Sem o tys M (.cast t e) (.int n)
  | castRat {t T e m q} : evalTy tys t = some (.frac T o) → Sem o tys M e m → m.rat? = some q →
      Sem o tys M (.cast t e) (.rat q)
  | negMix {e q} : Sem o tys M e (.mix q) → Sem o tys M (.un .neg e) (.mix (-q))
  | posMix {e q} : Sem o tys M e (.mix q) → Sem o tys M (.un .pos e) (.mix q)
  | mixMix {a b x y} : Sem o tys M a (.mix x) → Sem o tys M b (.mix y) →
      Sem o tys M (.bin .add a b) (.mix (x + y))
  | mixRat {a b m x y} : Sem o tys M a (.mix x) → Sem o tys M b m → m.rat? = some y →
      Sem o tys M (.bin .add a b) (.mix (x + y))
  | ratMix {a b m x y} : Sem o tys M a m → m.rat? = some x → Sem o tys M b (.mix y) →
      Sem o tys M (.bin .add a b) (.mix (x + y))
  | makeMix {f W F e m q} : tys.lookup f = some (.mixed W F o) → Sem o tys M e m →
      m.rat? = some q → Sem o tys M (.call 0 f [] (.cons e .nil)) (.mix q)
  | makeMixTwo {f W F a b} {x : ℤ} {y : ℚ} : tys.lookup f = some (.mixed W F o) →
      Sem o tys M a (.int x) → Sem o tys M b (.rat y) →
      Sem o tys M (.call 0 f [] (.cons a (.cons b .nil))) (.mix (x + y))
  | castMix {t W F e m q} : evalTy tys t = some (.mixed W F o) → Sem o tys M e m →
      m.rat? = some q → Sem o tys M (.cast t e) (.mix q)
  | asFraction {e q} : Sem o tys M e (.mix q) → Sem o tys M (.method e N.«as_fraction») (.rat q)
  | whole {e q} : Sem o tys M e (.mix q) → Sem o tys M (.method e N.«whole») (.int (ratTrunc q))
  | fractional {e q} : Sem o tys M e (.mix q) →
      Sem o tys M (.method e N.«fractional») (.rat (q - ratTrunc q))

/-- How statements end: they return a value, or the next statement follows. -/
inductive Ends (V S : Type) where
  | ret (v : V)
  | next (s : S)
deriving DecidableEq

/-- What a variable holds after a number has been assigned to it: a fraction can be assigned an
integer, and a mixed number both. -/
def assigned : Meaning → Meaning → Option Meaning
  | .int _, .int n => some (.int n)
  | .bool _, .bool b => some (.bool b)
  | .rat _, .rat q => some (.rat q)
  | .rat _, .int n => some (.rat n)
  | .mix _, .mix q => some (.mix q)
  | .mix _, .rat q => some (.mix q)
  | .mix _, .int n => some (.mix n)
  | _, _ => none

/-- What a variable holds after `+=`, `-=`, `*=`, `/=`, `%=`. -/
def updated (op : BinOp) (old m : Meaning) : Option Meaning :=
  if op = .eq ∨ op = .ne then none
  else
    match old, m with
    | .int x, .int y => (intOp op x y).bind (assigned old)
    | .rat x, .rat y => ratOp op x y
    | .rat x, .int y => ratOp op x y
    | _, _ => none

/-- What statements without loops mean. -/
inductive DoesStmt (o : Ops) (tys : Types) : Stmt → Mem → Ends Meaning Mem → Prop
  | nil {M} : DoesStmt o tys .nil M (.next M)
  | ret {e s M m} : Sem o tys M e m → DoesStmt o tys (.ret e s) M (.ret m)
  | decl {x e s M m out} : Sem o tys M e m → DoesStmt o tys s ((x, m) :: M) out →
      DoesStmt o tys (.decl x e s) M out
  | assign {x e s M m old new out} : Sem o tys M e m → M.lookup x = some old →
      assigned old m = some new → DoesStmt o tys s ((x, new) :: M) out →
      DoesStmt o tys (.assign x e s) M out
  | update {x op e s M m old new out} : Sem o tys M e m → M.lookup x = some old →
      updated op old m = some new → DoesStmt o tys s ((x, new) :: M) out →
      DoesStmt o tys (.update x op e s) M out
  | thenRet {c a b s M m} : Sem o tys M c (.bool true) → DoesStmt o tys a M (.ret m) →
      DoesStmt o tys (.ite c a b s) M (.ret m)
  | elseRet {c a b s M m} : Sem o tys M c (.bool false) → DoesStmt o tys b M (.ret m) →
      DoesStmt o tys (.ite c a b s) M (.ret m)
  | thenNext {c a b s M M' out} : Sem o tys M c (.bool true) → DoesStmt o tys a M (.next M') →
      DoesStmt o tys s M' out → DoesStmt o tys (.ite c a b s) M out
  | elseNext {c a b s M M' out} : Sem o tys M c (.bool false) → DoesStmt o tys b M (.next M') →
      DoesStmt o tys s M' out → DoesStmt o tys (.ite c a b s) M out

/-! ## Code with loops -/

/-- Statements of the headers' grammar, and `while` loops. -/
inductive Code where
  | stmt (s : Stmt)
  | seq (a b : Code)
  | while (c : Header.Expr) (body : Code)

/-- What code with loops means, if the loops end. -/
inductive Does (o : Ops) (tys : Types) : Code → Mem → Ends Meaning Mem → Prop
  | stmt {s M out} : DoesStmt o tys s M out → Does o tys (.stmt s) M out
  | seqRet {a b M m} : Does o tys a M (.ret m) → Does o tys (.seq a b) M (.ret m)
  | seqNext {a b M M' out} : Does o tys a M (.next M') → Does o tys b M' out → Does o tys (.seq a b) M out
  | done {c b M} : Sem o tys M c (.bool false) → Does o tys (.while c b) M (.next M)
  | leave {c b M m} : Sem o tys M c (.bool true) → Does o tys b M (.ret m) → Does o tys (.while c b) M (.ret m)
  | again {c b M M' out} : Sem o tys M c (.bool true) → Does o tys b M (.next M') →
      Does o tys (.while c b) M' out → Does o tys (.while c b) M out

/-! ## Running code with the text of the headers -/

/-- The names in use in the code of a user. -/
def userEnv (tys : Types) (ents : List (Nat × Val)) : Env := ⟨.global, tys, ents⟩

/-- The value of an expression; every operator and function is evaluated from the text of the
headers, with a call stack of depth `n`. -/
def userEval (n : Nat) (tys : Types) (ents : List (Nat × Val)) (e : Header.Expr) : Res Val :=
  eval library (invoke library n) (userEnv tys ents) e

/-- Runs statements. -/
def userExec (n : Nat) (tys : Types) (ents : List (Nat × Val)) (s : Stmt) :
    Res (Ends Val (List (Nat × Val))) :=
  exec library (invoke library n) none (fun v _ => pure (.ret v)) s none (userEnv tys ents)
    (fun env => pure (.next env.ents))

/-- The code, run with the text of the headers, ends like this, without wrap-around. -/
inductive Runs (n : Nat) (tys : Types) : Code → List (Nat × Val) → Ends Val (List (Nat × Val)) → Prop
  | stmt {s ents out} : userExec n tys ents s = .ok out false → Runs n tys (.stmt s) ents out
  | seqRet {a b ents v} : Runs n tys a ents (.ret v) → Runs n tys (.seq a b) ents (.ret v)
  | seqNext {a b ents ents' out} : Runs n tys a ents (.next ents') → Runs n tys b ents' out →
      Runs n tys (.seq a b) ents out
  | done {c b ents} : userEval n tys ents c = .ok (.bool false) false →
      Runs n tys (.while c b) ents (.next ents)
  | leave {c b ents v} : userEval n tys ents c = .ok (.bool true) false → Runs n tys b ents (.ret v) →
      Runs n tys (.while c b) ents (.ret v)
  | again {c b ents ents' out} : userEval n tys ents c = .ok (.bool true) false →
      Runs n tys b ents (.next ents') → Runs n tys (.while c b) ents' out → Runs n tys (.while c b) ents out

/-- The same end. -/
def SameEnd (o : Ops) : Ends Val (List (Nat × Val)) → Ends Meaning Mem → Prop
  | .ret v, .ret m => Means o v m
  | .next ents, .next M => MeansAll o ents M
  | _, _ => False

/-- The depth of calls that the policy needs. -/
def policyDepth : Ops → Nat
  | .safe | .fast => 28
  | .reducedInput o _ | .reducedOutput o _ => policyDepth o + 1

/-! ## Loops -/

/-- `while (k != 0) { sum += rational(1, k); k -= 1; }` -/
def harmonicLoop (sum k rational : ℕ) : Code :=
  .while (.bin .ne (.var 0 k) (.num 0))
    (.stmt (.update sum .add (.call 0 rational [] (.cons (.num 1) (.cons (.var 0 k) .nil)))
      (.update k .sub (.num 1) .nil)))

/-- `while (k != 0) { product *= base; k -= 1; }` -/
def powerLoop (product base k : ℕ) : Code :=
  .while (.bin .ne (.var 0 k) (.num 0))
    (.stmt (.update product .mul (.var 0 base) (.update k .sub (.num 1) .nil)))

/-- `while (k != 0) { total = total + part; k -= 1; }` -/
def totalLoop (total part k : ℕ) : Code :=
  .while (.bin .ne (.var 0 k) (.num 0))
    (.stmt (.assign total (.bin .add (.var 0 total) (.var 0 part)) (.update k .sub (.num 1) .nil)))

/-- `while (!is_zero(b)) { auto const rest = a % b; a = b; b = rest; }` -/
def euclidLoop (a b rest : ℕ) : Code :=
  .while (.un .not (.call 0 N.«is_zero» [] (.cons (.var 0 b) .nil)))
    (.stmt (.decl rest (.bin .mod (.var 0 a) (.var 0 b))
      (.assign a (.var 0 b) (.assign b (.var 0 rest) .nil))))

/-- `while (!is_zero(x)) { auto const d = ceil(reciprocal(x)); x -= rational(1, d); terms += 1; }` -/
def greedyLoop (x d terms rational : ℕ) : Code :=
  .while (.un .not (.call 0 N.«is_zero» [] (.cons (.var 0 x) .nil)))
    (.stmt (.decl d (.call 0 N.«ceil» [] (.cons (.call 0 N.«reciprocal» [] (.cons (.var 0 x) .nil)) .nil))
      (.update x .sub (.call 0 rational [] (.cons (.num 1) (.cons (.var 0 d) .nil)))
        (.update terms .add (.num 1) .nil))))

/-- `while (k != 0) { auto const mid = (lo + hi) / 2; if (mid * mid < target) lo = mid; else hi = mid;
k -= 1; }` -/
def rootLoop (lo hi mid target k : ℕ) : Code :=
  .while (.bin .ne (.var 0 k) (.num 0))
    (.stmt (.decl mid (.bin .div (.bin .add (.var 0 lo) (.var 0 hi)) (.num 2))
      (.ite (.bin .lt (.bin .mul (.var 0 mid) (.var 0 mid)) (.var 0 target))
        (.assign lo (.var 0 mid) .nil) (.assign hi (.var 0 mid) .nil) (.update k .sub (.num 1) .nil))))

/-- `while (k != 0) { sum += part; k -= 1; }` -/
def sumLoop (sum part k : ℕ) : Code :=
  .while (.bin .ne (.var 0 k) (.num 0))
    (.stmt (.update sum .add (.var 0 part) (.update k .sub (.num 1) .nil)))

end Ieme.User
