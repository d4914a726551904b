import Verif.Spec.Order
import Verif.Model.Expr
import Verif.Model.MixedNumber
import Verif.Model.Parse
import Verif.Model.FloatingPoint

/-!
# The sources as computations with unsequenced operands

A second transcription of the functions that evaluate several operands or arguments, close to the
text of the sources: `x +. y` is the C++ expression `x + y` whose operands are unsequenced, and so
on; `braces` is a braced initialiser, whose parts are sequenced ([dcl.init.list]/4), and `call` a
function call with two arguments in parentheses, which are not.  The other model files fix
one order; `Verif/Props/Order.lean` proves that it does not matter.
-/

namespace Ieme.Src

open Comp

/-- A value that needs no evaluation. -/
def val {α : Type} (a : α) : Comp α := .done (pure a)

instance : Coe Int (Comp Int) := ⟨val⟩

/-- A built-in operator or a function of two arguments. -/
def bin {α β γ : Type} (f : α → β → Res γ) (x : Comp α) (y : Comp β) : Comp γ :=
  .seq (.unseq x y) fun p => .done (f p.1 p.2)

/-- A call of a function that is itself a computation. -/
def call {α β γ : Type} (f : α → β → Comp γ) (x : Comp α) (y : Comp β) : Comp γ :=
  .seq (.unseq x y) fun p => f p.1 p.2

/-- A comparison. -/
def rel (p : Int → Int → Bool) (x y : Comp Int) : Comp Bool := bin (fun a b => pure (p a b)) x y

/-- `x && b` where `b` can not fail. -/
def and (x : Comp Bool) (b : Bool) : Comp Bool := .seq x fun a => val (a && b)

/-- `!x` -/
def not (x : Comp Bool) : Comp Bool := .seq x fun a => val (!a)

/-- `raw_fraction<Rep>{x, y}`. -/
def braces (x y : Comp Int) : Comp Raw := .seq x fun n => .seq y fun d => val ⟨n, d⟩

section
variable (T : IntTy)

local infixl:65 " +. " => bin (IntTy.add T)
local infixl:65 " -. " => bin (IntTy.sub T)
local infixl:70 " *. " => bin (IntTy.mul T)
local infixl:70 " /. " => bin (IntTy.div T)
local infixl:70 " %. " => bin (IntTy.mod T)
local infix:50 " ==. " => rel (fun a b => decide (a = b))
local infix:50 " <. " => rel (fun a b => decide (a < b))
local infix:50 " <=. " => rel (fun a b => decide (a ≤ b))

/-- Unary minus of an integer. -/
def minus (x : Comp Int) : Comp Int := .seq x fun a => .done (T.neg a)

/-! ## `math_utilities.hpp`, `raw_fraction_queries.hpp`, `raw_fraction_math.hpp` -/

/-- `abs`, `/repo/include/ieme/math_utilities.hpp:26-30`. -/
def mathAbs (v : Int) : Comp Int := if v ≥ 0 then val v else minus T v

/-- `is_integer`, `/repo/include/ieme/raw_fraction_queries.hpp:111-115`. -/
def isInteger (f : Raw) : Comp Bool :=
  if f.isDefined then (f.num %. f.den) ==. (0 : Int) else val false

/-- `is_proper`, `/repo/include/ieme/raw_fraction_queries.hpp:141-146`. -/
def isProper (f : Raw) : Comp Bool := mathAbs T f.num <. mathAbs T f.den

/-- `is_improper`, lines 148-152. -/
def isImproper (f : Raw) : Comp Bool := not (isProper T f)

/-- `normalize_signs`, `/repo/include/ieme/raw_fraction_math.hpp:44-51`: the constructor is called with
parentheses. -/
def normalizeSigns (f : Raw) : Comp Raw :=
  if f.den > 0 then val f else call (fun n d => val ⟨n, d⟩) (minus T f.num) (minus T f.den)

/-- `reduce_ignore_signs`, lines 75-85. -/
def reduceIgnoreSigns (f : Raw) : Comp Raw :=
  if f.isUndefined then val ⟨0, 0⟩
  else .seq (bin T.gcd f.num f.den) fun gcd => braces (f.num /. gcd) (f.den /. gcd)

/-- `reduce`, lines 53-73. -/
def reduce (mode : ReduceMode) (f : Raw) : Comp Raw :=
  match mode with
  | .normalizeSigns => .seq (reduceIgnoreSigns T f) fun g => normalizeSigns T g
  | .ignoreSigns => reduceIgnoreSigns T f

/-! ## `ops::safe`, `/repo/include/ieme/ops.hpp:542-813` -/

/-- The body shared by the functions of two fractions: the least common multiple and the two scaled
numerators as unsequenced operands of `f`, lines 549-558 and the like. -/
def safeScaled {γ : Type} (f : Comp Int → Comp Int → Int → Comp γ) (l r : Raw) : Comp γ :=
  .seq (bin T.lcm l.den r.den) fun lcm =>
    f (lcm /. l.den *. l.num) (lcm /. r.den *. r.num) lcm

/-- The arithmetic functions, lines 549-669. -/
def safeArith : ArithOp → Args → Comp Raw
  | .plus, .ff l r => safeScaled T (fun a b lcm => braces (a +. b) lcm) l r
  | .plus, .fr l r => braces (l.num +. r *. l.den) l.den
  | .plus, .rf l r => braces (r.num +. l *. r.den) r.den
  | .minus, .ff l r => safeScaled T (fun a b lcm => braces (a -. b) lcm) l r
  | .minus, .fr l r => braces (l.num -. r *. l.den) l.den
  | .minus, .rf l r => braces (l *. r.den -. r.num) r.den
  | .multiplies, .ff l r => braces (l.num *. r.num) (l.den *. r.den)
  | .multiplies, .fr l r => braces (l.num *. r) l.den
  | .multiplies, .rf l r => braces (r.num *. l) r.den
  | .divides, .ff l r => braces (l.num *. r.den) (l.den *. r.num)
  | .divides, .fr l r => braces l.num (l.den *. r)
  | .divides, .rf l r => braces (l *. r.den) r.num
  | .modulus, .ff l r => safeScaled T (fun a b lcm => braces (a %. b) lcm) l r
  | .modulus, .fr l r => braces (l.num %. (l.den *. r)) l.den
  | .modulus, .rf l r => braces ((r.den *. l) %. r.num) r.den

/-- A comparison of two fractions, lines 671-682, 719-730 and 746-757. -/
def safeCompare (p : Int → Int → Bool) (l r : Raw) : Comp Bool :=
  if l.isUndefined || r.isUndefined then val false
  else safeScaled T (fun a b _ => rel p a b) l r

/-- The comparison functions, lines 671-813. -/
def safeCmp : CmpOp → Args → Comp Bool
  | .equalTo, .ff l r => safeCompare T (fun a b => decide (a = b)) l r
  | .equalTo, .fr l r => and (l.num ==. r *. l.den) l.isDefined
  | .equalTo, .rf l r => and (r.num ==. l *. r.den) r.isDefined
  | .notEqualTo, .ff l r => not (safeCompare T (fun a b => decide (a = b)) l r)
  | .notEqualTo, .fr l r => not (and (l.num ==. r *. l.den) l.isDefined)
  | .notEqualTo, .rf l r => not (and (r.num ==. l *. r.den) r.isDefined)
  | .less, .ff l r => safeCompare T (fun a b => decide (a < b)) l r
  | .less, .fr l r => and (l.num <. r *. l.den) l.isDefined
  | .less, .rf l r => and (l *. r.den <. r.num) r.isDefined
  | .lessEqual, .ff l r => safeCompare T (fun a b => decide (a ≤ b)) l r
  | .lessEqual, .fr l r => and (l.num <=. r *. l.den) l.isDefined
  | .lessEqual, .rf l r => and (l *. r.den <=. r.num) r.isDefined
  | .greater, .ff l r => safeCompare T (fun a b => decide (a < b)) r l
  | .greater, .fr l r => and (r *. l.den <. l.num) l.isDefined
  | .greater, .rf l r => and (r.num <. l *. r.den) r.isDefined
  | .greaterEqual, .ff l r => safeCompare T (fun a b => decide (a ≤ b)) r l
  | .greaterEqual, .fr l r => and (r *. l.den <=. l.num) l.isDefined
  | .greaterEqual, .rf l r => and (r.num <=. l *. r.den) r.isDefined

/-! ## `ops::fast`, `/repo/include/ieme/ops.hpp:816-1068` -/

/-- The arithmetic functions, lines 823-937. -/
def fastArith : ArithOp → Args → Comp Raw
  | .plus, .ff l r => braces (l.num *. r.den +. r.num *. l.den) (l.den *. r.den)
  | .plus, .fr l r => braces (l.num +. r *. l.den) l.den
  | .plus, .rf l r => braces (r.num +. l *. r.den) r.den
  | .minus, .ff l r => braces (l.num *. r.den -. r.num *. l.den) (l.den *. r.den)
  | .minus, .fr l r => braces (l.num -. r *. l.den) l.den
  | .minus, .rf l r => braces (l *. r.den -. r.num) r.den
  | .multiplies, .ff l r => braces (l.num *. r.num) (l.den *. r.den)
  | .multiplies, .fr l r => braces (l.num *. r) l.den
  | .multiplies, .rf l r => braces (r.num *. l) r.den
  | .divides, .ff l r => braces (l.num *. r.den) (l.den *. r.num)
  | .divides, .fr l r => braces l.num (l.den *. r)
  | .divides, .rf l r => braces (l *. r.den) r.num
  | .modulus, .ff l r => braces ((l.num *. r.den) %. (r.num *. l.den)) (l.den *. r.den)
  | .modulus, .fr l r => braces (l.num %. (r *. l.den)) l.den
  | .modulus, .rf l r => braces ((l *. r.den) %. r.num) r.den

/-- A comparison of two fractions, lines 939-946, 983-989 and 1005-1012. -/
def fastCompare (p : Int → Int → Bool) (l r : Raw) : Comp Bool :=
  and (and (rel p (l.num *. r.den) (r.num *. l.den)) l.isDefined) r.isDefined

/-- The comparison functions, lines 939-1068. -/
def fastCmp : CmpOp → Args → Comp Bool
  | .equalTo, .ff l r => fastCompare T (fun a b => decide (a = b)) l r
  | .equalTo, .fr l r => and (l.num ==. r *. l.den) l.isDefined
  | .equalTo, .rf l r => and (r.num ==. l *. r.den) r.isDefined
  | .notEqualTo, .ff l r => not (fastCompare T (fun a b => decide (a = b)) l r)
  | .notEqualTo, .fr l r => not (and (l.num ==. r *. l.den) l.isDefined)
  | .notEqualTo, .rf l r => not (and (r.num ==. l *. r.den) r.isDefined)
  | .less, .ff l r => fastCompare T (fun a b => decide (a < b)) l r
  | .less, .fr l r => and (l.num <. r *. l.den) l.isDefined
  | .less, .rf l r => and (l *. r.den <. r.num) r.isDefined
  | .lessEqual, .ff l r => fastCompare T (fun a b => decide (a ≤ b)) l r
  | .lessEqual, .fr l r => and (l.num <=. r *. l.den) l.isDefined
  | .lessEqual, .rf l r => and (l *. r.den <=. r.num) r.isDefined
  | .greater, .ff l r => fastCompare T (fun a b => decide (a < b)) r l
  | .greater, .fr l r => and (r *. l.den <. l.num) l.isDefined
  | .greater, .rf l r => and (r.num <. l *. r.den) r.isDefined
  | .greaterEqual, .ff l r => fastCompare T (fun a b => decide (a ≤ b)) r l
  | .greaterEqual, .fr l r => and (r *. l.den <=. l.num) l.isDefined
  | .greaterEqual, .rf l r => and (r.num <=. l *. r.den) r.isDefined

/-! ## All policies -/

/-- The arguments that `reduced_input` passes on, `/repo/include/ieme/ops.hpp:1079-1371`. -/
def reduceArgs (mode : ReduceMode) : Args → Comp Args
  | .ff l r => call (fun l' r' => val (.ff l' r')) (reduce T mode l) (reduce T mode r)
  | .fr l r => call (fun l' r' => val (.fr l' r')) (reduce T mode l) (val r)
  | .rf l r => call (fun l' r' => val (.rf l' r')) (val l) (reduce T mode r)

/-- Negation, lines 542-547, 816-821, 1071-1077 and 1374-1380. -/
def negate : Ops → Raw → Comp Raw
  | .safe, v => braces (minus T v.num) v.den
  | .fast, v => braces (minus T v.num) v.den
  | .reducedInput o _, v => .seq (reduce T .normalizeSigns v) fun v' => negate o v'
  | .reducedOutput o mode, v => .seq (negate o v) fun r => reduce T mode r

/-- Arithmetic, lines 549-669, 823-937, 1079-1212 and 1382-1421. -/
def opsArith : Ops → ArithOp → Args → Comp Raw
  | .safe, op, a => safeArith T op a
  | .fast, op, a => fastArith T op a
  | .reducedInput o mode, op, a => .seq (reduceArgs T mode a) fun a' => opsArith o op a'
  | .reducedOutput o mode, op, a => .seq (opsArith o op a) fun r => reduce T mode r

/-- Comparison, lines 671-813, 939-1068, 1214-1371 and 1423-1472. -/
def opsCmp : Ops → CmpOp → Args → Comp Bool
  | .safe, op, a => safeCmp T op a
  | .fast, op, a => fastCmp T op a
  | .reducedInput o mode, op, a => .seq (reduceArgs T mode a) fun a' => opsCmp o op a'
  | .reducedOutput o _, op, a => opsCmp o op a

/-! ## `fraction.hpp` and `fraction_math.hpp` -/

end

/-- `static_cast` of an integer. -/
def castRep (T : IntTy) (x : Int) : Comp Int := .done (T.conv x)

/-- `static_cast` of a fraction: member initialisers, which are sequenced,
`/repo/include/ieme/raw_fraction.hpp:48-55`. -/
def castRaw (T : IntTy) (f : Raw) : Comp Raw := braces (castRep T f.num) (castRep T f.den)

/-- The arguments that the operators pass on, `/repo/include/ieme/fraction.hpp:587-629`. -/
def toCommon (L R : IntTy) : Args → Comp Args
  | .ff l r => call (fun l' r' => val (.ff l' r'))
      (if L = IntTy.common L R then val l else castRaw (IntTy.common L R) l)
      (if R = IntTy.common L R then val r else castRaw (IntTy.common L R) r)
  | .fr l r => call (fun l' r' => val (.fr l' r'))
      (if L = IntTy.common L R then val l else castRaw (IntTy.common L R) l)
      (if R = IntTy.common L R then val r else castRep (IntTy.common L R) r)
  | .rf l r => call (fun l' r' => val (.rf l' r'))
      (if L = IntTy.common L R then val l else castRep (IntTy.common L R) l)
      (if R = IntTy.common L R then val r else castRaw (IntTy.common L R) r)

/-- `operator+ - * / %`, lines 631-660. -/
def arith (L R : IntTy) (o : Ops) (op : ArithOp) (a : Args) : Comp Raw :=
  .seq (toCommon L R a) fun a' => opsArith (IntTy.common L R) o op a'

/-- `operator== != < <= > >=`, lines 690-718. -/
def cmp (L R : IntTy) (o : Ops) (op : CmpOp) (a : Args) : Comp Bool :=
  .seq (toCommon L R a) fun a' => opsCmp (IntTy.common L R) o op a'

/-- An expression over fractions and integers: every binary operator leaves its operands
unsequenced. -/
def expr (T : IntTy) (o : Ops) : Expr → Comp Raw
  | .lit f => val f
  | .neg e => .seq (expr T o e) fun v => negate T o v
  | .pos e => .seq (expr T o e) fun v => val v
  | .ff op e1 e2 => call (fun a b => arith T T o op (.ff a b)) (expr T o e1) (expr T o e2)
  | .fr op e n => call (fun a b => arith T T o op (.fr a b)) (expr T o e) (val n)
  | .rf op n e => call (fun a b => arith T T o op (.rf a b)) (val n) (expr T o e)

/-- Compound assignment with a fraction on the right, lines 662-672. -/
def assignF (L R : IntTy) (o : Ops) (op : ArithOp) (l r : Raw) : Comp Raw :=
  if L = R then arith L R o op (.ff l r)
  else call (fun l r => arith L L o op (.ff l r)) (val l) (castRaw L r)

/-- Compound assignment with an integer on the right, lines 674-682. -/
def assignR (L R : IntTy) (o : Ops) (op : ArithOp) (l : Raw) (r : Int) : Comp Raw :=
  if L = R then arith L R o op (.fr l r)
  else call (fun l r => arith L L o op (.fr l r)) (val l) (castRep L r)

/-- `abs`, `/repo/include/ieme/fraction_math.hpp:129-133`. -/
def abs (T : IntTy) (o : Ops) (f : Raw) : Comp Raw :=
  if f.isNonNegative then val f else negate T o f

/-- `trunc`, lines 154-158. -/
def trunc (T : IntTy) (f : Raw) : Comp Int := bin T.div (val f.num) (val f.den)

/-- `ceil`, lines 160-167. -/
def ceil (T : IntTy) (f : Raw) : Comp Int :=
  .seq (trunc T f) fun truncated => .seq (isInteger T f) fun i =>
    if i || decide (truncated < 0) then val truncated else bin T.add (val truncated) (val 1)

/-- `floor`, lines 169-176. -/
def floor (T : IntTy) (f : Raw) : Comp Int :=
  .seq (trunc T f) fun truncated => .seq (isInteger T f) fun i =>
    if i || decide (truncated ≥ 0) then val truncated else bin T.sub (val truncated) (val 1)

/-- `round`, lines 178-186. -/
def round (T : IntTy) (o : Ops) (f : Raw) : Comp Int :=
  .seq (floor T f) fun floored =>
    .seq (call (fun a b => cmp T T o .less (.ff a b))
        (call (fun a b => arith T T o .minus (.fr a b)) (val f) (val floored))
        (call (fun n d => val ⟨n, d⟩) (val 1) (val 2))) fun lt =>
      if lt then val floored else bin T.add (val floored) (val 1)

/-- `value * denominator`, lines 208-238. -/
def scaled (T : IntTy) (o : Ops) (f : Raw) (d : Comp Int) : Comp Raw :=
  call (fun a b => arith T T o .multiplies (.fr a b)) (val f) d

/-- `redenominate`, lines 188-238; `to_whole`, lines 135-152. -/
def redenominate (T : IntTy) (o : Ops) (f : Raw) (d : Int) : RoundMode → Comp Raw
  | .trunc => braces (.seq (scaled T o f (val d)) (trunc T)) (val d)
  | .ceil => braces (if d ≥ 0 then .seq (scaled T o f (val d)) (ceil T)
      else minus T (.seq (scaled T o f (minus T (val d))) (ceil T))) (val d)
  | .floor => braces (if d ≥ 0 then .seq (scaled T o f (val d)) (floor T)
      else minus T (.seq (scaled T o f (minus T (val d))) (floor T))) (val d)
  | .round => braces (.seq (scaled T o f (val d)) (round T o)) (val d)
  | .other => braces (.seq (scaled T o f (val d)) (round T o)) (val d)

/-- `to_whole`, lines 135-152. -/
def toWhole (T : IntTy) (o : Ops) (f : Raw) : RoundMode → Comp Int
  | .trunc => trunc T f
  | .ceil => ceil T f
  | .floor => floor T f
  | .round => round T o f
  | .other => round T o f

/-- `math_utilities::pow`, `/repo/include/ieme/math_utilities.hpp:40-52`. -/
def mathPow (T : IntTy) (base exponent : Int) : Comp Int :=
  if exponent = 0 then val 1
  else if exponent.tmod 2 = 1 then bin T.mul (val base) (mathPow T base (exponent - 1))
  else .seq (mathPow T base (exponent.tdiv 2)) fun squareRoot =>
    bin T.mul (val squareRoot) (val squareRoot)
termination_by exponent.natAbs
decreasing_by
  · rename_i h0 h1
    rcases Int.lt_or_le exponent 0 with h | h
    · have h2 := Int.neg_tmod (-exponent) 2
      have h3 := Int.tmod_nonneg 2 (a := -exponent) (by omega)
      rw [Int.neg_neg] at h2
      omega
    · omega
  · rename_i h0 h1
    rw [Int.natAbs_tdiv]
    exact Nat.div_lt_self (by omega) (by decide)

/-! ## `mixed_number.hpp` -/

/-- `fix`, `/repo/include/ieme/mixed_number.hpp:152-173`: a sequence of statements. -/
def fix (W F : IntTy) (o : Ops) (m : Mixed) : Comp Mixed :=
  .seq
    (.seq (isImproper F m.frac) fun i =>
      if i then
        .seq (trunc F m.frac) fun t => .seq (bin W.add (val m.whole) (castRep W t)) fun w =>
          .seq (assignR F F o .minus m.frac t) fun f => val ⟨w, f⟩
      else val m)
    fun m' =>
      if m'.whole > 0 ∧ m'.frac.isNegative then
        .seq (bin W.sub (val m'.whole) (val 1)) fun w =>
          .seq (call (fun a b => arith F F o .plus (.rf a b)) (val 1) (val m'.frac)) fun f =>
            val ⟨w, f⟩
      else if m'.whole < 0 ∧ m'.frac.isPositive then
        .seq (bin W.add (val m'.whole) (val 1)) fun w =>
          .seq (call (fun a b => arith F F o .plus (.rf a b)) (minus F (val 1)) (val m'.frac)) fun f =>
            val ⟨w, f⟩
      else val m'

/-- The constructor from a fraction, lines 105-112: member initialisers in order. -/
def ofFraction (W F : IntTy) (o : Ops) (S : IntTy) (v : Raw) : Comp Mixed :=
  .seq (.seq (trunc S v) (castRep W)) fun w =>
    .seq (.seq (call (fun a b => arith S S o .minus (.fr a b)) (val v) (castRep S w)) (castRaw F))
      fun f => val ⟨w, f⟩

/-- `as_fraction`, lines 122-136. -/
def asFraction (W F : IntTy) (o : Ops) (m : Mixed) : Comp Raw :=
  call (fun a b => arith (IntTy.common W F) (IntTy.common W F) o .plus (.rf a b))
    (castRep (IntTy.common W F) m.whole) (castRaw (IntTy.common W F) m.frac)

/-- Unary `-`, lines 182-187. -/
def negMixed (W F : IntTy) (o : Ops) (m : Mixed) : Comp Mixed :=
  .seq (minus W (val m.whole)) fun w => .seq (negate F o m.frac) fun f => fix W F o ⟨w, f⟩

/-- `mixed + mixed`, lines 189-209. -/
def addMixed (W₁ F₁ W₂ F₂ : IntTy) (o : Ops) (l r : Mixed) : Comp Mixed :=
  .seq (bin (IntTy.common W₁ W₂).add (castRep (IntTy.common W₁ W₂) l.whole)
      (castRep (IntTy.common W₁ W₂) r.whole)) fun w =>
    .seq (call (fun a b => arith (IntTy.common F₁ F₂) (IntTy.common F₁ F₂) o .plus (.ff a b))
        (castRaw (IntTy.common F₁ F₂) l.frac) (castRaw (IntTy.common F₁ F₂) r.frac)) fun f =>
      fix (IntTy.common W₁ W₂) (IntTy.common F₁ F₂) o ⟨w, f⟩

/-- `mixed + integer`, lines 231-249. -/
def addWhole (W₁ F W₂ : IntTy) (o : Ops) (l : Mixed) (r : Int) : Comp Mixed :=
  .seq (bin (IntTy.common W₁ W₂).add (castRep (IntTy.common W₁ W₂) l.whole)
      (castRep (IntTy.common W₁ W₂) r)) fun w =>
    fix (IntTy.common W₁ W₂) F o ⟨w, l.frac⟩

/-- An expression over mixed numbers; the operands of `+` are unsequenced, and so is the conversion of
a fraction operand (lines 211-229) and the other operand. -/
def mexpr (o : Ops) : MExpr → Comp Mixed
  | .dflt _ _ => val Mixed.default
  | .mk W F w f => fix W F o ⟨w, f⟩
  | .ofFraction W F S f => ofFraction W F o S f
  | .pos e => mexpr o e
  | .neg e => .seq (mexpr o e) fun m => negMixed e.ty.1 e.ty.2 o m
  | .add l r => call (fun a b => addMixed l.ty.1 l.ty.2 r.ty.1 r.ty.2 o a b) (mexpr o l) (mexpr o r)
  | .addFraction e S f =>
    .seq (mexpr o e) fun a =>
      call (fun a b => addMixed e.ty.1 e.ty.2 S S o a b) (val a) (ofFraction S S o S f)
  | .addWhole e S n => call (fun a b => addWhole e.ty.1 e.ty.2 S o a b) (mexpr o e) (val n)

/-! ## Powers, literals and floating-point numbers -/

/-- `pow`, `/repo/include/ieme/fraction_math.hpp:250-258`. -/
def pow (T : IntTy) (base exponent : Int) : Comp Raw :=
  if exponent ≥ 0 then
    .seq (call (mathPow T) (val base) (castRep T exponent)) fun p => val (Fraction.mk p)
  else
    call (fun n d => val ⟨n, d⟩) (val 1)
      (call (mathPow T) (val base) (.seq (minus i32 (val exponent)) (castRep T)))

/-- `floating_point_string_to_fraction` after scanning, `/repo/include/ieme/floating_point.hpp:91-129`. -/
def scanValue (T : IntTy) (o : Ops) (r : Parse.Scan) : Comp Raw :=
  .seq (castRep T r.base) fun base =>
  .seq (.done (Parse.digitSequenceToInt T r.whole base)) fun whole =>
  .seq (.done (Parse.digitSequenceToInt T r.fractional base)) fun num =>
  .seq (call (mathPow T) (val base) (castRep T r.precision)) fun den =>
  .seq (bin i32.mul (val (if r.negative then -1 else 1))
    (.done (Parse.digitSequenceToInt i32 r.exponent 10))) fun exponent =>
  call (fun a b => arith T T o .multiplies (.ff a b))
    (call (fun a b => arith T T o .plus (.rf a b)) (val whole)
      (call (fun n d => val ⟨n, d⟩) (val num) (val den)))
    (pow T (if r.base = 10 then 10 else 2) exponent)

/-- `floating_point_string_to_fraction`, lines 91-129. -/
def parse (T : IntTy) (o : Ops) (string : List Char) : Comp Raw :=
  .seq (.done (Parse.scan string)) fun
    | none => val ⟨0, 0⟩
    | some r => scanValue T o r

/-- The fraction for the three fields of a floating-point number, lines 192-209. -/
def assemble (T : IntTy) (o : Ops) (bias den : Int) (signPart exponentPart mantissaPart : Nat) :
    Comp Raw :=
  .seq (if signPart = 0 then val 1 else minus T (val 1)) fun sign =>
  .seq (bin i32.sub (castRep i32 exponentPart) (val bias)) fun exponent =>
  .seq (castRep T mantissaPart) fun num =>
  .seq (call (fun a b => arith T T o .plus (.rf a b)) (val 1)
    (call (fun n d => val ⟨n, d⟩) (val num) (val den))) fun mantissa =>
  call (fun a b => arith T T o .multiplies (.ff a b))
    (call (fun a b => arith T T o .multiplies (.rf a b)) (val sign) (val mantissa))
    (.done (Fraction.pow2 T exponent))

/-- `floating_point_to_fraction`, lines 131-210; the constants are evaluated by the compiler, the three
fields are arguments of `std::make_tuple`. -/
def floatToFraction (E : FloatingPoint.Endian) (F : Fmt) (T : IntTy) (o : Ops) (bits : Nat) :
    Comp Raw :=
  .seq (.done (FloatingPoint.constant (FloatingPoint.offsets F E))) fun offs =>
  .seq (.done (FloatingPoint.exponentBias F)) fun bias =>
  .seq (.done (FloatingPoint.mantissaDenominator T F)) fun den =>
  .seq (.unseq (.done (FloatingPoint.bitField F.uint bits offs.1 1))
    (.unseq (.done (FloatingPoint.bitField F.uint bits offs.2.1 F.exp))
      (.done (FloatingPoint.bitField F.uint bits offs.2.2 F.mant)))) fun parts =>
  .seq (.done (FloatingPoint.repeatingOnes F.uint F.exp)) fun ones =>
  if (parts.2.1 : Int) = ones ∧ parts.2.2 ≠ 0 then val Limits.undefined
  else assemble T o bias den parts.1 parts.2.1 parts.2.2

end Ieme.Src
