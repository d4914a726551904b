import Verif.Model.LeafEval
import Verif.Model.Literals

/-!
# Spec: what the text of `hash.hpp`, `limits.hpp` and `fraction_literals.hpp` computes

`leaf` is what the text parses to; `invoke` evaluates a call from it, for a `std::size_t` of `z` bits
and a given `std::hash` of the integer types.  The number given to `invoke` bounds the depth of calls.
-/

namespace Ieme.Leaf

open Header

variable {z : Nat}

/-- Evaluated from the text, the call (or the constant) is `r`, provided it is given enough steps. -/
def Gives (h : IntTy → Int → BitVec z) (x : Callee z) (r : Res (LV z)) : Prop :=
  ∃ k, ∀ n, k ≤ n → invoke leaf h n x = r

/-- `ieme::hash(v)` -/
def hashOf (v : Val) : Callee z := .free N.«hash» [.val v]

/-- `std::hash<t>()(v)`, where `t` is the type of `v` -/
def stdHashOf (v : Val) : Callee z := .member (.stdHash v.type) none N.«operator()» [.val v]

/-- `ieme::limits<t>::f()` -/
def limitOf (t : TVal) (f : Nat) : Callee z := .member (.limits t) none f []

/-- `std::numeric_limits<t>::f()` -/
def stdLimitOf (t : TVal) (f : Nat) : Callee z := .member (.stdLimits t) none f []

/-- `std::numeric_limits<t>::x` -/
def stdConstOf (t : TVal) (x : Nat) : Callee z := .const (.stdLimits t) x

/-- a value of type `fraction<T, o>` -/
def fractionValue (T : IntTy) (o : Ops) (f : Raw) : LV z := .val (.frac T o f)

/-- a value of type `denominator_literal<l.signed, o>` -/
def literalValue (o : Ops) (l : DenLit) : LV z := .lit l.signed o l.value

/-- a value of type `bool` -/
def boolValue (b : Bool) : LV z := .val (.bool b)

/-- a value of type `int` -/
def intValue (k : Nat) : LV z := .val (.int i32 k)

/-- The functions of `ieme::limits` and what they return. -/
def limitTable (T : IntTy) : List (Nat × Raw) :=
  [(N.«max», Limits.max T), (N.«min», Limits.min T), (N.«smallest», Limits.smallest T),
    (N.«undefined», Limits.undefined)]

/-- The functions of `std::numeric_limits` and what they return. -/
def stdLimitTable (T : IntTy) : List (Nat × Raw) :=
  [(N.«min», Limits.stdMin T), (N.«lowest», Limits.stdLowest T), (N.«max», Limits.stdMax T),
    (N.«epsilon», Limits.stdEpsilon T), (N.«round_error», Limits.stdRoundError),
    (N.«infinity», Limits.stdInfinity), (N.«quiet_NaN», Limits.stdQuietNaN),
    (N.«signaling_NaN», Limits.stdSignalingNaN), (N.«denorm_min», Limits.stdDenormMin)]

/-- The constants of `std::numeric_limits` that the model has. -/
def traitTable (t : Limits.Traits) : List (Nat × LV z) :=
  [(N.«is_signed», boolValue t.isSigned), (N.«is_integer», boolValue t.isInteger),
    (N.«is_exact», boolValue t.isExact), (N.«is_bounded», boolValue t.isBounded),
    (N.«is_modulo», boolValue t.isModulo), (N.«has_infinity», boolValue t.hasInfinity),
    (N.«has_quiet_NaN», boolValue t.hasQuietNaN), (N.«traps», boolValue t.traps),
    (N.«radix», intValue t.radix), (N.«digits», intValue t.digits),
    (N.«digits10», intValue t.digits10)]

/-- The other constants. -/
def otherTable : List (Nat × LV z) :=
  [(N.«is_specialized», boolValue true), (N.«has_signaling_NaN», boolValue false),
    (N.«has_denorm», .style N.«denorm_indeterminate»), (N.«has_denorm_loss», boolValue false),
    (N.«round_style», .style N.«round_indeterminate»), (N.«is_iec559», boolValue false),
    (N.«max_digits10», intValue 0), (N.«min_exponent», intValue 0),
    (N.«min_exponent10», intValue 0), (N.«max_exponent», intValue 0),
    (N.«max_exponent10», intValue 0), (N.«tinyness_before», boolValue false)]

/-- The names of the functions of `std::numeric_limits`. -/
def stdLimitNames : List Nat :=
  [N.«min», N.«lowest», N.«max», N.«epsilon», N.«round_error», N.«infinity», N.«quiet_NaN»,
    N.«signaling_NaN», N.«denorm_min»]

end Ieme.Leaf
