import Verif.Lemmas.TextVerdicts
import Verif.Props.HeaderText
import Verif.Props.Convert
import Verif.Props.ExactMore
import Verif.Props.ExactParts
import Verif.Props.MixedNumber

/-!
# C152: the text itself is right and wrong where the models are

The exactness theorems and the counterexamples of the other files are about the models.  Here the
main ones are stated about the text of the headers: `Returns` evaluates a call from the text that was
parsed, so none of the wrong results below is an artefact of a model.
-/

namespace Ieme

open Header Res

variable {T L R W F : IntTy} {o : Ops} {f r : Raw} {a : Ieme.Args} {x y : ℚ} {n d : ℤ} {b : Bool}

/-- **C152** What the text of an arithmetic operator returns without wrapping is the exact result;
a quotient by zero is undefined, a remainder by zero is not returned. -/
theorem C152_arith_exact {op : ArithOp} (ha : a.Denote x y)
    (h : Returns .global none (arithSymbol op) [] (operands L R o a)
      (.ok (.frac (L.common R) o r) false)) :
    match op with
    | .plus => Denotes r (x + y)
    | .minus => Denotes r (x - y)
    | .multiplies => Denotes r (x * y)
    | .divides => (y ≠ 0 → Denotes r (x / y)) ∧ (y = 0 → r.den = 0)
    | .modulus => y ≠ 0 ∧ Denotes r (x - y * ratTrunc (x / y)) := by
  have h := C39_mixed_arith_exact ha (((C145_operators L R o r a).2.2.1 op).frac h)
  cases op <;> exact h

/-- 1/6 + 3/4 (as -3 over -4) of `int` and `long`. -/
example : (Args.ff ⟨1, 6⟩ ⟨-3, -4⟩).Denote (1/6) (3/4) ∧
    Returns .global none N.«operator+» [] [.frac i32 .safe ⟨1, 6⟩, .frac i64 .safe ⟨-3, -4⟩]
      (.ok (.frac i64 .safe ⟨11, 12⟩) false) :=
  ⟨by norm_num [Args.Denote, Denotes],
    ((C145_operators i32 i64 .safe ⟨0, 1⟩ (.ff ⟨1, 6⟩ ⟨-3, -4⟩)).2.2.1 .plus).of (by decide +kernel)⟩

/-- **C152** Equality as the text computes it is exact; an order comparison is right exactly when the
denominators it multiplies by are positive (`Ops.OrderSafe`) or the values are equal. -/
theorem C152_comparison_iff {op : CmpOp} (ha : a.Denote x y)
    (h : Returns .global none (cmpSymbol op) [] (operands L R o a) (.ok (.bool b) false)) :
    (b = true ↔ match op with
      | .equalTo => x = y
      | .notEqualTo => x ≠ y
      | .less => x < y
      | .lessEqual => x ≤ y
      | .greater => x > y
      | .greaterEqual => x ≥ y) ↔
    o.OrderSafe a ∨ x = y ∨ op = .equalTo ∨ op = .notEqualTo := by
  have h := ((C145_operators L R o ⟨0, 1⟩ a).2.2.2 op).bool h
  obtain ⟨a', h1, h2⟩ := bind_eq_clean.1 h
  rw [Fraction.toCommon_clean h1] at h2
  have := C15_correct_iff ha h2
  cases op <;> simpa [CmpOp.Holds, CmpOp.IsOrder] using this

/-- With 1 over -2 on the left, `< 0` is false and `< 0/1` is true, evaluated from the text. -/
example : (Args.fr ⟨1, -2⟩ 0).Denote (-1/2) 0 ∧ ¬ Ops.defaults.OrderSafe (.fr ⟨1, -2⟩ 0) ∧
    Returns .global none N.«operator<» [] [.frac i32 .defaults ⟨1, -2⟩, .int i32 0]
      (.ok (.bool false) false) ∧
    Returns .global none N.«operator<» [] [.frac i32 .defaults ⟨1, -2⟩, .frac i32 .defaults ⟨0, 1⟩]
      (.ok (.bool true) false) :=
  ⟨by norm_num [Args.Denote, Denotes], by
      simp [Ops.OrderSafe, Ops.defaults, Ops.safeReducedIO, Ops.safeReducedO],
    ((C145_operators i32 i32 .defaults ⟨0, 1⟩ (.fr ⟨1, -2⟩ 0)).2.2.2 .less).of (by decide +kernel),
    ((C145_operators i32 i32 .defaults ⟨0, 1⟩ (.ff ⟨1, -2⟩ ⟨0, 1⟩)).2.2.2 .less).of
      (by decide +kernel)⟩

/-- **C152** Unary minus, `abs` and `reduce`, as the text computes them, are exact, and `reduce`
leaves a positive denominator without common factors. -/
theorem C152_unary_exact (hx : Denotes f x) :
    (Returns .global none N.«operator-» [] [.frac T o f] (.ok (.frac T o r) false) →
      Denotes r (-x)) ∧
    (Returns .global none N.«abs» [] [.frac T o f] (.ok (.frac T o r) false) → Denotes r |x|) ∧
    (Returns .global none N.«reduce» [] [.frac T o f] (.ok (.frac T o r) false) →
      Denotes r x ∧ 0 < r.den ∧ Int.gcd r.num r.den = 1) := by
  refine ⟨fun h => ?_, fun h => ?_, fun h => ?_⟩
  · exact C06_neg_exact hx ((C145_operators T T o f (.ff f f)).2.1.frac h)
  · have h := ((C145_fraction_math T o f 1 .trunc 1 1).1.row (g := N.«abs»)
      (r := Val.frac T o <$> Fraction.abs T o f) (by simp [roundTable])).frac h
    exact (C27_abs_exact hx h).1
  · have h := ((C145_rewrites T o f .normalizeSigns).2.1.row (g := N.«reduce») (by
      simp only [rewriteTable, List.mem_cons]; exact .inr (.inr (.inr (.inr (.inl rfl)))))).frac h
    exact ⟨((C20_reduce_preserves .normalizeSigns).1 h x).2 hx, C21_reduce_canonical hx.1 h⟩

/-- Minus, `abs` and `reduce` of 6 over -4. -/
example : Denotes ⟨6, -4⟩ (-3/2) ∧
    Returns .global none N.«operator-» [] [.frac i32 .fast ⟨6, -4⟩]
      (.ok (.frac i32 .fast ⟨-6, -4⟩) false) ∧
    Returns .global none N.«abs» [] [.frac i32 .fast ⟨6, -4⟩]
      (.ok (.frac i32 .fast ⟨-6, -4⟩) false) ∧
    Returns .global none N.«reduce» [] [.frac i32 .fast ⟨6, -4⟩]
      (.ok (.frac i32 .fast ⟨-3, 2⟩) false) := by
  refine ⟨by norm_num [Denotes], ?_, ?_, ?_⟩
  · exact (C145_operators i32 i32 .fast ⟨6, -4⟩ (.fr ⟨0, 1⟩ 0)).2.1.of (by decide +kernel)
  · exact ((C145_fraction_math i32 .fast ⟨6, -4⟩ 1 .trunc 1 1).1.row (g := N.«abs»)
      (r := Val.frac i32 .fast <$> Fraction.abs i32 .fast ⟨6, -4⟩) (by simp [roundTable])).of
      (by decide +kernel)
  · exact ((C145_rewrites i32 .fast ⟨6, -4⟩ .normalizeSigns).2.1.row (g := N.«reduce»)
      (r := Val.frac i32 .fast <$> Raw.reduce i32 .normalizeSigns ⟨6, -4⟩)
      (by simp [rewriteTable])).of (by decide +kernel)

/-- **C152** `floor`, `ceil`, `trunc` and `round`, as the text computes them: `trunc` is right,
`floor` and `ceil` are wrong exactly between -1 and 0, `round` is wrong between -1 and -1/2 (and,
under `fast` with a negative denominator, nearly always). -/
theorem C152_rounding_iff (hx : Denotes f x) :
    (Returns .global none N.«floor» [] [.frac T o f] (.ok (.int T n) false) →
      (n = ⌊x⌋ ↔ ¬ (-1 < x ∧ x < 0))) ∧
    (Returns .global none N.«ceil» [] [.frac T o f] (.ok (.int T n) false) →
      (n = ⌈x⌉ ↔ ¬ (-1 < x ∧ x < 0))) ∧
    (Returns .global none N.«trunc» [] [.frac T o f] (.ok (.int T n) false) →
      n = if 0 ≤ x then ⌊x⌋ else ⌈x⌉) ∧
    (Returns .global none N.«round» [] [.frac T o f] (.ok (.int T n) false) →
      ((|n - x| ≤ 1 / 2 ∧ ∀ m : ℤ, |m - x| = 1 / 2 → m ≤ n) ↔
        (o.RoundsProperly f ∧ ¬ (-1 < x ∧ x < -1 / 2)) ∨
        (¬ o.RoundsProperly f ∧ (∃ m : ℤ, x = m + 1 / 2) ∧ x ≠ -1 / 2))) := by
  have key := (C145_fraction_math T o f 1 .trunc 1 1).1
  refine ⟨fun h => ?_, fun h => ?_, fun h => ?_, fun h => ?_⟩
  · have h := (key.row (g := N.«floor») (by
      simp only [roundTable, List.mem_cons]; exact .inr (.inr (.inr (.inr (.inl rfl)))))).int h
    rw [← C30_floor_exact_iff hx h, eq_comm, Int.floor_eq_iff]
  · have h := (key.row (g := N.«ceil») (by
      simp only [roundTable, List.mem_cons]; exact .inr (.inr (.inr (.inl rfl))))).int h
    rw [← C31_ceil_exact_iff hx h, eq_comm, Int.ceil_eq_iff]
  · have h := (key.row (g := N.«trunc») (by
      simp only [roundTable, List.mem_cons]; exact .inr (.inr (.inl rfl)))).int h
    exact (C29_trunc_exact hx h).2.2.2
  · have h := (key.row (g := N.«round») (by
      simp only [roundTable, List.mem_cons]
      exact .inr (.inr (.inr (.inr (.inr (.inl rfl))))))).int h
    have := C32_round_exact_iff hx h
    exact this

/-- -1/2: `floor` and `ceil`, evaluated from the text, are 0 and 1. -/
example : Denotes ⟨-1, 2⟩ (-1/2) ∧
    Returns .global none N.«floor» [] [.frac i32 .defaults ⟨-1, 2⟩] (.ok (.int i32 0) false) ∧
    Returns .global none N.«ceil» [] [.frac i32 .defaults ⟨-1, 2⟩] (.ok (.int i32 1) false) ∧
    ⌊(-1/2 : ℚ)⌋ = -1 ∧ ⌈(-1/2 : ℚ)⌉ = 0 := by
  have key := (C145_fraction_math i32 .defaults ⟨-1, 2⟩ 1 .trunc 1 1).1
  refine ⟨by norm_num [Denotes], ?_, ?_, by norm_num, by norm_num⟩
  · exact (key.row (g := N.«floor») (by
      simp only [roundTable, List.mem_cons]; exact .inr (.inr (.inr (.inr (.inl rfl)))))).of
      (by decide +kernel)
  · exact (key.row (g := N.«ceil») (by
      simp only [roundTable, List.mem_cons]; exact .inr (.inr (.inr (.inl rfl))))).of
      (by decide +kernel)

/-! ### Wrong results, evaluated from the text -/

/-- **C152** Comparisons: `1/65536 < 1/65537` of `int` is answered by `fast` and violates the
precondition of `std::lcm` in `safe`; `int` -1/2 is not less than `unsigned` 3/4. -/
theorem C152_comparisons_wrong :
    Returns .global none N.«operator<» [] [.frac i32 .fast ⟨1, 65536⟩, .frac i32 .fast ⟨1, 65537⟩]
      (.ok (.bool false) false) ∧
    Returns .global none N.«operator<» [] [.frac i32 .safe ⟨1, 65536⟩, .frac i32 .safe ⟨1, 65537⟩]
      (.fault .lcmPrecond) ∧
    Returns .global none N.«operator<» [] [.frac i32 .defaults ⟨1, -2⟩, .int i32 0]
      (.ok (.bool false) false) ∧
    Returns .global none N.«operator<» []
      [.frac i32 .defaults ⟨-1, 2⟩, .frac u32 .defaults ⟨3, 4⟩] (.ok (.bool false) true) := by
  refine ⟨?_, ?_, ?_, ?_⟩
  · exact ((C145_operators i32 i32 .fast ⟨0, 1⟩ (.ff ⟨1, 65536⟩ ⟨1, 65537⟩)).2.2.2 .less).of
      (by decide +kernel)
  · exact ((C145_operators i32 i32 .safe ⟨0, 1⟩ (.ff ⟨1, 65536⟩ ⟨1, 65537⟩)).2.2.2 .less).of
      (by decide +kernel)
  · exact ((C145_operators i32 i32 .defaults ⟨0, 1⟩ (.fr ⟨1, -2⟩ 0)).2.2.2 .less).of
      (by decide +kernel)
  · exact ((C145_operators i32 u32 .defaults ⟨0, 1⟩ (.ff ⟨-1, 2⟩ ⟨3, 4⟩)).2.2.2 .less).of
      (by decide +kernel)

/-- **C152** Arithmetic: `1/0 + 1/2` divides by zero under the default policy; `1/2 / (3/0)` is the
defined fraction 0/6 under `safe`; `1/2 / (-1/3)` has a negative denominator under `safe`; the
`unsigned` 1/2 - 3/4 is 4294967295/4. -/
theorem C152_arithmetic_wrong :
    Returns .global none N.«operator+» [] [.frac i32 .defaults ⟨1, 0⟩, .frac i32 .defaults ⟨1, 2⟩]
      (.fault .divByZero) ∧
    Returns .global none N.«operator/» [] [.frac i32 .safe ⟨1, 2⟩, .frac i32 .safe ⟨3, 0⟩]
      (.ok (.frac i32 .safe ⟨0, 6⟩) false) ∧
    Returns .global none N.«operator/» [] [.frac i32 .safe ⟨1, 2⟩, .frac i32 .safe ⟨-1, 3⟩]
      (.ok (.frac i32 .safe ⟨3, -2⟩) false) ∧
    Returns .global none N.«operator-» [] [.frac u32 .defaults ⟨1, 2⟩, .frac u32 .defaults ⟨3, 4⟩]
      (.ok (.frac u32 .defaults ⟨4294967295, 4⟩) true) := by
  refine ⟨?_, ?_, ?_, ?_⟩
  · exact ((C145_operators i32 i32 .defaults ⟨0, 1⟩ (.ff ⟨1, 0⟩ ⟨1, 2⟩)).2.2.1 .plus).of
      (by decide +kernel)
  · exact ((C145_operators i32 i32 .safe ⟨0, 1⟩ (.ff ⟨1, 2⟩ ⟨3, 0⟩)).2.2.1 .divides).of
      (by decide +kernel)
  · exact ((C145_operators i32 i32 .safe ⟨0, 1⟩ (.ff ⟨1, 2⟩ ⟨-1, 3⟩)).2.2.1 .divides).of
      (by decide +kernel)
  · exact ((C145_operators u32 u32 .defaults ⟨0, 1⟩ (.ff ⟨1, 2⟩ ⟨3, 4⟩)).2.2.1 .minus).of
      (by decide +kernel)

/-- **C152** Reducing: `is_reduced` of 3 over -4 is true although `reduce` gives -3 over 4. -/
theorem C152_is_reduced_wrong :
    Returns .global none N.«is_reduced» [] [.frac i32 .defaults ⟨3, -4⟩]
      (.ok (.bool true) false) ∧
    Returns .global none N.«reduce» [] [.frac i32 .defaults ⟨3, -4⟩]
      (.ok (.frac i32 .defaults ⟨-3, 4⟩) false) := by
  refine ⟨?_, ?_⟩
  · exact ((C145_queries i32 .defaults .safe ⟨3, -4⟩ ⟨3, -4⟩).2.1.row (g := N.«is_reduced»)
      (r := Val.bool <$> Raw.isReduced i32 ⟨3, -4⟩) (by simp [queryTable])).of (by decide +kernel)
  · exact ((C145_rewrites i32 .defaults ⟨3, -4⟩ .normalizeSigns).2.1.row (g := N.«reduce»)
      (r := Val.frac i32 .defaults <$> Raw.reduce i32 .normalizeSigns ⟨3, -4⟩)
      (by simp [rewriteTable])).of (by decide +kernel)

/-- **C152** Rounding: `round(-3/4)` is 0; under `fast`, `round` of -4 over -4 is 2;
`floor_redenominate(-1/8, 4)` is 0/4 and `ceil_redenominate(-1/8, 4)` is 1/4; under `fast`, rounding
0 over -4 to the denominator -4 gives 1 over -4. -/
theorem C152_rounding_wrong :
    Returns .global none N.«round» [] [.frac i32 .defaults ⟨-3, 4⟩] (.ok (.int i32 0) false) ∧
    Returns .global none N.«round» [] [.frac i32 .fast ⟨-4, -4⟩] (.ok (.int i32 2) false) ∧
    Returns .global none N.«floor_redenominate» [] [.frac i32 .defaults ⟨-1, 8⟩, .int i32 4]
      (.ok (.frac i32 .defaults ⟨0, 4⟩) false) ∧
    Returns .global none N.«ceil_redenominate» [] [.frac i32 .defaults ⟨-1, 8⟩, .int i32 4]
      (.ok (.frac i32 .defaults ⟨1, 4⟩) false) ∧
    Returns .global none N.«redenominate» []
      [.frac i32 .fast ⟨0, -4⟩, .int i32 (-4), .rmode .round]
      (.ok (.frac i32 .fast ⟨1, -4⟩) false) := by
  refine ⟨?_, ?_, ?_, ?_, ?_⟩
  · exact ((C145_fraction_math i32 .defaults ⟨-3, 4⟩ 1 .trunc 1 1).1.row (g := N.«round»)
      (r := Val.int i32 <$> Fraction.round i32 .defaults ⟨-3, 4⟩) (by simp [roundTable])).of
      (by decide +kernel)
  · exact ((C145_fraction_math i32 .fast ⟨-4, -4⟩ 1 .trunc 1 1).1.row (g := N.«round»)
      (r := Val.int i32 <$> Fraction.round i32 .fast ⟨-4, -4⟩) (by simp [roundTable])).of
      (by decide +kernel)
  · exact ((C145_fraction_math i32 .defaults ⟨-1, 8⟩ 4 .trunc 1 1).2.2.1.row
      (g := N.«floor_redenominate»)
      (r := Val.frac i32 .defaults <$> Fraction.floorRedenominate i32 .defaults ⟨-1, 8⟩ 4)
      (by simp [redenominateTable])).of (by decide +kernel)
  · exact ((C145_fraction_math i32 .defaults ⟨-1, 8⟩ 4 .trunc 1 1).2.2.1.row
      (g := N.«ceil_redenominate»)
      (r := Val.frac i32 .defaults <$> Fraction.ceilRedenominate i32 .defaults ⟨-1, 8⟩ 4)
      (by simp [redenominateTable])).of (by decide +kernel)
  · exact (C145_fraction_math i32 .fast ⟨0, -4⟩ (-4) .round 1 1).2.2.2.1.of (by decide +kernel)

/-- **C152** Powers: `pow2(31)` over `int` is the least `int`; `pow` with the exponent -2147483648
overflows for every base. -/
theorem C152_powers_wrong :
    Returns .global none N.«pow2» [.int i32, .ops .defaults] [.int i32 31]
      (.ok (.frac i32 .defaults ⟨-2147483648, 1⟩) true) ∧
    ∀ (T : IntTy) (o : Ops) (c : ℤ),
      Returns .global none N.«pow» [.int T, .ops o] [.int T c, .int i32 (-2147483648)]
        (.fault .overflow) := by
  refine ⟨?_, fun T o c => ?_⟩
  · exact (C145_fraction_math i32 .defaults ⟨0, 1⟩ 1 .trunc 1 31).2.2.2.2.1.of (by decide +kernel)
  · exact (C145_fraction_math T o ⟨0, 1⟩ 1 .trunc c (-2147483648)).2.2.2.2.2.of
      (by rw [C36_pow_int_min]; rfl)

/-- **C152** Mixed numbers: the constructor from a fraction with denominator zero divides by zero,
whatever the types; `mixed_number<int, unsigned>(-1, 1/2)` holds 4294967295/2. -/
theorem C152_mixed_wrong :
    (∀ (W F S : IntTy) (o p : Ops) (c : ℤ), S.InRange c →
      Returns (TVal.mixed W F o).scope none N.«mixed_number» [] [.frac S p ⟨c, 0⟩]
        (.fault .divByZero)) ∧
    Returns (TVal.mixed i32 u32 .defaults).scope none N.«mixed_number» []
      [.int i32 (-1), .frac u32 .defaults ⟨1, 2⟩]
      (.ok (.mixed i32 u32 .defaults ⟨0, ⟨4294967295, 2⟩⟩) true) := by
  refine ⟨fun W F S o p c hc => ?_, ?_⟩
  · refine (C145_mixed_class W F S o p ⟨0, ⟨0, 1⟩⟩ 0 ⟨0, 1⟩ ⟨c, 0⟩
      ⟨hc, IntTy.inRange_zero⟩).2.2.2.2.2.2.1.of ?_
    rw [C47_undefined_faults.1 W F S o ⟨c, 0⟩ rfl]
    rfl
  · exact (C145_mixed_class i32 u32 i32 .defaults .defaults ⟨0, ⟨0, 1⟩⟩ (-1) ⟨1, 2⟩ ⟨0, 1⟩
      (by decide)).2.2.2.2.1.of (by decide +kernel)

end Ieme
