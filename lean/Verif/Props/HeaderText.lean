import Verif.Lemmas.HeaderMixed
import Verif.Lemmas.HeaderParse
import Verif.Spec.HeaderText

/-!
# C145: the models of the headers compute what the text of the headers says

The text of eleven headers is in `Verif/Model/HeaderText.lean`.  A parser turns it into programs and
an interpreter evaluates the programs.  The theorems say that the text of every function evaluates
to what the function's model computes, for all arguments: same value, same wrap-around, same
undefined behaviour.
-/

namespace Ieme

open Header Res

set_option maxRecDepth 100000

/-- The text of the headers parses, each header to the program of its name; the library is all of
them. -/
theorem C145_text :
    parse Text.numbers = some Prog.numbers ∧ parse Text.reduceMode = some Prog.reduceMode ∧
    parse Text.mathUtilities = some Prog.mathUtilities ∧
    parse Text.rawFraction = some Prog.rawFraction ∧
    parse Text.rawFractionQueries = some Prog.rawFractionQueries ∧
    parse Text.rawFractionMath = some Prog.rawFractionMath ∧ parse Text.ops = some Prog.ops ∧
    parse Text.fraction = some Prog.fraction ∧
    parse Text.fractionQueries = some Prog.fractionQueries ∧
    parse Text.fractionMath = some Prog.fractionMath ∧
    parse Text.mixedNumber = some Prog.mixedNumber ∧
    library.funcs = Prog.numbers.funcs ++ Prog.reduceMode.funcs ++ Prog.mathUtilities.funcs ++
      Prog.rawFraction.funcs ++ Prog.rawFractionQueries.funcs ++ Prog.rawFractionMath.funcs ++
      Prog.ops.funcs ++ Prog.fraction.funcs ++ Prog.fractionQueries.funcs ++
      Prog.fractionMath.funcs ++ Prog.mixedNumber.funcs :=
  ⟨parse_numbers, parse_reduceMode, parse_mathUtilities, parse_rawFraction,
    parse_rawFractionQueries, parse_rawFractionMath, parse_ops, parse_fraction,
    parse_fractionQueries, parse_fractionMath, parse_mixedNumber, by decide +kernel⟩

/-- The library has 252 functions.  Four definitions are not read: `operator<<` and `operator>>` for
raw fractions, `operator>>` for fractions, and the constructor from `std::ratio`. -/
example : library.funcs.length = 252 ∧ library.skipped = 4 := by decide +kernel

/-- The definition of `reciprocal` for raw fractions, as parsed. -/
example : parse ["template <typename Rep>",
    "constexpr raw_fraction<Rep> reciprocal(raw_fraction<Rep> const& value) noexcept",
    "{", "  return {value.denominator, value.numerator};", "}"] =
    some ⟨[F.reciprocal_1], [], [], 0⟩ := by decide +kernel

/-- What the interpreter takes for granted about classes and enumerations is what the headers
declare: the classes, the data members, the enumerators, and `raw_fraction::rep_type`.  Where there are a `const`
and a non-`const` overload with the same parameters, their bodies are the same. -/
theorem C145_declarations :
    (∀ T r v, library.cls? N.«raw_fraction» = some v →
      v.fields.map (·.name) = (Val.raw T r).fields.map (·.1) ∧
      v.aliases = [(N.«rep_type», .name N.«Rep»)] ∧ v.tparams = [N.«Rep»] ∧
      memberTy (.raw T) N.«rep_type» = some (.int T)) ∧
    (∀ T o r v, library.cls? N.«fraction» = some v →
      v.fields.map (·.name) = (Val.frac T o r).fields.map (·.1)) ∧
    (∀ W F o m v, library.cls? N.«mixed_number» = some v →
      v.fields.map (·.name) = (Val.mixed W F o m).fields.map (·.1)) ∧
    (∀ c ∈ [N.«raw_fraction», N.«fraction», N.«mixed_number», N.«safe», N.«fast»,
        N.«reduced_input», N.«reduced_output»], (library.cls? c).isSome) ∧
    library.enums =
      [(N.«reduce_mode», [N.«normalize_signs», N.«ignore_signs»]),
       (N.«round_mode», [N.«trunc», N.«ceil», N.«floor», N.«round»])] ∧
    (∀ e ∈ library.enums, ∀ x ∈ e.2, (enumerator e.1 x).isSome) ∧
    (∀ f ∈ library.funcs, ∀ g ∈ library.funcs, f.scope = g.scope → f.name = g.name →
      f.params = g.params → f.isConst ≠ g.isConst → f.ret = g.ret ∧ f.body = g.body) := by
  refine ⟨fun T r v h => ?_, fun T o r v h => ?_, fun W F o m v h => ?_, by decide +kernel,
    by decide +kernel, by decide +kernel, by decide +kernel⟩
  · have : library.cls? N.«raw_fraction» = some Cls.raw_fraction := by decide +kernel
    rw [this] at h
    cases h
    exact ⟨rfl, rfl, rfl, rfl⟩
  · have : library.cls? N.«fraction» = some Cls.fraction := by decide +kernel
    rw [this] at h
    cases h
    rfl
  · have : library.cls? N.«mixed_number» = some Cls.mixed_number := by decide +kernel
    rw [this] at h
    cases h
    rfl

/-- `fraction::num` has two overloads. -/
example : F.fraction_num_1 ∈ library.funcs ∧ F.fraction_num_2 ∈ library.funcs ∧
    F.fraction_num_1.isConst ≠ F.fraction_num_2.isConst := by decide +kernel

/-- `numbers.hpp` and `math_utilities.hpp`. -/
theorem C145_utilities (T : IntTy) (a : Int) :
    Returns .global none N.«_0» [.int T] [] (pure (.int T 0)) ∧
    Returns .global none N.«_1» [.int T] [] (pure (.int T 1)) ∧
    Returns .global none N.«_2» [.int T] [] (pure (.int T 2)) ∧
    Returns ⟨N.«math_utilities», []⟩ none N.«abs» [] [.int T a] (Val.int T <$> mathAbs T a) ∧
    Returns ⟨N.«math_utilities», []⟩ none N.«pow2» [] [.int T a] (Val.int T <$> mathPow2 T a) ∧
    ∀ e, T.InRange e →
      Returns ⟨N.«math_utilities», []⟩ none N.«pow» [] [.int T a, .int T e]
        (Val.int T <$> mathPow T a e) :=
  ⟨⟨_, fun _ h => zero_ok h T⟩, ⟨_, fun _ h => one_ok h T⟩, ⟨_, fun _ h => two_ok h T⟩,
    ⟨_, fun _ h => abs_ok h T a⟩, ⟨_, fun _ h => pow2_ok h T a⟩,
    fun e he => ⟨_, fun n h => pow_ok T a _ e le_rfl he n h⟩⟩

/-- `pow(-3, 5)` -/
example : value (invoke library 20 ⟨N.«math_utilities», []⟩ none N.«pow» []
    [.int i32 (-3), .int i32 5]) = pure (.int i32 (-243)) := by decide +kernel

/-- The constructors of `raw_fraction`. -/
theorem C145_raw_construct (T S : IntTy) (a b : Int) (r : Raw) :
    Returns (TVal.raw T).scope none N.«raw_fraction» [] [.int T a, .int T b]
      (pure (.raw T ⟨a, b⟩)) ∧
    Returns (TVal.raw T).scope none N.«raw_fraction» [] [.raw S r]
      (Val.raw T <$> Raw.conv T r) :=
  ⟨⟨_, fun _ h => rawTwo_ok h T a b⟩, ⟨_, fun _ h => rawConv_ok h T S r⟩⟩

/-- Converting 2³²+5 / 3 to 32 bits wraps. -/
example : value (invoke library 20 (TVal.raw i32).scope none N.«raw_fraction» []
    [.raw i64 ⟨4294967301, 3⟩]) = .ok (.raw i32 ⟨5, 3⟩) true := by decide +kernel

/-- The queries, for raw fractions and for fractions. -/
theorem C145_queries (T : IntTy) (o p : Ops) (f g : Raw) :
    Computes [.raw T f] (queryTable T f) ∧
    Computes [.frac T o f] (queryTable T f) ∧
    Returns .global none N.«are_identical» [] [.raw T f, .raw T g]
      (pure (.bool (f.areIdentical g))) ∧
    Returns .global none N.«are_different» [] [.raw T f, .raw T g]
      (pure (.bool (f.areDifferent g))) ∧
    Returns .global none N.«are_identical» [] [.frac T o f, .frac T p g]
      (pure (.bool (f.areIdentical g))) ∧
    Returns .global none N.«are_different» [] [.frac T o f, .frac T p g]
      (pure (.bool (f.areDifferent g))) := by
  refine ⟨?_, ?_, ⟨_, fun _ h => areIdentical_ok h T f g⟩, ⟨_, fun _ h => areDifferent_ok h T f g⟩,
    ⟨_, fun _ h => fraction_areIdentical_ok T o p f g h⟩,
    ⟨_, fun _ h => fraction_areDifferent_ok T o p f g h⟩⟩
  · simp only [Computes, queryTable, List.forall_mem_cons, List.not_mem_nil, IsEmpty.forall_iff,
      implies_true, and_true]
    exact ⟨⟨_, fun _ h => isDefined_ok h T f⟩,
      ⟨_, fun _ h => isUndefined_ok h T f⟩,
      ⟨_, fun _ h => isPositive_ok h T f⟩,
      ⟨_, fun _ h => isNonNegative_ok h T f⟩,
      ⟨_, fun _ h => isZero_ok h T f⟩,
      ⟨_, fun _ h => isNonPositive_ok h T f⟩,
      ⟨_, fun _ h => isNegative_ok h T f⟩,
      ⟨_, fun _ h => isInteger_ok h T f⟩,
      ⟨_, fun _ h => isUnitFraction_ok h T f⟩,
      ⟨_, fun _ h => isReducedIgnoreSigns_ok h T f⟩,
      ⟨_, fun _ h => isReduced_ok h T f⟩,
      ⟨_, fun _ h => isProper_ok h T f⟩,
      ⟨_, fun _ h => isImproper_ok h T f⟩⟩
  · simp only [Computes, queryTable, List.forall_mem_cons, List.not_mem_nil, IsEmpty.forall_iff,
      implies_true, and_true]
    exact ⟨⟨_, fun _ h => fraction_isDefined_ok T o f h⟩,
      ⟨_, fun _ h => fraction_isUndefined_ok T o f h⟩,
      ⟨_, fun _ h => fraction_isPositive_ok T o f h⟩,
      ⟨_, fun _ h => fraction_isNonNegative_ok T o f h⟩,
      ⟨_, fun _ h => fraction_isZero_ok T o f h⟩,
      ⟨_, fun _ h => fraction_isNonPositive_ok T o f h⟩,
      ⟨_, fun _ h => fraction_isNegative_ok T o f h⟩,
      ⟨_, fun _ h => fraction_isInteger_ok T o f h⟩,
      ⟨_, fun _ h => fraction_isUnitFraction_ok T o f h⟩,
      ⟨_, fun _ h => fraction_isReducedIgnoreSigns_ok T o f h⟩,
      ⟨_, fun _ h => fraction_isReduced_ok T o f h⟩,
      ⟨_, fun _ h => fraction_isProper_ok T o f h⟩,
      ⟨_, fun _ h => fraction_isImproper_ok T o f h⟩⟩

/-- `is_reduced` of 6/4 and of -3/2, evaluated from the text. -/
example : value (invoke library 20 .global none N.«is_reduced» [] [.raw i32 ⟨6, 4⟩]) =
      pure (.bool false) ∧
    value (invoke library 20 .global none N.«is_reduced» [] [.frac i32 .safe ⟨-3, 2⟩]) =
      pure (.bool true) := by decide +kernel

/-- `raw_fraction_math.hpp`, and the functions of `fraction_math.hpp` of the same names. -/
theorem C145_rewrites (T : IntTy) (o : Ops) (f : Raw) (m : ReduceMode) :
    Computes [.raw T f] (rewriteTable (.raw T) T f) ∧
    Computes [.frac T o f] (rewriteTable (.frac T o) T f) ∧
    Returns .global none N.«reduce» [] [.raw T f, .mode m] (Val.raw T <$> f.reduce T m) ∧
    Returns .global none N.«reduce» [] [.frac T o f, .mode m] (Val.frac T o <$> f.reduce T m) := by
  refine ⟨?_, ?_, ⟨_, fun _ h => reduce_ok h T f m⟩, ⟨_, fun _ h => fraction_reduce_ok T o f m h⟩⟩
  · simp only [Computes, rewriteTable, List.forall_mem_cons, List.not_mem_nil, IsEmpty.forall_iff,
      implies_true, and_true]
    exact ⟨⟨_, fun _ h => reciprocal_ok h T f⟩, ⟨_, fun _ h => normalizeSigns_ok h T f⟩,
      ⟨_, fun _ h => reduceIgnoreSigns_ok h T f⟩, ⟨_, fun _ h => reduceNormalizeSigns_ok h T f⟩,
      ⟨_, fun _ h => reduceDefault_ok h T f⟩⟩
  · simp only [Computes, rewriteTable, List.forall_mem_cons, List.not_mem_nil, IsEmpty.forall_iff,
      implies_true, and_true]
    exact ⟨⟨_, fun _ h => fraction_reciprocal_ok T o f h⟩,
      ⟨_, fun _ h => fraction_normalizeSigns_ok T o f h⟩,
      ⟨_, fun _ h => fraction_reduceIgnoreSigns_ok T o f h⟩,
      ⟨_, fun _ h => fraction_reduceNormalizeSigns_ok T o f h⟩,
      ⟨_, fun _ h => fraction_reduceDefault_ok T o f h⟩⟩

/-- `reduce` of 6 over -4, and of -2³¹ over -1, which `std::gcd` does not accept. -/
example : value (invoke library 20 .global none N.«reduce» [] [.raw i32 ⟨6, -4⟩]) =
      pure (.raw i32 ⟨-3, 2⟩) ∧
    value (invoke library 20 .global none N.«reduce» [] [.raw i32 ⟨-2147483648, -1⟩]) =
      .fault .gcdPrecond := by decide +kernel

/-- Every member function of every policy. -/
theorem C145_policies (T : IntTy) (o : Ops) (f : Raw) (a : Ieme.Args) :
    Returns (opsScope o) none N.«negate» [] [.raw T f] (Val.raw T <$> o.negate T f) ∧
    (∀ op, Returns (opsScope o) none (arithName op) [] (rawArgs T a)
      (Val.raw T <$> o.arith T op a)) ∧
    (∀ op, Returns (opsScope o) none (cmpName op) [] (rawArgs T a)
      (Val.bool <$> o.cmp T op a)) := by
  refine ⟨⟨_, fun _ h => ops_negate_ok T o h f⟩, fun op => ?_, fun op => ?_⟩
  · cases op <;> cases a
    · exact ⟨_, fun _ h => ops_plusFF_ok T o h _ _⟩
    · exact ⟨_, fun _ h => ops_plusFR_ok T o h _ _⟩
    · exact ⟨_, fun _ h => ops_plusRF_ok T o h _ _⟩
    · exact ⟨_, fun _ h => ops_minusFF_ok T o h _ _⟩
    · exact ⟨_, fun _ h => ops_minusFR_ok T o h _ _⟩
    · exact ⟨_, fun _ h => ops_minusRF_ok T o h _ _⟩
    · exact ⟨_, fun _ h => ops_multipliesFF_ok T o h _ _⟩
    · exact ⟨_, fun _ h => ops_multipliesFR_ok T o h _ _⟩
    · exact ⟨_, fun _ h => ops_multipliesRF_ok T o h _ _⟩
    · exact ⟨_, fun _ h => ops_dividesFF_ok T o h _ _⟩
    · exact ⟨_, fun _ h => ops_dividesFR_ok T o h _ _⟩
    · exact ⟨_, fun _ h => ops_dividesRF_ok T o h _ _⟩
    · exact ⟨_, fun _ h => ops_modulusFF_ok T o h _ _⟩
    · exact ⟨_, fun _ h => ops_modulusFR_ok T o h _ _⟩
    · exact ⟨_, fun _ h => ops_modulusRF_ok T o h _ _⟩
  · cases op <;> cases a
    · exact ⟨_, fun _ h => ops_equalToFF_ok T o h _ _⟩
    · exact ⟨_, fun _ h => ops_equalToFR_ok T o h _ _⟩
    · exact ⟨_, fun _ h => ops_equalToRF_ok T o h _ _⟩
    · exact ⟨_, fun _ h => ops_notEqualToFF_ok T o h _ _⟩
    · exact ⟨_, fun _ h => ops_notEqualToFR_ok T o h _ _⟩
    · exact ⟨_, fun _ h => ops_notEqualToRF_ok T o h _ _⟩
    · exact ⟨_, fun _ h => ops_lessFF_ok T o h _ _⟩
    · exact ⟨_, fun _ h => ops_lessFR_ok T o h _ _⟩
    · exact ⟨_, fun _ h => ops_lessRF_ok T o h _ _⟩
    · exact ⟨_, fun _ h => ops_lessEqualFF_ok T o h _ _⟩
    · exact ⟨_, fun _ h => ops_lessEqualFR_ok T o h _ _⟩
    · exact ⟨_, fun _ h => ops_lessEqualRF_ok T o h _ _⟩
    · exact ⟨_, fun _ h => ops_greaterFF_ok T o h _ _⟩
    · exact ⟨_, fun _ h => ops_greaterFR_ok T o h _ _⟩
    · exact ⟨_, fun _ h => ops_greaterRF_ok T o h _ _⟩
    · exact ⟨_, fun _ h => ops_greaterEqualFF_ok T o h _ _⟩
    · exact ⟨_, fun _ h => ops_greaterEqualFR_ok T o h _ _⟩
    · exact ⟨_, fun _ h => ops_greaterEqualRF_ok T o h _ _⟩

/-- Adding 1/6 and 1/10 under `reduced_input<reduced_output<fast>>`. -/
example : value (invoke library 20 (opsScope .fastReducedIO) none N.«plus» []
    [.raw i32 ⟨1, 6⟩, .raw i32 ⟨1, 10⟩]) = pure (.raw i32 ⟨4, 15⟩) := by decide +kernel

/-- The constructors and accessors of `fraction`. -/
theorem C145_fraction_class (T A B S : IntTy) (o p : Ops) (f g : Raw) (x y : Int)
    (hx : A.InRange x) (hy : B.InRange y) (hg : g.InRange S) :
    Returns (TVal.frac T o).scope none N.«fraction» [] [] (pure (.frac T o Fraction.default)) ∧
    Returns (TVal.frac T o).scope none N.«fraction» [] [.raw T f]
      (pure (.frac T o (Fraction.ofRaw f))) ∧
    Returns (TVal.frac T o).scope none N.«fraction» [] [.int A x, .int B y]
      (Val.frac T o <$> do return Fraction.mk (← T.conv x) (← T.conv y)) ∧
    Returns (TVal.frac T o).scope none N.«fraction» [] [.int A x]
      (Val.frac T o <$> do return Fraction.mk (← T.conv x)) ∧
    Returns (TVal.frac T o).scope none N.«fraction» [] [.frac S p g]
      (Val.frac T o <$> Fraction.ofOther T g) ∧
    Returns (TVal.frac T o).scope (some (.frac T o f)) N.«numerator» [] [] (pure (.int T f.num)) ∧
    Returns (TVal.frac T o).scope (some (.frac T o f)) N.«denominator» [] []
      (pure (.int T f.den)) ∧
    Returns (TVal.frac T o).scope (some (.frac T o f)) N.«num» [] [] (pure (.int T f.num)) ∧
    Returns (TVal.frac T o).scope (some (.frac T o f)) N.«den» [] [] (pure (.int T f.den)) ∧
    Returns (TVal.frac T o).scope (some (.frac T o f)) N.«raw» [] [] (pure (.raw T f)) := by
  refine ⟨⟨_, fun _ h => fraction_default_ok T o h⟩, ⟨_, fun _ h => fraction_ofRaw_ok h T o f⟩,
    ⟨2, fun n h => ?_⟩, ⟨2, fun n h => ?_⟩, ⟨4, fun n h => ?_⟩,
    ⟨_, fun _ h => fraction_numerator_ok h T o f⟩, ⟨_, fun _ h => fraction_denominator_ok h T o f⟩,
    ⟨_, fun _ h => fraction_num_ok h T o f⟩, ⟨_, fun _ h => fraction_den_ok h T o f⟩,
    ⟨_, fun _ h => fraction_raw_ok h T o f⟩⟩
  · rw [TVal.scope, fraction_mk_ok h T A B o x y, toTy_eq T hx, toTy_eq T hy]
  · rw [TVal.scope, fraction_mk_one_ok h T A o x, toTy_eq T hx]
  · rw [TVal.scope, fraction_ofOther_ok h T S o p g]
    congr 1
    exact copyTo_eq T hg

/-- A fraction of `long` from two `int`s, and one of `int` from a fraction of `long`. -/
example : value (invoke library 20 (TVal.frac i64 .safe).scope none N.«fraction» []
      [.int i32 7, .int i32 (-2)]) = pure (.frac i64 .safe ⟨7, -2⟩) ∧
    value (invoke library 20 (TVal.frac i32 .safe).scope none N.«fraction» []
      [.frac i64 .fast ⟨4294967301, 3⟩]) = .ok (.frac i32 .safe ⟨5, 3⟩) true := by decide +kernel

/-- The operators on fractions. -/
theorem C145_operators (L R : IntTy) (o : Ops) (f : Raw) (a : Ieme.Args) :
    Returns .global none N.«operator+» [] [.frac L o f] (pure (.frac L o (Fraction.pos f))) ∧
    Returns .global none N.«operator-» [] [.frac L o f]
      (Val.frac L o <$> Fraction.neg L o f) ∧
    (∀ op, Returns .global none (arithSymbol op) [] (operands L R o a)
      (Val.frac (L.common R) o <$> Fraction.arith L R o op a)) ∧
    (∀ op, Returns .global none (cmpSymbol op) [] (operands L R o a)
      (Val.bool <$> Fraction.cmp L R o op a)) := by
  refine ⟨⟨_, fun _ h => fraction_pos_ok L o f h⟩, ⟨_, fun _ h => fraction_neg_ok L o f h⟩,
    fun op => ?_, fun op => ?_⟩
  · cases op <;> cases a
    · exact ⟨_, fun _ h => fraction_plusFF_ok L R o _ _ h⟩
    · exact ⟨_, fun _ h => fraction_plusFR_ok L R o _ _ h⟩
    · exact ⟨_, fun _ h => fraction_plusRF_ok L R o _ _ h⟩
    · exact ⟨_, fun _ h => fraction_minusFF_ok L R o _ _ h⟩
    · exact ⟨_, fun _ h => fraction_minusFR_ok L R o _ _ h⟩
    · exact ⟨_, fun _ h => fraction_minusRF_ok L R o _ _ h⟩
    · exact ⟨_, fun _ h => fraction_multipliesFF_ok L R o _ _ h⟩
    · exact ⟨_, fun _ h => fraction_multipliesFR_ok L R o _ _ h⟩
    · exact ⟨_, fun _ h => fraction_multipliesRF_ok L R o _ _ h⟩
    · exact ⟨_, fun _ h => fraction_dividesFF_ok L R o _ _ h⟩
    · exact ⟨_, fun _ h => fraction_dividesFR_ok L R o _ _ h⟩
    · exact ⟨_, fun _ h => fraction_dividesRF_ok L R o _ _ h⟩
    · exact ⟨_, fun _ h => fraction_modulusFF_ok L R o _ _ h⟩
    · exact ⟨_, fun _ h => fraction_modulusFR_ok L R o _ _ h⟩
    · exact ⟨_, fun _ h => fraction_modulusRF_ok L R o _ _ h⟩
  · cases op <;> cases a
    · exact ⟨_, fun _ h => fraction_equalToFF_ok L R o _ _ h⟩
    · exact ⟨_, fun _ h => fraction_equalToFR_ok L R o _ _ h⟩
    · exact ⟨_, fun _ h => fraction_equalToRF_ok L R o _ _ h⟩
    · exact ⟨_, fun _ h => fraction_notEqualToFF_ok L R o _ _ h⟩
    · exact ⟨_, fun _ h => fraction_notEqualToFR_ok L R o _ _ h⟩
    · exact ⟨_, fun _ h => fraction_notEqualToRF_ok L R o _ _ h⟩
    · exact ⟨_, fun _ h => fraction_lessFF_ok L R o _ _ h⟩
    · exact ⟨_, fun _ h => fraction_lessFR_ok L R o _ _ h⟩
    · exact ⟨_, fun _ h => fraction_lessRF_ok L R o _ _ h⟩
    · exact ⟨_, fun _ h => fraction_lessEqualFF_ok L R o _ _ h⟩
    · exact ⟨_, fun _ h => fraction_lessEqualFR_ok L R o _ _ h⟩
    · exact ⟨_, fun _ h => fraction_lessEqualRF_ok L R o _ _ h⟩
    · exact ⟨_, fun _ h => fraction_greaterFF_ok L R o _ _ h⟩
    · exact ⟨_, fun _ h => fraction_greaterFR_ok L R o _ _ h⟩
    · exact ⟨_, fun _ h => fraction_greaterRF_ok L R o _ _ h⟩
    · exact ⟨_, fun _ h => fraction_greaterEqualFF_ok L R o _ _ h⟩
    · exact ⟨_, fun _ h => fraction_greaterEqualFR_ok L R o _ _ h⟩
    · exact ⟨_, fun _ h => fraction_greaterEqualRF_ok L R o _ _ h⟩

/-- 1/2 + 1/3 under the default policy; `int` -1 is not less than the `unsigned` fraction 3/2. -/
example : value (invoke library 20 .global none N.«operator+» []
      [.frac i32 .defaults ⟨1, 2⟩, .frac i32 .defaults ⟨1, 3⟩]) =
      pure (.frac i32 .defaults ⟨5, 6⟩) ∧
    value (invoke library 20 .global none N.«operator<» []
      [.int i32 (-1), .frac u32 .safe ⟨3, 2⟩]) = .ok (.bool false) true := by decide +kernel

/-- Compound assignment: the value, and what the left operand becomes. -/
theorem C145_assignments (L R : IntTy) (o : Ops) (l r : Raw) (k : Int) (op : ArithOp) :
    Returns .global none (assignSymbol op) [] [.frac L o l, .frac R o r]
      (Val.frac L o <$> Fraction.assignF L R o op l r) ∧
    Leaves .global none (assignSymbol op) [] [.frac L o l, .frac R o r]
      (Val.frac L o <$> Fraction.assignF L R o op l r) ∧
    Returns .global none (assignSymbol op) [] [.frac L o l, .int R k]
      (Val.frac L o <$> Fraction.assignR L R o op l k) ∧
    Leaves .global none (assignSymbol op) [] [.frac L o l, .int R k]
      (Val.frac L o <$> Fraction.assignR L R o op l k) := by
  cases op
  · exact ⟨⟨_, fun _ h => fraction_plus_assignF_value L R o l r h⟩,
      ⟨_, fun _ h => fraction_plus_assignF_changed L R o l r h⟩,
      ⟨_, fun _ h => fraction_plus_assignR_value L R o l k h⟩,
      ⟨_, fun _ h => fraction_plus_assignR_changed L R o l k h⟩⟩
  · exact ⟨⟨_, fun _ h => fraction_minus_assignF_value L R o l r h⟩,
      ⟨_, fun _ h => fraction_minus_assignF_changed L R o l r h⟩,
      ⟨_, fun _ h => fraction_minus_assignR_value L R o l k h⟩,
      ⟨_, fun _ h => fraction_minus_assignR_changed L R o l k h⟩⟩
  · exact ⟨⟨_, fun _ h => fraction_multiplies_assignF_value L R o l r h⟩,
      ⟨_, fun _ h => fraction_multiplies_assignF_changed L R o l r h⟩,
      ⟨_, fun _ h => fraction_multiplies_assignR_value L R o l k h⟩,
      ⟨_, fun _ h => fraction_multiplies_assignR_changed L R o l k h⟩⟩
  · exact ⟨⟨_, fun _ h => fraction_divides_assignF_value L R o l r h⟩,
      ⟨_, fun _ h => fraction_divides_assignF_changed L R o l r h⟩,
      ⟨_, fun _ h => fraction_divides_assignR_value L R o l k h⟩,
      ⟨_, fun _ h => fraction_divides_assignR_changed L R o l k h⟩⟩
  · exact ⟨⟨_, fun _ h => fraction_modulus_assignF_value L R o l r h⟩,
      ⟨_, fun _ h => fraction_modulus_assignF_changed L R o l r h⟩,
      ⟨_, fun _ h => fraction_modulus_assignR_value L R o l k h⟩,
      ⟨_, fun _ h => fraction_modulus_assignR_changed L R o l k h⟩⟩

/-- `f += 1/3` where `f` is 1/2. -/
example : changed (invoke library 20 .global none N.«operator+=» []
    [.frac i32 .defaults ⟨1, 2⟩, .frac i32 .defaults ⟨1, 3⟩]) =
    pure (.frac i32 .defaults ⟨5, 6⟩) := by decide +kernel

/-- The rest of `fraction_math.hpp`. -/
theorem C145_fraction_math (T : IntTy) (o : Ops) (f : Raw) (d : Int) (mode : RoundMode)
    (b e : Int) :
    Computes [.frac T o f] (roundTable T o f) ∧
    Returns .global none N.«to_whole» [] [.frac T o f, .rmode mode]
      (Val.int T <$> Fraction.toWhole T o f mode) ∧
    Computes [.frac T o f, .int T d] (redenominateTable T o f d) ∧
    Returns .global none N.«redenominate» [] [.frac T o f, .int T d, .rmode mode]
      (Val.frac T o <$> Fraction.redenominate T o f d mode) ∧
    Returns .global none N.«pow2» [.int T, .ops o] [.int i32 e]
      (Val.frac T o <$> Fraction.pow2 T e) ∧
    Returns .global none N.«pow» [.int T, .ops o] [.int T b, .int i32 e]
      (Val.frac T o <$> Fraction.pow T b e) := by
  refine ⟨?_, ⟨_, fun _ h => fraction_toWhole_ok T o f mode h⟩, ?_,
    ⟨_, fun _ h => fraction_redenominate_ok T o f d mode h⟩,
    ⟨_, fun _ h => fraction_pow2_ok h T o e⟩, fraction_pow_ok T o b e⟩
  · simp only [Computes, roundTable, List.forall_mem_cons, List.not_mem_nil, IsEmpty.forall_iff,
      implies_true, and_true]
    exact ⟨⟨_, fun _ h => fraction_abs_ok T o f h⟩,
      ⟨_, fun _ h => fraction_toWhole_default_ok T o f h⟩, ⟨_, fun _ h => fraction_trunc_ok T o f h⟩,
      ⟨_, fun _ h => fraction_ceil_ok T o f h⟩, ⟨_, fun _ h => fraction_floor_ok T o f h⟩,
      ⟨_, fun _ h => fraction_round_ok T o f h⟩⟩
  · simp only [Computes, redenominateTable, List.forall_mem_cons, List.not_mem_nil,
      IsEmpty.forall_iff, implies_true, and_true]
    exact ⟨⟨_, fun _ h => fraction_redenominate_default_ok T o f d h⟩,
      ⟨_, fun _ h => fraction_truncRedenominate_ok T o f d h⟩,
      ⟨_, fun _ h => fraction_ceilRedenominate_ok T o f d h⟩,
      ⟨_, fun _ h => fraction_floorRedenominate_ok T o f d h⟩,
      ⟨_, fun _ h => fraction_roundRedenominate_ok T o f d h⟩⟩

/-- `round(-7/2)`, `trunc(7/0)`, `redenominate(2/3, 8)` and `pow(3, -4)`. -/
example : value (invoke library 20 .global none N.«round» [] [.frac i32 .safe ⟨-7, 2⟩]) =
      pure (.int i32 (-3)) ∧
    value (invoke library 20 .global none N.«trunc» [] [.frac i32 .safe ⟨7, 0⟩]) =
      .fault .divByZero ∧
    value (invoke library 20 .global none N.«redenominate» []
      [.frac i32 .safe ⟨2, 3⟩, .int i32 8]) = pure (.frac i32 .safe ⟨5, 8⟩) ∧
    value (invoke library 20 .global none N.«pow» [.int i32, .ops .safe]
      [.int i32 3, .int i32 (-4)]) = pure (.frac i32 .safe ⟨1, 81⟩) := by decide +kernel

/-- `mixed_number.hpp`: accessors, `fix`, constructors and unary operators. -/
theorem C145_mixed_class (W F S : IntTy) (o p : Ops) (m : Mixed) (w : Int) (f v : Raw)
    (hv : v.InRange S) :
    Returns (TVal.mixed W F o).scope (some (.mixed W F o m)) N.«whole» [] []
      (pure (.int W m.whole)) ∧
    Returns (TVal.mixed W F o).scope (some (.mixed W F o m)) N.«fractional» [] []
      (pure (.frac F o m.frac)) ∧
    Leaves (TVal.mixed W F o).scope (some (.mixed W F o m)) N.«fix» [] []
      (Val.mixed W F o <$> m.fix W F o) ∧
    Returns (TVal.mixed W F o).scope none N.«mixed_number» [] []
      (pure (.mixed W F o Mixed.default)) ∧
    Returns (TVal.mixed W F o).scope none N.«mixed_number» [] [.int W w, .frac F o f]
      (Val.mixed W F o <$> Mixed.mk' W F o w f) ∧
    Returns (TVal.mixed W F o).scope none N.«mixed_number» [] [.int W w]
      (Val.mixed W F o <$> Mixed.mk' W F o w) ∧
    Returns (TVal.mixed W F o).scope none N.«mixed_number» [] [.frac S p v]
      (Val.mixed W F o <$> Mixed.ofFraction W F o S v) ∧
    Returns .global none N.«operator+» [] [.mixed W F o m] (pure (.mixed W F o m.pos)) ∧
    Returns .global none N.«operator-» [] [.mixed W F o m]
      (Val.mixed W F o <$> m.neg W F o) := by
  refine ⟨⟨_, fun _ h => mixed_whole_ok W F o m h⟩, ⟨_, fun _ h => mixed_fractional_ok W F o m h⟩,
    ⟨_, fun _ h => mixed_fix_ok W F o m h⟩, ⟨_, fun _ h => mixed_default_ok W F o h⟩,
    ⟨_, fun _ h => mixed_mk_ok W F o w f h⟩, ⟨_, fun _ h => mixed_mk_one_ok W F o w h⟩, ?_,
    ⟨_, fun _ h => mixed_pos_ok W F o m h⟩, ⟨_, fun _ h => mixed_neg_ok W F o m h⟩⟩
  rw [← ofFractionT_eq W F o hv]
  by_cases hp : p = o
  · subst hp
    exact ⟨_, fun _ h => mixed_ofFractionT_ok W F p S v h⟩
  · exact ⟨_, fun _ h => mixed_ofOtherT_ok W F o p S v hp h⟩

/-- `mixed_number(7/3)`, and `fix` on 1 -1/3. -/
example : value (invoke library 40 (TVal.mixed i32 i32 .safe).scope none N.«mixed_number» []
      [.frac i32 .safe ⟨7, 3⟩]) = pure (.mixed i32 i32 .safe ⟨2, ⟨1, 3⟩⟩) ∧
    changed (invoke library 40 (TVal.mixed i32 i32 .safe).scope
      (some (.mixed i32 i32 .safe ⟨1, ⟨-1, 3⟩⟩)) N.«fix» [] []) =
      pure (.mixed i32 i32 .safe ⟨0, ⟨2, 3⟩⟩) := by decide +kernel

/-- `mixed_number.hpp`: conversion to a fraction and addition. -/
theorem C145_mixed_operators (W₁ F₁ W₂ F₂ : IntTy) (o : Ops) (l r : Mixed) (f : Raw) (k : Int)
    (hl : l.frac.InRange F₁) (hr : r.frac.InRange F₂) (hf : f.InRange F₂) :
    Returns (TVal.mixed W₁ F₁ o).scope (some (.mixed W₁ F₁ o l)) N.«as_fraction» [] []
      (Val.frac (W₁.common F₁) o <$> l.asFraction W₁ F₁ o) ∧
    Returns (TVal.mixed W₁ F₁ o).scope (some (.mixed W₁ F₁ o l)) N.«operator» [] []
      (Val.frac (W₁.common F₁) o <$> l.asFraction W₁ F₁ o) ∧
    Returns .global none N.«operator+» [] [.mixed W₁ F₁ o l, .mixed W₂ F₂ o r]
      (Val.mixed (W₁.common W₂) (F₁.common F₂) o <$> Mixed.add W₁ F₁ W₂ F₂ o l r) ∧
    Returns .global none N.«operator+» [] [.mixed W₁ F₁ o l, .frac F₂ o f]
      (Val.mixed (W₁.common F₂) (F₁.common F₂) o <$> Mixed.addFraction W₁ F₁ F₂ o l f) ∧
    Returns .global none N.«operator+» [] [.frac F₂ o f, .mixed W₁ F₁ o l]
      (Val.mixed (W₁.common F₂) (F₁.common F₂) o <$> Mixed.addFraction W₁ F₁ F₂ o l f) ∧
    Returns .global none N.«operator+» [] [.mixed W₁ F₁ o l, .int W₂ k]
      (Val.mixed (W₁.common W₂) F₁ o <$> Mixed.addWhole W₁ F₁ W₂ o l k) ∧
    Returns .global none N.«operator+» [] [.int W₂ k, .mixed W₁ F₁ o l]
      (Val.mixed (W₁.common W₂) F₁ o <$> Mixed.addWhole W₁ F₁ W₂ o l k) := by
  rw [← asFractionT_eq o hl, ← addT_eq o hl hr, ← addFractionT_eq o hl hf]
  exact ⟨⟨_, fun _ h => mixed_asFractionT_ok W₁ F₁ o l h⟩,
    ⟨_, fun _ h => mixed_conversionT_ok W₁ F₁ o l h⟩,
    ⟨_, fun _ h => mixed_addT_ok W₁ F₁ W₂ F₂ o l r h⟩,
    ⟨_, fun _ h => mixed_addFractionT_ok W₁ F₁ F₂ o l f h⟩,
    ⟨_, fun _ h => mixed_fractionAddT_ok W₁ F₁ F₂ o l f h⟩,
    ⟨_, fun _ h => mixed_addWhole_ok W₁ F₁ W₂ o l k h⟩,
    ⟨_, fun _ h => mixed_wholeAdd_ok W₁ F₁ W₂ o l k h⟩⟩

/-- 1 1/2 + 2 2/3 -/
example : value (invoke library 40 .global none N.«operator+» []
    [.mixed i32 i32 .defaults ⟨1, ⟨1, 2⟩⟩, .mixed i32 i32 .defaults ⟨2, ⟨2, 3⟩⟩]) =
    pure (.mixed i32 i32 .defaults ⟨4, ⟨1, 6⟩⟩) := by decide +kernel

/-! ### The numbers of names -/

example : ∀ p ∈ [("Denominator", N.«Denominator»), ("FRep", N.«FRep»), ("FRep1", N.«FRep1»),
    ("FRep2", N.«FRep2»), ("Int", N.«Int»), ("Left", N.«Left»), ("LeftOps", N.«LeftOps»),
    ("LeftRep", N.«LeftRep»), ("Mode", N.«Mode»), ("Numerator", N.«Numerator»), ("Ops", N.«Ops»),
    ("OtherFRep", N.«OtherFRep»), ("OtherOps", N.«OtherOps»), ("OtherRep", N.«OtherRep»),
    ("Rep", N.«Rep»), ("Right", N.«Right»), ("RightOps", N.«RightOps»),
    ("RightRep", N.«RightRep»), ("T", N.«T»), ("V", N.«V»), ("WRep", N.«WRep»),
    ("WRep1", N.«WRep1»), ("WRep2", N.«WRep2»), ("_0", N.«_0»), ("_1", N.«_1»), ("_10", N.«_10»),
    ("_2", N.«_2»), ("abs", N.«abs»), ("are_different", N.«are_different»),
    ("are_identical", N.«are_identical»), ("as_fraction", N.«as_fraction»), ("auto", N.«auto»),
    ("base", N.«base»), ("bool", N.«bool»), ("case", N.«case»), ("ceil", N.«ceil»),
    ("ceil_redenominate", N.«ceil_redenominate»), ("class", N.«class»),
    ("common_raw_type", N.«common_raw_type»), ("common_rep_type", N.«common_rep_type»),
    ("common_type_t", N.«common_type_t»), ("const", N.«const»), ("constexpr", N.«constexpr»),
    ("default", N.«default»), ("defaults", N.«defaults»), ("define", N.«define»),
    ("delete", N.«delete»), ("den", N.«den»), ("denominator", N.«denominator»),
    ("divides", N.«divides»), ("else", N.«else»), ("enable_if_t", N.«enable_if_t»),
    ("enum", N.«enum»), ("equal_to", N.«equal_to»), ("explicit", N.«explicit»),
    ("exponent", N.«exponent»), ("false", N.«false»), ("fast", N.«fast»),
    ("fast_reduced_i", N.«fast_reduced_i»), ("fast_reduced_io", N.«fast_reduced_io»),
    ("fast_reduced_o", N.«fast_reduced_o»), ("final", N.«final»), ("fix", N.«fix»),
    ("floor", N.«floor»), ("floor_redenominate", N.«floor_redenominate»),
    ("floored", N.«floored»), ("fraction", N.«fraction»), ("fractional", N.«fractional»),
    ("fractional_", N.«fractional_»), ("fractional_rep_type", N.«fractional_rep_type»),
    ("fractional_type", N.«fractional_type»), ("friend", N.«friend»), ("function", N.«function»),
    ("gcd", N.«gcd»), ("greater", N.«greater»), ("greater_equal", N.«greater_equal»),
    ("ieme", N.«ieme»), ("if", N.«if»), ("ignore", N.«ignore»),
    ("ignore_signs", N.«ignore_signs»), ("init_denominator", N.«init_denominator»),
    ("init_numerator", N.«init_numerator»), ("int", N.«int»), ("intmax_t", N.«intmax_t»),
    ("is_convertible_v", N.«is_convertible_v»), ("is_defined", N.«is_defined»),
    ("is_improper", N.«is_improper»), ("is_integer", N.«is_integer»),
    ("is_negative", N.«is_negative»), ("is_non_negative", N.«is_non_negative»),
    ("is_non_positive", N.«is_non_positive»), ("is_positive", N.«is_positive»),
    ("is_proper", N.«is_proper»), ("is_reduced", N.«is_reduced»),
    ("is_reduced_ignore_signs", N.«is_reduced_ignore_signs»), ("is_same_v", N.«is_same_v»),
    ("is_undefined", N.«is_undefined»), ("is_unit_fraction", N.«is_unit_fraction»),
    ("is_zero", N.«is_zero»), ("istream", N.«istream»), ("lcm", N.«lcm»), ("left", N.«left»),
    ("less", N.«less»), ("less_equal", N.«less_equal»), ("long", N.«long»),
    ("make_unsigned_t", N.«make_unsigned_t»), ("math_utilities", N.«math_utilities»),
    ("max", N.«max»), ("minus", N.«minus»), ("mixed_number", N.«mixed_number»),
    ("mode", N.«mode»), ("modulus", N.«modulus»), ("multiplies", N.«multiplies»),
    ("namespace", N.«namespace»), ("negate", N.«negate»),
    ("new_denominator", N.«new_denominator»), ("noexcept", N.«noexcept»),
    ("normalize_signs", N.«normalize_signs»), ("not_equal_to", N.«not_equal_to»),
    ("num", N.«num»), ("number", N.«number»), ("numerator", N.«numerator»),
    ("numeric_limits", N.«numeric_limits»), ("operator", N.«operator»),
    ("operator!=", N.«operator!=»), ("operator%", N.«operator%»), ("operator%=", N.«operator%=»),
    ("operator*", N.«operator*»), ("operator*=", N.«operator*=»), ("operator+", N.«operator+»),
    ("operator+=", N.«operator+=»), ("operator-", N.«operator-»), ("operator-=", N.«operator-=»),
    ("operator/", N.«operator/»), ("operator/=", N.«operator/=»), ("operator<", N.«operator<»),
    ("operator<<", N.«operator<<»), ("operator<=", N.«operator<=»),
    ("operator==", N.«operator==»), ("operator>", N.«operator>»), ("operator>=", N.«operator>=»),
    ("ops", N.«ops»), ("ops_type", N.«ops_type»), ("ostream", N.«ostream»), ("other", N.«other»),
    ("plus", N.«plus»), ("pow", N.«pow»), ("pow2", N.«pow2»), ("private", N.«private»),
    ("public", N.«public»), ("ratio", N.«ratio»), ("raw", N.«raw»), ("raw_", N.«raw_»),
    ("raw_fraction", N.«raw_fraction»), ("raw_fraction_type", N.«raw_fraction_type»),
    ("reciprocal", N.«reciprocal»), ("redenominate", N.«redenominate»), ("reduce", N.«reduce»),
    ("reduce_ignore_signs", N.«reduce_ignore_signs»), ("reduce_mode", N.«reduce_mode»),
    ("reduce_normalize_signs", N.«reduce_normalize_signs»), ("reduced_input", N.«reduced_input»),
    ("reduced_output", N.«reduced_output»), ("rep_type", N.«rep_type»), ("return", N.«return»),
    ("right", N.«right»), ("round", N.«round»), ("round_mode", N.«round_mode»),
    ("round_redenominate", N.«round_redenominate»), ("safe", N.«safe»),
    ("safe_reduced_i", N.«safe_reduced_i»), ("safe_reduced_io", N.«safe_reduced_io»),
    ("safe_reduced_o", N.«safe_reduced_o»), ("signs_are_normalized", N.«signs_are_normalized»),
    ("squareRoot", N.«squareRoot»), ("static", N.«static»), ("static_cast", N.«static_cast»),
    ("std", N.«std»), ("std::common_type_t", N.«std::common_type_t»),
    ("std::intmax_t", N.«std::intmax_t»), ("std::istream", N.«std::istream»),
    ("std::make_unsigned_t", N.«std::make_unsigned_t»), ("std::ostream", N.«std::ostream»),
    ("stream", N.«stream»), ("streamsize", N.«streamsize»), ("struct", N.«struct»),
    ("switch", N.«switch»), ("symbol", N.«symbol»), ("template", N.«template»),
    ("to_whole", N.«to_whole»), ("true", N.«true»), ("trunc", N.«trunc»),
    ("trunc_redenominate", N.«trunc_redenominate»), ("truncated", N.«truncated»),
    ("truncated_fractional", N.«truncated_fractional»), ("typename", N.«typename»),
    ("unsigned", N.«unsigned»), ("unsigned_type", N.«unsigned_type»), ("using", N.«using»),
    ("value", N.«value»), ("void", N.«void»), ("whole", N.«whole»), ("whole_", N.«whole_»),
    ("whole_type", N.«whole_type»)],
    nameCode p.1 = p.2 := by decide +kernel

end Ieme
