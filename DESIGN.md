# Formal model of Ieme (fraction library) — design

The library under study is the header-only C++17 library in `/repo/include/ieme`.
The model and all proofs are in Lean 4 under `lean/Verif`.

## How the model is organised

| Layer | Directory | Contents |
|-------|-----------|----------|
| Model | `lean/Verif/Model` | executable, total functions that follow the C++ text; every definition cites file and lines |
| Spec | `lean/Verif/Spec` | small definitions of what users expect: rational values (`Rational`, `Expr`, `Assign`, `MixedNumber`, `Chrono`), the grammar and value of C++ literals (`Parse`), the text of a fraction (`Stream`), IEEE 754 patterns and correct rounding (`Ieee`, `FloatRounding`).  They use the data types of the model (a numerator and a denominator, a policy, an expression tree) and none of its functions |
| Lemmas | `lean/Verif/Lemmas` | proof machinery |
| Props | `lean/Verif/Props` | the theorems `Cnn_...` for each property, each with a concrete case that meets its hypotheses |
| Tests | `lean/Verif/Tests` | the assertions of the library's own test suite and of its README, evaluated on the model by the kernel, and a proof that the integer model agrees with Lean's bit vectors (`Tests/Machine.lean`).  Nothing depends on this directory |

### Machine semantics (`Model/Machine.lean`)

* `IntTy` is any fixed-width integer type, signed or unsigned, of at least 32 bits
  (`int`, `long long`, `unsigned`, `std::uint64_t`, `__int128`, ...).  Types narrower
  than `int` behave differently, since C++ promotes their operands to `int` and the
  braced initialisers in the library become narrowing conversions: they have their own
  model (`Model/Narrow`, C109), which treats what the standard calls ill-formed as such.
  It covers the queries, `normalize_signs`, `trunc`/`ceil`/`floor`, `pow2`, comparisons and
  operators on operands of different types.  Streams of 8-bit and 16-bit fractions and mixed
  numbers with a narrow whole part are in `Model/StreamChar` and `Model/NarrowMore` (C116, C124);
  the model of hashing fits all types.  Literals and floating point with narrow types, which do not
  compile, are not modelled, nor is the behaviour of compilers that
  accept the narrowing with a warning.
* Values are mathematical integers kept inside the type's range.
* Every operation returns `Res α`: `ok value wrapped` or `fault kind`.
  `fault` is a distinct outcome for undefined behaviour (signed overflow, division by
  zero, shift count out of range, violated precondition of `std::gcd`/`std::lcm`,
  out-of-range `string_view` access), for thrown exceptions and for ill-formed programs.
  `wrapped` is a ghost flag that is set when an unsigned operation wraps or a
  `static_cast` changes a value.  C++ continues silently in that case, and so does the model.
* "finishes cleanly" in the properties means `ok r false`, written `e ⇓ r`.
  For signed types arithmetic never sets the flag, so there "finishes" and "finishes cleanly" coincide
  (theorem `C01_signed_never_wraps`).
* Where evaluation order is unspecified in C++ the model picks one; it only decides which
  fault is reported when an expression has several.  `Model/Order.lean` transcribes the sources a
  second time with unsequenced operands and C101 proves that every order agrees with the model.

### Operation policies (`Model/Ops.lean`)

`Ops` is an inductive type: `safe`, `fast`, `reducedInput o mode`, `reducedOutput o mode`.
Theorems about "every policy" are inductions over it, so they cover every nesting
users can write, including the six aliases and the default.

## What is modelled

| Header | Modelled | Not modelled |
|--------|----------|--------------|
| `ops.hpp` | all of it: `safe`, `fast`, `reduced_input`, `reduced_output`, the aliases and the default, every operator in its three overloads (`Model/Ops`); user-defined policy classes as arbitrary functions (`Model/Policy`), also with hidden state (`Model/PolicyState`) | policies with missing members |
| `raw_fraction.hpp`, `raw_fraction_math.hpp`, `raw_fraction_queries.hpp`, `reduce_mode.hpp`, `numbers.hpp` | all (`Model/Raw`, `Model/Stream`, `Model/ReduceAny`) | `constexpr`/`noexcept` as such, other than `noexcept` on stream extraction |
| `fraction.hpp` | all constructors, conversions, operators, compound assignment, swap-free value semantics (`Model/Fraction`, `Expr`, `Assign`) | template machinery other than that of the binary operators (`Model/Overload`) and of initialisation from one object (`Model/Init`); elsewhere the representation types are explicit parameters |
| `fraction_math.hpp`, `math_utilities.hpp`, `fraction_queries.hpp` | all (`Model/FractionMath`; forwarding overloads are not repeated) | |
| `mixed_number.hpp` | all (`Model/MixedNumber`) | |
| `parse_utilities.hpp` | all, on character lists (`Model/Parse`) | |
| `floating_point.hpp` | all; formats `float`, `double`, both usual `long double`s, little- and big-endian (`Model/FloatingPoint`, `Ieee`), all four rounding directions (`Model/Directed`), the exception flags of the conversion to floating point (`Model/FloatFlags`, for programs with access to the floating-point environment) | traps for floating-point exceptions; evaluation at compile time, which raises no flags |
| `fraction_literals.hpp` | `_fr`, its signs and divisions, `_dec` (`Model/Literals`, `Parse`), expressions as program text (`Model/Source`), comparisons in a `static_assert` (`Model/StaticAssert`) | text before `_dec` that is no literal at all, which a compiler rejects earlier |
| `hash.hpp` | all, for a `std::size_t` of any width and an arbitrary `std::hash` of integers (`Model/Hash`) | |
| `limits.hpp` | `limits<fraction>` and `std::numeric_limits<fraction>` (`Model/Limits`), its constants as far as they mean something for fractions (`Model/LimitsTraits`); the specialisations for `mixed_number`, from the text (`Model/LeafEval`) | |
| `chrono.hpp` | duration and time-point conversion, `to_fractional`, `clock_wrapper::now` over `std::chrono::duration_cast` (`Model/Chrono`); the operators of `std::chrono::duration` with fractional counts (`Model/Duration`), expressions over them (`Model/TimeExpr`) and programs (`Model/TimeProgram`) | reading a real clock |
| stream operators | extraction and insertion over a character-level stream: classic locale, `eofbit` and `failbit`, default formatting (`Model/Stream`) and all formatting flags and widths (`Model/StreamFmt`); extraction with stream exceptions enabled, out of `noexcept` functions (`Model/StreamExcept`); output to a device with limited room, with `badbit` and exceptions (`Model/StreamOut`); input from a device that breaks down (`Model/StreamIn`); locales that group digits, with default formatting (`Model/StreamLocale`); loops over them (`Model/ReadLoop`) | locales with another character classification |

## Per property: what is modelled and how it is proved

| Property | Modelled part | Method |
|----------|---------------|--------|
| C01-C06 | `ops.hpp` arithmetic of all policies and overloads | exactness against `ℚ`, induction over policies |
| C07 | same | magnitude bounds, induction over policies |
| C08 | `reduced_output`, `reduce` | canonical-form lemma for `reduce` |
| C09-C11 | same | corollaries of exactness; induction over expression trees |
| C12 | `safe`, `fast` | scaling of in-range values by a positive factor |
| C13-C18 | comparisons of all policies and overloads | exactness against `ℚ`, with the exact condition on the signs of denominators |
| C19 | arithmetic with undefined operands; exactly when a clean result is defined all the same | induction over policies |
| C20-C23 | `raw_fraction_math.hpp`, `raw_fraction_queries.hpp` | gcd algebra |
| C24-C28 | queries, `reciprocal`, `abs`, `normalize_signs` | direct |
| C29-C34 | `fraction_math.hpp` | floor and ceiling of `ℚ` |
| C35-C37 | `pow2`, `pow` | induction along the recursion of the C++ function |
| C38-C41 | `fraction.hpp` conversions, mixed-type operators, compound assignment, ratio constructor | modular conversion |
| C42-C47 | `mixed_number.hpp` | invariant over all expression trees |
| C48-C49 | `operator<<`, `operator>>` over a model of `std::istream` | character-level induction |
| C50-C57 | `parse_utilities.hpp`, `floating_point_string_to_fraction`, `_dec` | grammar given separately as spec |
| C58-C63 | `floating_point.hpp` bit-level conversion | IEEE decoding and correct rounding given separately as spec |
| C64-C65 | `hash.hpp` | direct |
| C66 | `limits.hpp` | direct |
| C67-C68 | `chrono.hpp` with `std::chrono::duration_cast` | exactness of the underlying operations |
| C69-C71 | literals, constructors, range closure | direct; induction over policies |
| C72 | positive denominators | induction over policies and operations |
| C73 | `hash.hpp` | injectivity of the bit operations |
| C74 | `fraction_to_floating_point` | monotonicity of correct rounding |
| C75-C76 | stream operators, sequences of fractions | induction over the sequence |
| C77 | `mixed_number.hpp` | uniqueness of the invariant form |
| C78-C79 | `redenominate`, rounding functions | algebra of floor and ceiling |
| C80-C81 | combinations of operators | corollaries of exactness, permutation induction |
| C82-C83 | literals | induction over digit sequences |
| C84 | overflow, common factors | scaling lemmas (`Lemmas/Scale.lean`), induction over the policy |
| C85-C86 | exact parts, overflow conditions, wrap-around | inversion of every operation |
| C87-C88 | operators of durations | common period as greatest common measure; exactness of the underlying operations |
| C89 | `limits.hpp` | direct |
| C90 | policy templates | inversion of `reduce` |
| C91 | result types of every function | a predicate over all outcomes, closed under sequencing |
| C92 | rounding functions | inversion of every step; the answers are stated in `Spec/Answers.lean` |
| C93 | mixed numbers | inversion of the two repair steps of the constructor |
| C94 | literals: when they finish, and parts | inversion of each conversion step; powers of the base bound the digit loops |
| C95 | floats: when they finish, and parts | inversion of each conversion step |
| C96 | default policy in terms of values | reduced operands are the rational's lowest terms up to sign (Lemmas/Defaults.lean), then C85 and C90 |
| C97 | which failures are possible | a triple (result condition, failure condition) for every function, composed along `bind` (Lemmas/Faults*.lean) |
| C98 | stream operators with formatting flags (`Model/StreamFmt`) | character-level: sign, prefix and digits of the written text are found again by the reader; exact condition `C98_succeeds_iff` |
| C99 | configured default policy (`Model/Config`) | case analysis on the macros; literal theorems of C51-C56 for any policy, C08 for lowest terms |
| C100 | all headers, two representations side by side | simulation: every primitive operation that is clean in the narrow type gives the same in the wide one; congruence for sequencing and branching |
| C101 | second transcription of the sources with unsequenced operands (`Model/Order`) | all outcomes of a computation agree with left-to-right evaluation by induction; that evaluation equals the model's by the monad laws |
| C102 | grammar of integers under formatting flags (`Spec/StreamRead`) | the scanner splits exactly as the grammar does, both directions |
| C103 | contract on an arbitrary policy (`Spec/Policy`), model over an arbitrary policy (`Model/Policy`) | induction on expressions; the library's policies are proved instances |
| C104 | `fraction_to_floating_point` with operations rounding in a given direction (`Model/Directed`) | floor and ceiling on the grid of the format; uniqueness and monotonicity of correct rounding |
| C105 | same | relative error of one rounding, composed over two conversions and a division |
| C106 | `Expr.Bounded`, an executable check | induction on the expression, from the exact finishing conditions of C85 |
| C107 | compound assignments over a common denominator | invariant: the denominator divides D and the numerator over D is the running total |
| C108 | `std::min`, `max`, `clamp`, `min_element`, `max_element`, `is_sorted`, `lower_bound` with `operator<` (`Model/Algorithms`), sorted ranges | induction on the range with `<` characterised by C15; antisymmetry on lowest terms |
| C109 | types narrower than `int` (`Model/Narrow`) | bounds on promoted operands; reduction to the theorems about `fraction<int>` (C15, C85) |
| C110 | programs with variables, `if` and `while` (`Model/Program`) | simulation of a big-step semantics over `ℚ`, induction on its derivations with C11, C13, C15; positive denominators as an invariant by C72 |
| C111 | literal, expression or program followed by conversion to floating point | composition of C11, C53, C61, C110; divisors of powers of ten are representable |
| C112 | `abs`, `floor`, `ceil`, `zero`, `min`, `max` of `std::chrono` (`Model/DurationAlg`) | C67 for the conversion; equal lengths are never ordered by C15; C87, C88, C66 |
| C113 | number of calls of `math_utilities::pow` (`Model/PowCost`) | strong induction on the exponent; the counting version is shown to compute the same result |
| C114 | the static check (`Spec/ProgramBounds`) | the bounds of C106 are monotone; C85 for comparisons; induction on the run of C110 |
| C115 | references as places in memory (`Model/Reference`) | C40 and the exactness of the binary operators |
| C116 | `operator<<` and `operator>>` for 8-bit representations (`Model/StreamChar`) | case analysis of the text; codes modulo 256 |
| C117 | conversion of dyadic fractions to floating point | scaling by a power of two commutes with rounding away from the subnormal range; closure of dyadic rationals |
| C118 | stream extraction with exceptions enabled | state bits stay set through the three steps; length of the remaining text bounds the loop |
| C119 | constants of `std::numeric_limits` | arithmetic of powers of two and ten; induction on the policy |
| C120 | `std::map` and `std::unordered_map` (insertion and lookup, `Model/Containers`) | induction on the search tree with `<` characterised by C108; induction on the insertions |
| C121 | overload resolution and expressions of mixed types (`Model/Overload`, `TypedExpr`) | template deduction and partial ordering computed for all pairs of types; induction on expressions |
| C122 | enough bits (`Settles`) | static bounds of C106/C114 are met by some type; results are kept in wider types (C100) |
| C123 | silent changes (`Res` wrap flag) | the flag stays clear through each function over signed types; `TExpr.calm` by induction |
| C124 | 16-bit streams and narrow whole parts (`Model/NarrowMore`) | extraction described by the grammar of C49; the steps of `fix` compared with those for `int`, conversions modulo `2^bits` |
| C125 | programs over variables of different types | big-step semantics over ℚ; induction on it with the exactness of conversions, overloads and comparisons; typing by induction on the number of steps |
| C126 | typed programs with wider types | simulation between the two runs; settling composes along the big-step semantics |
| C127 | typed programs with positive denominators | invariant of the big-step semantics; C72 for quotients and C15 for comparisons |
| C128 | `reduce` and the policy templates with any number as mode (`Model/ReduceAny`) | direct; induction over policies for operands that have become 0/0 |
| C129 | output to a device with limited room, `badbit`, `failbit` and exceptions (`Model/StreamOut`) | two inserters in a row as one; induction over the fractions; C48 for the text that is left |
| C130 | expressions over durations, time points and numbers with static types (`Model/TimeExpr`) | induction over the expression, by the shapes of the operands, on C67, C87 and C88 |
| C131 | programs over durations and time points (`Model/TimeProgram`), and how many bits are enough | induction over the big-step run, composing settled computations (C122) and C130 |
| C132 | unsigned types under `fast` and `safe` (`Spec/Modular`) | both parts as elements of Z/2^bits; induction over expressions and over steps of programs; for `safe` the denominator is followed exactly and the numerator modulo 2^bits |
| C133 | numeric algorithms | the algorithms as recursive functions over lists, std::reduce as every bracketing of every permutation; induction over the bracketing, uniqueness of canonical forms, least common multiples characterised by divisibility, sums over a common denominator |
| C134 | stream locale | `num_put` as cutting a digit list into groups from the right, `num_get` as a scan that drops separators and checks group sizes; the scan of a joined list of groups by induction, the leftmost group as iterated division by powers of ten |
| C135 | the static check with conversion factors (`Spec/TimeBounds`) | the four cases of duration_cast with the bounds of C106; induction on the run of C131 |
| C136 | initialisation: candidates, ranking, values (`Model/Init`, `Spec/Init`) | computing the candidates for every pair of types; the exactness lemmas of C38, C41, C42, C46 |
| C137 | measuring time (`Model/Stopwatch`) | all counts live on one denominator, as in C107; multiplication and division of whole numbers under any policy; comparison over a common denominator |
| C138 | the static check for programs over variables of different types (`Spec/TypedBounds`) | magnitudes by the bounds of C106 and C107 for each overload, signs by the exactness and uprightness lemmas of C125; induction on the run over ℚ |
| C139 | stream extraction from a device that throws (`Model/StreamIn`) | extraction that stops before the end does not depend on what follows; a break leaves the old value |
| C140 | the lexer, the literals and the grammar around `fraction_literals.hpp` (`Model/Source`) | the stack parser accepts exactly the grammar of the standard, the lexer the longest tokens; values by C94 and C121 |
| C141 | floating-point exception flags of `fraction_to_floating_point` (`Model/FloatFlags`) | the flags of a rounded operation are those of IEEE 754, given separately as spec; three operations combined |
| C142 | `static_assert` of a comparison (`Model/StaticAssert`) | comparison characters occur in no token of an expression, so the text splits in one way; values by C140, silence by C123, signs by C127 |
| C143 | loops over stream extraction with collecting, adding and writing (`Model/ReadLoop`) | strong induction on the length of the text; extraction is exact (C102) |
| C144 | policies with hidden state (`Model/PolicyState`), evaluation of expressions in any order | each function as a chain of calls and steps without calls; labelled steps of an expression are the shuffles of those of its operands; values are kept by every step whose flag stays clear |
| C145 | the text of eleven headers (`Model/HeaderText`), a parser (`Model/HeaderSyntax`), an interpreter (`Model/HeaderEval`) | the kernel runs the parser on each header; one evaluation rule per form of statement and expression as a rewriting rule; functions in the order of their calls, policies by induction on their nesting, `pow` by induction on the exponent |
| C146 | the text of the parser (`Model/ScanText`), its grammar (`Model/ScanSyntax`), an interpreter with loops, `switch`, lambdas and objects (`Model/ScanEval`) | the kernel runs the parser on the text; induction over the characters for each loop; the calls of fraction operators are those of C145 |
| C147 | the text of the conversions (`Model/ScanText`), the grammar and interpreter of C146 with local structures, constants, shifts, `&`, `std::memcpy` and floating-point numbers | the kernel runs the parser on the text; the program is executed symbolically; the loop-free lambdas become equations for the fields; the calls of fraction operators are those of C145 |
| C148 | text of `hash.hpp`, `limits.hpp` and `fraction_literals.hpp` (`Model/LeafText`, `LeafSyntax`, `LeafEval`) | parser run in the kernel; one lemma per function, symbolic evaluation |
| C149 | limits of mixed numbers, from the text of `limits.hpp` (`Model/LeafEval`) | symbolic evaluation; the corrected text by computation in the kernel |
| C150 | the text of the stream operators, a grammar and an evaluator over an abstract stream (`Model/StreamText`) | parser run in the kernel; symbolic evaluation, instantiation |
| C151 | the text of the header, a grammar and an evaluator over the durations of the standard library (`Model/ChronoSyntax`, `Model/ChronoEval`) | parser run in the kernel; symbolic evaluation down to the lemmas of C145 |
| C152 | evaluation of the parsed text (C145) combined with the theorems about the models | results of calls are unique, so every theorem about a model holds of the text |
| C153 | soundness of evaluated user code against a semantics over the rational numbers | induction on the meaning; every operator from the evaluated text (C145) |
| C154 | type soundness of evaluated user code | induction on typing derivations; failures of every operator from C97, text from C145 |

## Properties that the code violates

For each of these the negation is proved with a concrete witness and the part that does hold is
proved under the exact or a natural condition as a theorem with suffix `_partial`.

| Property | What goes wrong | Witness theorem |
|----------|-----------------|-----------------|
| C12 | `1/65536 < 1/65537` on `int`: answered by `fast`, signed overflow in `safe` | `C12_safe_comparison_less_resistant` |
| C15 | order comparisons with an integer operand (and all of them under `fast`) are reversed for negative denominators | `C15_order_wrong_for_negative_denominator`; exactly when: `C15_correct_iff` |
| C18 | comparing with `n` and with `n/1` differ for negative denominators | `C18_integer_as_fraction_false`; exactly when: `C18_integer_as_fraction_iff` |
| C19 | dividing by an undefined fraction `n/0`, `n ≠ 0`, gives a defined result; `safe` divides by zero when adding undefined fractions | `C19_undefined_not_propagated` |
| C23 | `is_reduced(3/-4)` is true although `reduce` changes it | `C23_is_reduced_false`; exactly when: `C23_is_reduced_correct_iff` |
| C30, C31 | `floor` gives 0 and `ceil` gives 1 for values strictly between -1 and 0 | `C30_floor_wrong`, `C31_ceil_wrong`; exactly there: `C30_floor_exact_iff`, `C31_ceil_exact_iff` |
| C32 | `round` of values in (-1, -1/2), and under `fast` with negative denominators | `C32_round_wrong`; exact condition `C32_round_exact_iff` |
| C34 | `redenominate` inherits these | `C34_redenominate_wrong`; exact conditions `C34_floor_redenominate_iff`, `C34_ceil_redenominate_iff`, `C34_round_redenominate_iff` |
| C35 | `pow2(31)` on `int` is `INT_MIN/1` | `C35_pow2_wrong` |
| C43 | wrapping of unsigned or narrowed parts breaks the mixed-number invariant | `C43_invariant_broken` |
| C47 | a mixed number from an undefined fraction divides by zero | `C47_undefined_faults` |
| C49 | `-1/2` read into an unsigned fraction wraps silently | `C49_unsigned_negative`; exact condition `C49_success_iff` |
| C52 | literals without a radix point, such as `1e5`, are rejected | `C52_witness` |
| C55 | the digit loop multiplies once too often: `2147483647` overflows `int` | `C55_representable_overflows` |
| C59 | zero and subnormal `float`s can not be converted | `C59_tiny_never_finishes` |
| C60 | infinities can not be converted | `C60_infinity_never_finishes` |
| C63 | field offsets are wrong on big-endian targets; no normal number is converted correctly there | `C63_big_endian_wrong`, `C63_big_endian_never_right`; exactly when: `C63_big_endian_iff` |
| C64 | `1/2 == 2/4` but their hashes differ | `C64_equal_hash_differently`; for every width of `std::size_t` above one bit; exactly when, over all `std::hash`: `C64_all_hashes_iff` (three bits or more) |
| C66 | `limits::max()` is below `INT_MIN/-1`, `smallest()` is above `-1/INT_MIN` | `C66_bounds_broken`; only there: `C66_bounds_iff` |
| C72 | division by a negative value leaves a negative denominator under `safe` and `fast` | `C72_division_by_negative`; exact condition `C72_positive_denominator_iff` |
| C73 | `hash_combine` loses the top bit of the denominator's hash | `C73_denominator_collision`; for every width; exactly when, for equal numerators: `C73_same_numerator_iff`, for equal denominators: `C73_same_denominator_iff` |
| C74 | both parts are rounded before dividing, so conversion to floating point is not monotone | `C74_not_monotone`; numbers that are apart keep their order: `C74_apart`; exactly when order is kept: `C74_monotone_iff` |
| C75 | a failed extraction can change its target | `C75_failure_changes_target`; every failure `C75_failure_iff` |
| C78, C79 | `round` under `fast` with negative denominators | `C78_redenominate_drifts`, `C79_round_integer_wrong`; always wrong there: `C78_redenominate_drifts_always`, `C79_round_integer_one_more` |
| C83 | a trailing zero can make a literal overflow | `C83_zeros_overflow`; leaving zeros out never loses a literal: `C83_shorter_finishes` |
| C88 | durations under `fast` with a negative denominator compare in reverse | `C88_wrong_for_negative_denominator`; exactly when: `C88_compare_iff` |
| C89 | for unsigned representations `epsilon()` is smaller than the gap above one | `C89_unsigned_gap` |
| C98 | negative parts in octal or hexadecimal and internal padding can not be read back; padding with zeros is read back as another fraction | `C98_hex_negative`, `C98_internal`, `C98_zero_fill`; exact condition `C98_succeeds_iff` |
| C104 | converting downward can give a number above the fraction, since the denominator is rounded downward, too | `C104_downward_goes_above`; with representable parts `C104_rounded_partial`, `C104_brackets_partial`; what is computed for all parts `C104_three_roundings`, exact condition `C104_rounded_iff` |
| C109 | least value: `is_proper`, `normalize_signs` and `trunc` are wrong on narrow types | `C109_is_proper_wrong`, `C109_normalize_signs_wrong`, `C109_trunc_wrong`; exactly when: `C109_is_proper_iff`, `C109_normalize_signs_iff` |
| C109 | comparisons of `fraction<unsigned short>` overflow; `1/300 < 1/301` on `short` is undefined under `safe`; `short` with `unsigned short` overflows | `C109_unsigned_short_overflows`, `C109_safe_lcm`, `C109_mixed_overflows` |
| C110 | a branch on `<` under `fast` goes the wrong way for a negative denominator | `C110_fast_wrong` |
| C110 | so does one after a division by a negative value, from positive denominators | `C110_fast_division_wrong` |
| C111 | `_dec` and conversion to `double` differ from the nearest `double` for a numerator above 2^53 | `C111_long_numerator_misrounded` |
| C111 | and for a denominator with a large power of five, numerator one | `C111_exponent_misrounded` |
| C112 | `std::chrono::abs` under `fast` returns a negative duration for a negative denominator | `C112_abs_wrong`; exactly when: `C112_abs_exact_iff` |
| C116 | `fraction<std::int8_t>` is written as characters, and `32/5` or `1/10` does not read back | `C116_never_decimal`, `C116_round_trip_iff` |
| C117 | over a 128-bit type `float` makes (2^128 - 1)/2 infinite | `C117_numerator_overflow` |
| C118 | a stream with exceptions enabled should throw, but `std::terminate` is called | `C118_uncatchable`, `C118_last_terminates`, `C118_loop_terminates` |
| C119 | `is_modulo` is true for unsigned types, but 1/2 - 1 is off by half of 2^bits under every policy | `C119_not_modulo` |
| C119 | `has_quiet_NaN` is true and `traps` false, but the default policy divides by zero | `C119_nan_not_quiet` |
| C120 | an `unordered_map` keyed by fractions holds `1/2` and `2/4` at once and does not find `2/4` after `1/2` was inserted, although `1/2 == 2/4` | `C120_table_misses`; exact conditions `C120_table_distinct_iff`, `C120_table_all_iff` |
| C120 | an undefined key in a `std::map` swallows all later keys | `C120_map_undefined` |
| C121 | `x / 2_fr` compiles but `x /= 2_fr` does not; mixed numbers have `+` but no `+=`, and no comparisons | `C121_compound_missing`, `C121_comparisons` |
| C121 | with mixed numbers the type of a sum depends on the parentheses: `(n + x) + m` and `n + (x + m)` differ | `C121_mixed_type_depends` |
| C122 | no width helps `pow` and `pow2` with the exponent -2147483648, remainders by zero, `floor` and `ceil` between -1 and 0, or the order of `fast` for negative denominators | `C122_never` |
| C123 | mixed_number<int, long long> takes a whole part modulo 2^32 | `C123_mixed_wrong` |
| C123 | one second over `int` in picoseconds is negative | `C123_durations_wrong` |
| C123 | unsigned differences, and products and comparisons of int with unsigned | `C123_unsigned_wrong` |
| C124 | `mixed_number<signed char, int>(100, 57/2)` is minus 127 1/2 | `C124_construction_wrong` |
| C125 | order comparison of a fraction with an integer in a program, default policy | `x = 1 / -2_fr; if (x < 0) n = 1;` leaves `n` alone (`C125_order_wrong`) |
| C126 | widening a type where the common type changes | `if (x < u)` with `long long x = -1`, `unsigned u = 1` widened to `unsigned long long` (`C126_wider_wrong`); a property of C++ that the library inherits |
| C127 | the reciprocal of a negative value compared with an integer, default policy | `x = reciprocal(x); if (x < 0) n = 1;` from `x = -1/2` leaves `n` alone (`C127_reciprocal_wrong`) |
| C128 | a mode that is not an enumerator is not rejected | `1/2 + 1/3` is `0/0` under `reduced_output<safe, static_cast<reduce_mode>(2)>` (`C128_unsound_wrong`) |
| C129 | a failed write can not be caught, and what is left of it reads as another fraction | `1/25` with room for three characters (`C129_cut_wrong`) |
| C130 | whether a sum of three durations compiles depends on how they are grouped | durations in 10^18 s, s and 10^-18 s (`C130_grouping_matters`) |
| C131 | x += e may compile where x = x + e does not | periods 10^-18 s and 1/(10^18-1) s (`C131_compound_only`) |
| C131 | for `fast` a negative denominator sends a branch the wrong way | `if (x0 < x1)` with counts 1/-2 and 0 (`C131_fast_wrong`) |
| C132 | wrap-around spoils the result under the default policy, which cancels factors of what has wrapped | `1/3 - 2/3 + 1` over `unsigned` is `1431655766/1` (`C132_wrong`) |
| C139 | extraction that fails should leave the target as it was or replace it | `3/4` on a device that then throws, read into `1/2`, leaves `3/2` (`C139_half_read`) |
| C139 | a number cut by a truncated text is stored without a sign of failure | `12/3` of `12/34` is read as `12/3` (`C139_end_cuts`, `C139_loop_end_cuts`) |
| C140 | `n/m/d_fr` should be n over m over d | `2/3/4_fr` is `0/4` (`C140_chain`, `C140_pitfalls`) |
| C140 | digits of a literal show its value | `1/010_fr` is `1/8`; `1/4294967298_fr` is `1/2` (`C140_pitfalls`) |
| C140 | `n/d_fr` minus one is a difference | `1u/2_fr - 1` is `4294967295/2` (`C140_pitfalls`) |
| C140 | an expression without blanks means what it means with them | `1--1/2_fr` and `0xe+1/2_fr` are rejected (`C140_pitfalls`) |
| C141 | `FE_INEXACT` should be raised exactly when the result is not the value | from a 256-bit type to `float`: 1/2^149 is a `float` but gives 0 with overflow and inexact; toward zero 1/2^128 gives exactly 1/2^128 with overflow, underflow and inexact (`C141_wide_type`) |
| C142 | an equation accepted at compile time is true | `1/4294967298_fr == 1/2_fr` (`C142_equation_wrong`) |
| C142 | an order accepted at compile time is true | `0 < 1/-2_fr` (`C142_order_wrong`) |
| C143 | a text with a number that is no fraction should be detected | `5`, `1/2`, `3/4` on three lines is read as `5/2`, `3/4`, ending like a well-formed text (`C143_not_detected`) |
| C143 | a text that breaks off should be distinguishable from a complete one | `1/2 7` and `1/2 3/` end at the end of the stream, with `7/2` and `3/2` in the value (`C143_not_detected`); exactly when: `C143_eof_iff` |
| C144 | the result of an expression is determined by its operands | a policy that numbers its sums gives `-1` or `1` for `(1/2 + 1/3) - (1/2 + 1/3)` (`C144_order_matters`) |
| C144 | a log has the calls in a definite order | `(1/2 + 1/3) * (1/2 - 1/3)` may begin with either (`C144_log_order`) |
| C149 | every function of `limits` of a mixed number is ill-formed | any `W`, `F`, policy (`C149_limits_ill_formed`): `fraction_type` is named at `limits.hpp:39`, `mixed_number` calls it `fractional_type` |
| C149 | so are the functions and constants of `std::numeric_limits` of a mixed number with the default policy | any `W`, `F` (`C149_numeric_limits_ill_formed`), `limits.hpp:101` |
| C149 | with any other policy `std::numeric_limits` of a mixed number is the unspecialised one, whose `max()` is zero | any `W`, `F`, policy but the default (`C149_other_policies`) |
| C152 | the wrong results of C12, C15, C19, C23, C30 to C32, C34, C35, C47, C72, C78, C79 and C123 are in the text | `C152_comparisons_wrong`, `C152_arithmetic_wrong`, `C152_is_reduced_wrong`, `C152_rounding_wrong`, `C152_powers_wrong`, `C152_mixed_wrong` |
| C153 | `x < 0` in the code of a user is false for a negative fraction with a negative denominator | `C153_order_with_integer_wrong` |
| C137 | the difference of two readings of a wrapped clock does not overflow, under `fast` | nanoseconds as seconds, 10000000000 and 10000000001 |
| C136 | an implicit conversion may lose the value | `fraction<int> f = 0.5;` compiles and is 0; `mixed_number<int> m = -2.75;` is -2 |
| C136 | braces allow a conversion between fractions that wraps | `fraction<int>{fraction<long>(4294967297, 4294967296)}` is 1/0 |
| C136 | conversions do not compose | `mixed_number<int>` converts to `fraction<int>` and that to `fraction<long>`, but `fraction<long>(m)` and `mixed_number<long>(m)` do not compile |
| C134 | a fraction written in a grouping locale is misread in the classic one without failure | `1234567/1000` written as `1,234,567/1,000` is read as `1/1` |
| C134 | wrongly grouped input sets `failbit` but has changed the target | `12,34/5` read into `7/8` fails and leaves `1234/8` |
| C133 | the bracketing decides whether `std::reduce` overflows | `2147483647`, `1`, `-1`: left to right overflows under `safe`, `fast` and the defaults, right to left gives `2147483647` |
| C133 | the representation depends on the bracketing when only inputs are reduced | `1/2 + 1/2 + 1/3` under `reduced_input<safe>` is `4/3` from the left and `8/6` from the right |

Some proved properties state a condition that users may not expect: `INT_MIN` violates the
precondition of `std::gcd` in every reducing operation (C16, C36), conversion to floating point
is correctly rounded only when both reduced parts are exactly representable (C61, otherwise
`C61_three_roundings`), and
`-9223372036854775808/1_fr` can not be written (C69).

Reading the tests and the README against the model showed: `limits.test.cpp` lines 18 and 61-64
rely on undefined behaviour (`std::gcd` of `INT_MIN`); README line 118 (`pow2(-3)`) does not
compile as written, line 152 has the wrong sign in its comment, line 148
(`to_fraction<int>(-2.25)`) is ill-formed.

## Trusted base

* Lean 4.33.0's kernel.
* Axioms: at most `propext`, `Classical.choice` and `Quot.sound`.  `AXIOMS.txt` lists them for
  each theorem.  There are no axioms of our own, no `sorry`, no `native_decide`, no `bv_decide`.
* The reading of the C++ text recorded in the model's citations.  The evaluation of the test
  suite and README on the model (`lean/Verif/Tests`) is a check of this reading.  For eleven headers
  C145 reduces it to three things: that `Model/HeaderText` is a copy of the files (made by a script,
  line by line), that the parser groups tokens as C++ does (`Model/HeaderSyntax`), and that the
  interpreter gives each form its C++ meaning (`Model/HeaderEval`, whose header lists the
  simplifications).  Default template arguments, `enable_if` conditions, `noexcept` and `constexpr`
  are read and forgotten there; `Model/Overload` and `Model/Init` deal with the first two.  C146
  does the same for the parser, with `Model/ScanText`, `Model/ScanSyntax` and `Model/ScanEval`, and
  C147 for the floating-point conversions.  There a floating-point type is its number of bytes, and
  `std::memcpy` into an unsigned integer of that size gives the bit pattern.  C148 does it for
  hashing, limits and denominator literals, with `Model/LeafText`, `Model/LeafSyntax` and
  `Model/LeafEval`; there the matching of partial specialisations, also with default template
  arguments, is part of the interpreter, and what it takes from other headers (member types, the
  constructors and operators of fractions) is evaluated from their text as in C145.  C150 does it for
  the stream operators, over any stream (`Model/StreamText`), and C151 for `chrono.hpp`
  (`Model/ChronoText`, `Model/ChronoSyntax`, `Model/ChronoEval`), where alias templates, default
  template arguments and deduction are part of the interpreter.
  C153 and C154 run code of users with the interpreter of C145.  Expressions, declarations,
  assignments, `if` and `return` are those of its grammar, so examples are parsed from text; the parser
  does not read `while`, so loops are terms (`Code` in `Spec/UserCode`) whose bodies are parsed.  A
  name declared in a block stays in use after the block, and an assignment adds an entry that hides
  the older one, so the result is that of C++ only if names are not declared twice.  The meanings in
  `Spec/UserCode` are part of the statement, not of the trusted base; what they leave open (zero
  divisors, order comparisons and roundings that the library gets wrong, parts of fractions that
  are not reduced) is left open by the theorems as well.
* The behaviour of the language and standard library that the model writes down:
  * integer arithmetic, conversions and shifts (modular conversion as in C++20 and in every
    compiler before it); proved equal to Lean's bit vectors in `Tests/Machine.lean`;
  * `std::gcd`, `std::lcm`, `std::ratio`, `std::common_type` of integers;
  * template argument deduction and overload resolution as far as `Model/Overload` and `Model/Init`
    write them down;
  * `std::string_view`, formatted stream input and output of integers;
  * `std::chrono::duration_cast`, the converting constructors, common type and operators of
    `duration`;
  * IEEE 754 binary formats, conversion from integers and division, rounding to nearest or as selected;
    integers and floating-point numbers are stored in the same byte order;
  * in C104 and C105, conversions of integers to floating point round in the selected
    direction like division does (the C++ standard leaves it to the implementation);
  * `std::hash` of integers is arbitrary unless libstdc++'s identity is named; `std::size_t` has any number of bits.

## Testing the theorems against wrong programs

`seeded/LOG.jsonl` records, for each seeded bug, the definition edited, the edit, the claim it
breaks, and the theorems that failed.  Three tests are made in a scratch copy:

1. The edited model is rebuilt with the original proofs; proofs that break are listed.
2. Because a proof can break although the statement is still true, the statements are tested by
   themselves: all proofs are removed, the model is edited, and for the claims that the bug
   breaks the *negation of the theorem's statement* is proved about the edited model
   (`statements_refuted` in the log).  A statement that can be refuted is certainly strong enough to
   exclude the bug.
3. For edits made mechanically all over the model, the claims are instantiated with many
   concrete inputs as executable checks.  On the model as it is every check passes; on an edited
   model a failing check is an instance of a theorem that is false of it (`instance_false` in the log).

An entry whose note says that it was not run against the proofs has only been through the third
test, and no instance told it apart from the original.

Correction: for hand-written bugs, the tool behind the first test replaced failing proofs using line
numbers from before its own edits.  When one declaration had several errors, it could disable the
declaration after it and count that one as failed too.  It also mistook options set for one
declaration, and lines with `:=` inside a statement, for the start of a proof.  After the repair all
these results were removed from the log and made again; at least one theorem fails for each of the
bugs, apart from two whose notes say otherwise.  The second and third tests and the mechanical edits do not use that tool.
