{"id": "C01", "title": "Addition is exact", "statement": "For defined operands, whenever `a + b` finishes without undefined behaviour or unsigned wrap-around, the result is a defined fraction whose rational value is exactly the sum of the operands' values.", "quantifier": "every operation policy (safe, fast, and any nesting of reduced_input / reduced_output in either mode), every integer representation of at least 32 bits, every overload (fraction-fraction, fraction-integer, integer-fraction) and every pair of in-range operands", "why_tests_cant": "The operand space is 2^128 or larger per overload and policies nest without bound; the tests check a few dozen literals.", "anchors": ["include/ieme/ops.hpp: safe::plus, fast::plus, reduced_input::plus, reduced_output::plus", "include/ieme/fraction.hpp: operator+"]}
{"id": "C02", "title": "Subtraction is exact", "statement": "As for addition: when `a - b` finishes cleanly on defined operands the result is defined and its value is exactly the difference.", "quantifier": "every operation policy (safe, fast, and any nesting of reduced_input / reduced_output in either mode), every integer representation of at least 32 bits, every overload (fraction-fraction, fraction-integer, integer-fraction) and every pair of in-range operands", "why_tests_cant": "Same unbounded operand and policy space as addition.", "anchors": ["include/ieme/ops.hpp: safe::minus, fast::minus, reduced_input::minus, reduced_output::minus", "include/ieme/fraction.hpp: operator-"]}
{"id": "C03", "title": "Multiplication is exact", "statement": "When `a * b` finishes cleanly on defined operands the result is defined and its value is exactly the product.", "quantifier": "every operation policy (safe, fast, and any nesting of reduced_input / reduced_output in either mode), every integer representation of at least 32 bits, every overload (fraction-fraction, fraction-integer, integer-fraction) and every pair of in-range operands", "why_tests_cant": "Same unbounded operand and policy space as addition.", "anchors": ["include/ieme/ops.hpp: safe::multiplies, fast::multiplies, reduced_input::multiplies, reduced_output::multiplies"]}
{"id": "C04", "title": "Division is exact and division by zero is undefined, not wrong", "statement": "When `a / b` finishes cleanly on defined operands: if b is non-zero the result is defined and is exactly the quotient; if b is zero the result is an undefined fraction. It never yields a defined but wrong value.", "quantifier": "every operation policy (safe, fast, and any nesting of reduced_input / reduced_output in either mode), every integer representation of at least 32 bits, every overload (fraction-fraction, fraction-integer, integer-fraction) and every pair of in-range operands", "why_tests_cant": "Needs all operands, including every representation of zero, under every policy.", "anchors": ["include/ieme/ops.hpp: safe::divides, fast::divides, reduced_input::divides, reduced_output::divides"]}
{"id": "C05", "title": "Modulus is the exact truncated remainder", "statement": "When `a % b` finishes cleanly on defined operands, b is non-zero and the result m satisfies a = b * t + m where t is a/b truncated towards zero; so |m| < |b| and m is zero or has the sign of a, whatever the signs of the denominators.", "quantifier": "every operation policy (safe, fast, and any nesting of reduced_input / reduced_output in either mode), every integer representation of at least 32 bits, every overload (fraction-fraction, fraction-integer, integer-fraction) and every pair of in-range operands", "why_tests_cant": "Sign and boundary combinations over all operands; tests list sixteen.", "anchors": ["include/ieme/ops.hpp: safe::modulus, fast::modulus, reduced_input::modulus, reduced_output::modulus"]}
{"id": "C06", "title": "Negation is exact", "statement": "Unary minus that finishes cleanly gives the exact negative of a defined fraction; applying it twice gives back an equal fraction, and unary plus is the identity.", "quantifier": "every policy, representation and in-range defined fraction", "why_tests_cant": "All values of the representation.", "anchors": ["include/ieme/ops.hpp: safe::negate, fast::negate, reduced_input::negate, reduced_output::negate", "include/ieme/fraction.hpp: unary operator+, operator-"]}
{"id": "C07", "title": "Small operands never overflow", "statement": "If every numerator, denominator and integer operand is at most B in absolute value, denominators are non-zero and 2*B*B is representable, then +, *, / , comparisons and unary minus on a signed representation finish without undefined behaviour (so the exactness claims are not vacuous); likewise % with a non-zero right operand. On an unsigned representation +, *, /, % and comparisons do not wrap either.", "quantifier": "every policy, representation, overload, bound B and operands within the bound", "why_tests_cant": "A quantified bound over an infinite family of types and policies; tests cannot show absence of overflow.", "anchors": ["include/ieme/ops.hpp: all operations", "include/ieme/raw_fraction_math.hpp: reduce"]}
{"id": "C08", "title": "Results of output-reducing policies are canonical", "statement": "Under a policy whose outermost output step reduces with sign normalisation (the default policy included), every defined result of +, -, *, /, %, unary minus has a positive denominator and no common factor; every undefined result is exactly 0/0.", "quantifier": "every operation policy (safe, fast, and any nesting of reduced_input / reduced_output in either mode), every integer representation of at least 32 bits, every overload (fraction-fraction, fraction-integer, integer-fraction) and every pair of in-range operands", "why_tests_cant": "Every operation result over every operand.", "anchors": ["include/ieme/ops.hpp: reduced_output, safe_reduced_io, fast_reduced_io, defaults", "include/ieme/raw_fraction_math.hpp: reduce"]}
{"id": "C09", "title": "Operation policies agree", "statement": "If the same operation on the same defined operands finishes cleanly under two policies, both results denote the same rational (or both are undefined, after a division by zero); comparisons for equality return the same Boolean.", "quantifier": "every pair of policies and all operands", "why_tests_cant": "Relates all pairs from an infinite family of policies.", "anchors": ["include/ieme/ops.hpp: safe, fast, reduced_input, reduced_output"]}
{"id": "C10", "title": "Field laws hold for results", "statement": "Whenever the operations involved finish cleanly: addition and multiplication are commutative and associative up to value, multiplication distributes over addition, a - b equals a + (-b), (a / b) * b equals a for non-zero b, and a - a is zero.", "quantifier": "every policy, representation and operands", "why_tests_cant": "Algebraic laws quantify over triples of values.", "anchors": ["include/ieme/ops.hpp: plus, minus, multiplies, divides, negate"]}
{"id": "C11", "title": "Every expression is evaluated exactly", "statement": "For any expression tree built from fractions and integers with +, -, *, /, % and unary minus, of any depth, if evaluation finishes cleanly and no division or modulus by zero occurs, the result is the exact rational value of the expression.", "quantifier": "all expression trees of any size, all policies and representations", "why_tests_cant": "Unbounded expression trees (histories of operations).", "anchors": ["include/ieme/ops.hpp: all arithmetic", "include/ieme/fraction.hpp: arithmetic operators"]}
{"id": "C12", "title": "safe is at least as overflow-resistant as fast", "statement": "For fractions with positive denominators, if fast's +, - or comparison of two fractions finishes without overflow then safe's does too, with an equal value.", "quantifier": "all operands with positive denominators in every representation", "why_tests_cant": "A relation between two programs over all inputs.", "anchors": ["include/ieme/ops.hpp: safe::plus, fast::plus, safe::minus, fast::minus, safe::equal_to, safe::less"]}
{"id": "C13", "title": "Equality is equality of values", "statement": "When `a == b` finishes cleanly on defined operands it is true exactly when the two rational values are equal, whatever the signs and common factors of the representations.", "quantifier": "every operation policy (safe, fast, and any nesting of reduced_input / reduced_output in either mode), every integer representation of at least 32 bits, every overload (fraction-fraction, fraction-integer, integer-fraction) and every pair of in-range operands", "why_tests_cant": "All pairs of representations of all rationals.", "anchors": ["include/ieme/ops.hpp: safe::equal_to, fast::equal_to, reduced_input::equal_to, reduced_output::equal_to"]}
{"id": "C14", "title": "!= is the negation of ==", "statement": "Whenever both finish, `a != b` is exactly the negation of `a == b`, also for undefined operands; one finishes exactly when the other does.", "quantifier": "every operation policy (safe, fast, and any nesting of reduced_input / reduced_output in either mode), every integer representation of at least 32 bits, every overload (fraction-fraction, fraction-integer, integer-fraction) and every pair of in-range operands, defined or not", "why_tests_cant": "All operands including undefined ones.", "anchors": ["include/ieme/ops.hpp: not_equal_to"]}
{"id": "C15", "title": "Ordering is the order of the rationals", "statement": "When `<`, `<=`, `>` or `>=` finishes cleanly on defined operands, the answer is the order of the two rational values.", "quantifier": "every operation policy (safe, fast, and any nesting of reduced_input / reduced_output in either mode), every integer representation of at least 32 bits, every overload (fraction-fraction, fraction-integer, integer-fraction) and every pair of in-range operands", "why_tests_cant": "All sign combinations of denominators in each overload; the tests only order fractions with positive denominators.", "anchors": ["include/ieme/ops.hpp: less, less_equal, greater, greater_equal"]}
{"id": "C16", "title": "Comparisons with an undefined fraction are false", "statement": "If either operand is an undefined fraction, ==, <, <=, > and >= are false and != is true whenever the comparison finishes; for the safe policy itself with fraction-fraction operands it always finishes (a policy that reduces its inputs may still fault on the minimum value).", "quantifier": "every policy, overload, representation and operand pair with at least one undefined", "why_tests_cant": "All undefined representations n/0 against all operands.", "anchors": ["include/ieme/ops.hpp: equal_to, less, less_equal, greater, greater_equal", "include/ieme/raw_fraction_queries.hpp: is_undefined"]}
{"id": "C17", "title": "Ordering is a strict weak order usable for sorting", "statement": "On defined fractions with positive denominators `<` is irreflexive, asymmetric and transitive, incomparability is `==`, and exactly one of a<b, a==b, a>b holds.", "quantifier": "all triples of fractions", "why_tests_cant": "Order axioms quantify over triples.", "anchors": ["include/ieme/ops.hpp: less, equal_to, greater"]}
{"id": "C18", "title": "Comparison operators are mutually consistent", "statement": "a > b iff b < a; a >= b iff b <= a; a <= b iff a < b or a == b; and comparing a fraction with an integer n gives the same answer as comparing it with the fraction n/1.", "quantifier": "every operation policy (safe, fast, and any nesting of reduced_input / reduced_output in either mode), every integer representation of at least 32 bits, every overload (fraction-fraction, fraction-integer, integer-fraction) and every pair of in-range operands", "why_tests_cant": "Consistency across overloads for all operands.", "anchors": ["include/ieme/ops.hpp: less, less_equal, greater, greater_equal overloads"]}
{"id": "C19", "title": "Undefined operands propagate through arithmetic", "statement": "Arithmetic with an undefined operand yields an undefined result without undefined behaviour.", "quantifier": "every policy and arithmetic operation with at least one undefined operand", "why_tests_cant": "All n/0 representations with all partners under all policies.", "anchors": ["include/ieme/ops.hpp: plus, minus, multiplies, divides, modulus, negate"]}
{"id": "C20", "title": "reduce preserves the value", "statement": "reduce in either mode, reduce_normalize_signs, reduce_ignore_signs and normalize_signs give a fraction denoting the same rational; an undefined fraction stays undefined (0/0 after reduce).", "quantifier": "every representation and in-range fraction", "why_tests_cant": "All fractions.", "anchors": ["include/ieme/raw_fraction_math.hpp: reduce, reduce_normalize_signs, reduce_ignore_signs, normalize_signs", "include/ieme/fraction_math.hpp: reduce"]}
{"id": "C21", "title": "reduce gives the unique lowest-terms form", "statement": "The result of reduce (normalising) on a defined fraction has positive denominator and coprime parts, and two defined fractions are equal in value exactly when their reduced forms are identical.", "quantifier": "all pairs of fractions", "why_tests_cant": "Uniqueness of a canonical form over all pairs.", "anchors": ["include/ieme/raw_fraction_math.hpp: reduce", "include/ieme/raw_fraction_queries.hpp: are_identical"]}
{"id": "C22", "title": "reduce is idempotent", "statement": "Reducing a reduced fraction changes nothing and always finishes.", "quantifier": "every fraction and mode", "why_tests_cant": "All fractions.", "anchors": ["include/ieme/raw_fraction_math.hpp: reduce"]}
{"id": "C23", "title": "is_reduced recognises exactly the fixed points of reduce", "statement": "is_reduced(f) is true exactly when f is defined and reduce(f) is identical to f; is_reduced_ignore_signs(f) is true exactly when f is defined and reduce_ignore_signs(f) is identical to f.", "quantifier": "every fraction", "why_tests_cant": "All sign combinations and magnitudes.", "anchors": ["include/ieme/raw_fraction_queries.hpp: is_reduced, is_reduced_ignore_signs"]}
{"id": "C24", "title": "Sign queries are exact", "statement": "is_positive, is_non_negative, is_zero, is_non_positive and is_negative hold exactly when the fraction is defined and its value has that sign; for a defined fraction exactly one of positive, zero, negative holds and for an undefined one none of the five does.", "quantifier": "every fraction, any signs", "why_tests_cant": "All sign patterns.", "anchors": ["include/ieme/raw_fraction_queries.hpp: is_positive, is_non_negative, is_zero, is_non_positive, is_negative, is_defined"]}
{"id": "C25", "title": "is_integer, is_unit_fraction and is_proper are exact", "statement": "When they finish: is_integer(f) iff f is defined with integral value; is_unit_fraction(f) iff f is defined and its value is 1/k for a non-zero integer k; is_proper(f) iff f is defined with |value| < 1; is_improper is its negation. They fail only on the minimum signed value.", "quantifier": "every fraction", "why_tests_cant": "All fractions, including extreme values.", "anchors": ["include/ieme/raw_fraction_queries.hpp: is_integer, is_unit_fraction, is_proper, is_improper", "include/ieme/math_utilities.hpp: abs"]}
{"id": "C26", "title": "reciprocal inverts and is an involution", "statement": "reciprocal swaps the parts: the value is the inverse for a non-zero fraction, the reciprocal of zero is undefined, and reciprocal twice is the identity; it never fails.", "quantifier": "every fraction", "why_tests_cant": "All fractions.", "anchors": ["include/ieme/raw_fraction_math.hpp: reciprocal", "include/ieme/fraction_math.hpp: reciprocal"]}
{"id": "C27", "title": "abs is the absolute value", "statement": "abs that finishes cleanly on a defined fraction is defined, is_non_negative and has value |v|; abs is idempotent up to value.", "quantifier": "every policy and fraction", "why_tests_cant": "All fractions.", "anchors": ["include/ieme/fraction_math.hpp: abs"]}
{"id": "C28", "title": "normalize_signs makes the denominator positive", "statement": "normalize_signs on a defined fraction, when it finishes cleanly, gives a positive denominator and the same value; it is the identity on fractions with positive denominator; on a signed type it can only fail when a part is the minimum value.", "quantifier": "every fraction", "why_tests_cant": "All fractions.", "anchors": ["include/ieme/raw_fraction_math.hpp: normalize_signs"]}
{"id": "C29", "title": "trunc rounds towards zero", "statement": "trunc(f), when it finishes, is the integer obtained by discarding the fractional part of the value: |trunc| <= |v| < |trunc| + 1 with the sign of v.", "quantifier": "every defined fraction", "why_tests_cant": "All fractions.", "anchors": ["include/ieme/fraction_math.hpp: trunc"]}
{"id": "C30", "title": "floor is the greatest integer not above the value", "statement": "floor(f) <= v < floor(f) + 1 for every defined fraction for which it finishes.", "quantifier": "every defined fraction", "why_tests_cant": "Tests never use a value strictly between -1 and 0.", "anchors": ["include/ieme/fraction_math.hpp: floor"]}
{"id": "C31", "title": "ceil is the least integer not below the value", "statement": "ceil(f) - 1 < v <= ceil(f) for every defined fraction for which it finishes.", "quantifier": "every defined fraction", "why_tests_cant": "Tests never use a value strictly between -1 and 0.", "anchors": ["include/ieme/fraction_math.hpp: ceil"]}
{"id": "C32", "title": "round is the nearest integer, ties upwards", "statement": "|round(f) - v| <= 1/2, with ties going to the larger integer, for every defined fraction for which it finishes.", "quantifier": "every policy and defined fraction", "why_tests_cant": "All fractions; tests use six.", "anchors": ["include/ieme/fraction_math.hpp: round"]}
{"id": "C33", "title": "to_whole and redenominate dispatch on the rounding mode", "statement": "to_whole(f, mode) equals trunc, ceil, floor or round of f according to mode, and redenominate(f, d, mode) equals the matching *_redenominate; the default mode is round.", "quantifier": "every fraction, denominator and mode", "why_tests_cant": "All inputs.", "anchors": ["include/ieme/fraction_math.hpp: to_whole, redenominate, round_mode"]}
{"id": "C34", "title": "redenominate is the nearest representable fraction in the requested direction", "statement": "*_redenominate(f, d) for d != 0 has denominator exactly d; trunc gives n/d closest to v not exceeding it in magnitude, floor the largest n/d <= v, ceil the smallest n/d >= v, round an n/d with |n/d - v| <= 1/(2|d|); if v is already a multiple of 1/d, the value is unchanged in all four modes.", "quantifier": "every policy, fraction and non-zero denominator, positive or negative", "why_tests_cant": "All fractions and denominators.", "anchors": ["include/ieme/fraction_math.hpp: trunc_redenominate, ceil_redenominate, floor_redenominate, round_redenominate"]}
{"id": "C35", "title": "pow2 is exact", "statement": "pow2(e) has value 2^e for every integer exponent for which 2^|e| is representable, and is never a defined wrong value.", "quantifier": "every representation and int exponent", "why_tests_cant": "All exponents in all widths; tests use four.", "anchors": ["include/ieme/fraction_math.hpp: pow2", "include/ieme/math_utilities.hpp: pow2"]}
{"id": "C36", "title": "pow is exact and fails only when the power does not fit", "statement": "pow(b, e) denotes b^e; for a signed type it finishes exactly when b^|e| is representable; the reciprocal form is undefined exactly when b = 0 and e < 0. (e = INT_MIN is excluded: negating it is undefined behaviour for every base.)", "quantifier": "every base and every int exponent but the smallest", "why_tests_cant": "All bases and exponents, via a recursive function.", "anchors": ["include/ieme/fraction_math.hpp: pow", "include/ieme/math_utilities.hpp: pow"]}
{"id": "C37", "title": "Integer power on unsigned types is modular and always terminates", "statement": "math_utilities::pow terminates for every exponent (negative ones included, answering 1) and, for an unsigned type and a non-negative exponent, returns b^e modulo 2^w.", "quantifier": "every base and exponent", "why_tests_cant": "Termination and modular behaviour for all inputs.", "anchors": ["include/ieme/math_utilities.hpp: pow"]}
{"id": "C38", "title": "Changing the representation preserves the value when it fits", "statement": "Converting a fraction to another representation type keeps numerator and denominator, hence the value, when both fit the target; otherwise each part is reduced modulo 2^w without error.", "quantifier": "every pair of representation types and every fraction", "why_tests_cant": "All pairs of types and values.", "anchors": ["include/ieme/raw_fraction.hpp: converting constructor", "include/ieme/fraction.hpp: converting constructors"]}
{"id": "C39", "title": "Mixed-representation operations are exact when operands fit the common type", "statement": "For operands of different integer types, arithmetic and == equal the exact rational operation whenever every part fits std::common_type and the operation finishes cleanly.", "quantifier": "all pairs of types and operands", "why_tests_cant": "All pairs of types and values.", "anchors": ["include/ieme/fraction.hpp: IEME_DO_FRACTION_AND_FRACTION_OP, IEME_DO_FRACTION_AND_REP_OP, IEME_DO_REP_AND_FRACTION_OP"]}
{"id": "C40", "title": "Compound assignment equals the binary operator", "statement": "`a op= b` leaves in a exactly what `a op b` yields when the types agree; with a different right type it equals `a op (b converted to a's type)`; any sequence of compound assignments accumulates the exact sum/product as long as it finishes cleanly.", "quantifier": "all operands and all sequences of assignments", "why_tests_cant": "Sequences of any length.", "anchors": ["include/ieme/fraction.hpp: IEME_DEFINE_FRACTION_COMPOUND_ASSIGNMENT_OPS"]}
{"id": "C41", "title": "Construction from std::ratio is exact and canonical", "statement": "A fraction constructed from std::ratio<N, D> has value N/D, positive denominator and coprime parts, whenever the program is well formed.", "quantifier": "every N and non-zero D and representation", "why_tests_cant": "All ratios.", "anchors": ["include/ieme/fraction.hpp: fraction(std::ratio)"]}
{"id": "C42", "title": "mixed_number construction preserves the value", "statement": "whole + fractional of a constructed mixed number equals whole + fraction passed in, and a mixed number built from a fraction has exactly that value, whenever construction finishes cleanly.", "quantifier": "every policy, every pair of representations, all whole parts and fractions", "why_tests_cant": "All values incl. carries between parts.", "anchors": ["include/ieme/mixed_number.hpp: mixed_number constructors, fix"]}
{"id": "C43", "title": "mixed_number invariant: proper part with agreeing sign", "statement": "After construction or any operation the fractional part is proper and never has the opposite sign of a non-zero whole part.", "quantifier": "every reachable mixed number: any sequence of constructions, additions and negations", "why_tests_cant": "Invariant over arbitrary operation histories.", "anchors": ["include/ieme/mixed_number.hpp: fix, operator+, operator-"]}
{"id": "C44", "title": "mixed_number addition is exact", "statement": "Adding mixed numbers, a fraction or an integer (either order) gives the exact sum when it finishes cleanly.", "quantifier": "all operands", "why_tests_cant": "All operands.", "anchors": ["include/ieme/mixed_number.hpp: operator+"]}
{"id": "C45", "title": "mixed_number negation is exact", "statement": "Negation gives the exact negative; twice gives the same value.", "quantifier": "all mixed numbers", "why_tests_cant": "All values.", "anchors": ["include/ieme/mixed_number.hpp: unary operator-"]}
{"id": "C46", "title": "fraction to mixed_number and back is the identity on values", "statement": "as_fraction of the mixed number made from f equals f in value when both finish cleanly.", "quantifier": "all policies and fractions", "why_tests_cant": "Round trip over all fractions.", "anchors": ["include/ieme/mixed_number.hpp: mixed_number(fraction), as_fraction, conversion operator"]}
{"id": "C47", "title": "mixed_number with an undefined fractional part stays undefined", "statement": "Constructing a mixed number from an undefined fraction yields a mixed number whose value is undefined, without undefined behaviour.", "quantifier": "every whole part and undefined fraction", "why_tests_cant": "All undefined representations.", "anchors": ["include/ieme/mixed_number.hpp: fix, constructors"]}
{"id": "C48", "title": "Stream output then input is the identity", "statement": "Writing a fraction to a stream and reading it back gives the identical numerator and denominator, leaves the stream good or at end, and consumes exactly the written text.", "quantifier": "every in-range numerator and denominator of every representation, any previous value of the target, any whitespace before, any text following that does not begin with a digit", "why_tests_cant": "All values; round trip.", "anchors": ["include/ieme/raw_fraction.hpp: operator<<, operator>>", "include/ieme/fraction.hpp: operator<<, operator>>"]}
{"id": "C49", "title": "Malformed stream input sets failbit", "statement": "Reading from text that does not contain an integer, a later slash and an integer sets failbit; reading never succeeds silently with an out-of-range or missing part.", "quantifier": "every input text", "why_tests_cant": "All texts.", "anchors": ["include/ieme/raw_fraction.hpp: operator>>"]}
{"id": "C50", "title": "Scanning a literal never reads out of bounds", "statement": "scan_floating_point_string performs no out-of-range string_view access on any input.", "quantifier": "every character string of any length", "why_tests_cant": "Memory safety for all strings.", "anchors": ["include/ieme/parse_utilities.hpp: scan_floating_point_string"]}
{"id": "C51", "title": "The accepted language is exactly the C++ floating literals with a radix point", "statement": "The scanner accepts exactly the strings matching the C++ grammar for decimal/hexadecimal floating literals that contain a radix point and no suffix. Every other string converts to an undefined fraction, and an accepted string whose conversion finishes cleanly converts to a defined one.", "quantifier": "every character string", "why_tests_cant": "Infinite set of strings.", "anchors": ["include/ieme/parse_utilities.hpp: scan_floating_point_string, is_valid_digit_sequence", "include/ieme/floating_point.hpp: floating_point_string_to_fraction"]}
{"id": "C52", "title": "Every C++ floating literal is accepted", "statement": "Every string that is a C++ floating literal without suffix is accepted by floating_point_string_to_fraction.", "quantifier": "every character string in the C++ grammar", "why_tests_cant": "Infinite set of strings.", "anchors": ["include/ieme/parse_utilities.hpp: scan_floating_point_string"]}
{"id": "C53", "title": "A parsed literal has exactly its mathematical value", "statement": "If conversion of an accepted string finishes cleanly, the fraction is exactly (whole + fraction digits) * base^exponent.", "quantifier": "every accepted string, policy and representation", "why_tests_cant": "All strings of all lengths.", "anchors": ["include/ieme/floating_point.hpp: floating_point_string_to_fraction", "include/ieme/parse_utilities.hpp: digit_sequence_to_int"]}
{"id": "C54", "title": "Digit sequences are recognised and evaluated exactly", "statement": "is_valid_digit_sequence accepts exactly digit (optional-separator digit)*, and digit_sequence_to_int returns the positional value, ignoring separators.", "quantifier": "every sequence, base 10 or 16", "why_tests_cant": "Sequences of any length.", "anchors": ["include/ieme/parse_utilities.hpp: is_valid_digit_sequence, digit_sequence_to_int"]}
{"id": "C55", "title": "Representable digit sequences convert without overflow", "statement": "digit_sequence_to_int finishes for every digit sequence whose value fits the target type.", "quantifier": "every digit sequence and type", "why_tests_cant": "All sequences; the boundary is at the type's limit.", "anchors": ["include/ieme/parse_utilities.hpp: digit_sequence_to_int"]}
{"id": "C56", "title": "The _dec literal is defined or throws", "statement": "operator\"\"_dec returns a defined fraction for accepted strings and throws for every other string; it never returns an undefined fraction.", "quantifier": "every character string", "why_tests_cant": "All strings.", "anchors": ["include/ieme/fraction_literals.hpp: operator\"\"_dec"]}
{"id": "C57", "title": "Digit separators do not change a literal", "statement": "Removing every digit separator from an accepted literal leaves it accepted and does not change the result.", "quantifier": "every accepted string", "why_tests_cant": "All strings.", "anchors": ["include/ieme/parse_utilities.hpp: is_valid_digit_sequence, digit_sequence_to_int, scan_floating_point_string"]}
{"id": "C58", "title": "Conversion from a normal float or double is exact", "statement": "to_fraction of a finite normal float/double, when it finishes cleanly, is exactly the IEEE value.", "quantifier": "every bit pattern of a normal number, every policy and representation", "why_tests_cant": "2^64 bit patterns.", "anchors": ["include/ieme/floating_point.hpp: to_fraction, floating_point_to_fraction"]}
{"id": "C59", "title": "Zero and subnormals convert exactly", "statement": "to_fraction of +0, -0 and every subnormal number finishes and is the IEEE value.", "quantifier": "every such bit pattern", "why_tests_cant": "All patterns; tests contain no zero.", "anchors": ["include/ieme/floating_point.hpp: floating_point_to_fraction"]}
{"id": "C60", "title": "NaN and infinities convert to undefined", "statement": "to_fraction of any NaN or infinity yields an undefined fraction.", "quantifier": "every NaN payload, both infinities", "why_tests_cant": "All NaN payloads.", "anchors": ["include/ieme/floating_point.hpp: floating_point_to_fraction"]}
{"id": "C61", "title": "Conversion to floating point is correctly rounded for exactly representable parts", "statement": "If the reduced numerator and denominator are exactly representable in the floating type, to_float/to_double/to_long_double is the correctly rounded (nearest, ties to even) value of the fraction; an undefined fraction gives NaN.", "quantifier": "every fraction and floating format", "why_tests_cant": "All fractions.", "anchors": ["include/ieme/floating_point.hpp: fraction_to_floating_point, to_float, to_double, to_long_double"]}
{"id": "C62", "title": "Dyadic fractions round-trip through floating point", "statement": "For fractions that the format represents exactly, to_fraction(to_float(f)) has the value of f when it finishes cleanly.", "quantifier": "all such fractions", "why_tests_cant": "All values.", "anchors": ["include/ieme/floating_point.hpp: to_fraction, fraction_to_floating_point"]}
{"id": "C63", "title": "Float conversion does not depend on byte order", "statement": "to_fraction gives the IEEE value on little- and big-endian targets alike.", "quantifier": "both byte orders, every bit pattern", "why_tests_cant": "The test machine has one byte order.", "anchors": ["include/ieme/floating_point.hpp: floating_point_to_fraction offsets"]}
{"id": "C64", "title": "Equal fractions hash equal", "statement": "If a == b then hash(a) == hash(b), as std::unordered_map requires.", "quantifier": "all pairs of fractions, every std::hash<Rep> and every width of std::size_t", "why_tests_cant": "All pairs of equal fractions.", "anchors": ["include/ieme/hash.hpp: hash"]}
{"id": "C65", "title": "Hash depends only on the representation", "statement": "Identical fractions and mixed numbers hash equally, and under a canonical (output-reducing) policy results that compare equal hash equally.", "quantifier": "all fractions", "why_tests_cant": "All pairs.", "anchors": ["include/ieme/hash.hpp: hash, hash_combine"]}
{"id": "C66", "title": "limits bound every fraction", "statement": "Every defined fraction f of the representation satisfies min() <= f <= max(), and every positive one satisfies smallest() <= f; undefined() is undefined.", "quantifier": "every in-range fraction", "why_tests_cant": "All fractions.", "anchors": ["include/ieme/limits.hpp: limits::min, max, smallest, undefined"]}
{"id": "C67", "title": "Duration conversion to fractional durations is exact", "statement": "Converting an integer duration with any period to a fractional duration with any period gives exactly count * from_period / to_period when it finishes cleanly.", "quantifier": "all counts, all period ratios, all policies", "why_tests_cant": "All counts and ratios.", "anchors": ["include/ieme/chrono.hpp: duration, to_fractional, treat_as_floating_point"]}
{"id": "C68", "title": "Fractional duration conversion round-trips", "statement": "Converting a fractional duration to another period and back gives an equal count; converting through an intermediate period equals converting directly.", "quantifier": "all counts and all periods", "why_tests_cant": "All counts and periods.", "anchors": ["include/ieme/chrono.hpp: duration, time_point, to_fractional"]}
{"id": "C69", "title": "Fraction literals denote what they show", "statement": "`n / d_fr` is the fraction with exactly those parts when d fits the numerator's type, `n / -d_fr` negates the denominator, and `f / d_fr` equals f divided by d.", "quantifier": "every numerator and denominator literal", "why_tests_cant": "All values.", "anchors": ["include/ieme/fraction_literals.hpp: operator\"\"_fr, operator/, unary operators"]}
{"id": "C70", "title": "Fractions keep their parts", "statement": "Constructors and accessors store and return parts unchanged: fraction(n, d) has numerator n and denominator d, fraction(n) has denominator 1, the default is 0/1, and are_identical is exactly equality of both parts (an equivalence relation, finer than ==).", "quantifier": "all values", "why_tests_cant": "All values.", "anchors": ["include/ieme/fraction.hpp: constructors, accessors", "include/ieme/raw_fraction_queries.hpp: are_identical, are_different"]}
{"id": "C71", "title": "All finished results are in range", "statement": "Every arithmetic operation of every policy that finishes on in-range operands (with or without unsigned wrap-around) returns parts that are in range of the representation type.", "quantifier": "every policy, representation, overload and operands", "why_tests_cant": "Closure for all inputs.", "anchors": ["include/ieme/ops.hpp: all arithmetic", "include/ieme/raw_fraction_math.hpp: reduce"]}
{"id": "C72", "title": "Positive denominators stay positive", "statement": "If every fraction among the operands has a positive denominator, so has the result of every arithmetic operation, and of every expression built from them.", "quantifier": "every policy, representation, operation, operands and expression", "why_tests_cant": "The sign of a result's denominator decides whether later comparisons are right; only some divisions show the failure.", "anchors": ["include/ieme/ops.hpp: safe_ops, fast_ops, input_and_output_reduced_ops"]}
{"id": "C73", "title": "The hash separates fractions that differ in one part", "statement": "Two fractions of the same type that differ only in the numerator, or only in the denominator, have different hashes (with libstdc++'s std::hash). Exactly: with a std::size_t of z bits, fractions with the same denominator hash equally if and only if their numerators differ by a multiple of 2^z, and fractions with the same numerator if and only if their denominators differ by a multiple of 2^(z-1). The hash with a narrower std::size_t consists of the low bits of the hash with a wider one.", "quantifier": "all fractions, every width of std::size_t", "why_tests_cant": "Pairs of 64-bit values cannot be enumerated.", "anchors": ["include/ieme/hash.hpp: hash, hash_combine"]}
{"id": "C74", "title": "Conversion to floating point respects order, value and sign", "statement": "If f <= g then the floating-point conversion of f is at most that of g; fractions with the same value give the same floating-point number; fractions with opposite values give numbers that differ in the sign bit only.", "quantifier": "all fractions, representations and floating-point formats", "why_tests_cant": "Pairs of fractions times formats; the failures need parts wider than the significand.", "anchors": ["include/ieme/floating_point.hpp: fraction to floating point conversions"]}
{"id": "C75", "title": "A failed extraction leaves its target alone", "statement": "operator>> that sets failbit leaves the fraction as it was, and never leaves parts outside the type's range.", "quantifier": "every input text and stream state", "why_tests_cant": "All texts.", "anchors": ["include/ieme/raw_fraction.hpp: operator>>"]}
{"id": "C76", "title": "A sequence of fractions written to a stream reads back", "statement": "Fractions written one after another with whitespace before each are read back in order, leaving exactly the text behind them.", "quantifier": "every list of fractions and every choice of whitespace", "why_tests_cant": "Lists of arbitrary length.", "anchors": ["include/ieme/raw_fraction.hpp: operator<<, operator>>"]}
{"id": "C77", "title": "Mixed-number results have one form", "statement": "Under an output-reducing policy two mixed-number expressions with the same exact value give identical mixed numbers; under every policy the whole part is the exact value rounded towards zero.", "quantifier": "all expressions over mixed numbers", "why_tests_cant": "Expressions of any size.", "anchors": ["include/ieme/mixed_number.hpp: mixed_number, arithmetic operators, simplify"]}
{"id": "C78", "title": "Redenominating twice changes nothing", "statement": "Redenominating to a denominator, in any mode, and then again to the same denominator in any mode gives the same fraction.", "quantifier": "all fractions, denominators, modes and policies", "why_tests_cant": "All combinations.", "anchors": ["include/ieme/fraction_math.hpp: trunc_redenominate, ceil_redenominate, floor_redenominate, round_redenominate"]}
{"id": "C79", "title": "trunc, floor, ceil and round agree with one another", "statement": "floor <= trunc <= ceil; floor and ceil agree on integers and differ by one elsewhere; round is floor or one more; all four leave integers fixed.", "quantifier": "all fractions and policies", "why_tests_cant": "All fractions.", "anchors": ["include/ieme/fraction_math.hpp: trunc, floor, ceil, round"]}
{"id": "C80", "title": "Quotient and remainder recompose the dividend", "statement": "b * trunc(a / b) + a % b has the value of a whenever every step finishes cleanly.", "quantifier": "all fractions and policies", "why_tests_cant": "All pairs.", "anchors": ["include/ieme/ops.hpp: modulus, divides", "include/ieme/fraction_math.hpp: trunc"]}
{"id": "C81", "title": "The order of a sum or product does not matter", "statement": "Adding or multiplying the same list of fractions onto a fraction in two different orders gives the same value, and identical fractions under an output-reducing policy.", "quantifier": "every list, every permutation, every policy", "why_tests_cant": "Lists of arbitrary length.", "anchors": ["include/ieme/fraction.hpp: operator+=, operator*=", "include/ieme/ops.hpp: plus, multiplies"]}
{"id": "C82", "title": "Letter case in literals does not matter", "statement": "Changing prefix, hexadecimal digits and exponent marker of a literal to lower case gives the same outcome.", "quantifier": "every floating-point literal with a radix point, every type and policy", "why_tests_cant": "All literals.", "anchors": ["include/ieme/floating_point.hpp: floating_point_string_to_fraction", "include/ieme/fraction_literals.hpp: operator\"\"_dec"]}
{"id": "C83", "title": "Leading and trailing zeros in literals do not matter", "statement": "Zeros put before the whole part or behind the fraction of a literal do not change the outcome.", "quantifier": "every floating-point literal with a radix point, any number of zeros", "why_tests_cant": "All literals and all numbers of zeros.", "anchors": ["include/ieme/floating_point.hpp: floating_point_string_to_fraction"]}
{"id": "C84", "title": "Cancelling common factors never loses a result", "statement": "If an arithmetic operator or comparison finishes without overflow on operands with common factors, it finishes on the operands without them, with the same value. Consequently reduced_input never loses a result of the policy inside it, when no part is the minimum value and it ignores signs or the denominators are positive.", "quantifier": "every policy and nesting, overload, operator, operands, common factor and representation", "why_tests_cant": "Overflow depends on the size of every intermediate value; the claim compares two runs for all operands.", "anchors": ["include/ieme/ops.hpp: safe, fast, reduced_input", "include/ieme/raw_fraction_math.hpp: reduce"]}
{"id": "C85", "title": "safe and fast finish exactly when their intermediate values fit, with exactly predicted parts", "statement": "fast returns the cross-multiplied parts (an integer n counting as n/1), safe the same except that +, - and % of two fractions are over the least common denominator; each finishes without overflow exactly when the stated intermediate values are representable. Comparisons compare the cross products, or the numerators over the least common denominator, under the same conditions.", "quantifier": "every operator, overload, operands and representation", "why_tests_cant": "The set of inputs that overflow is a sharp boundary among 2^128 operand pairs.", "anchors": ["include/ieme/ops.hpp: safe, fast"]}
{"id": "C86", "title": "Unsigned arithmetic under fast never fails", "statement": "For an unsigned representation +, -, * and / under fast always finish, and each part of the result is the exact part modulo 2^bits.", "quantifier": "every unsigned representation, overload and operands, in range or not", "why_tests_cant": "All operands including those that wrap several times.", "anchors": ["include/ieme/ops.hpp: fast"]}
{"id": "C87", "title": "Arithmetic on fractional durations is exact", "statement": "Adding, subtracting, dividing and taking the remainder of two durations with any periods, +=, -=, negation and scaling by integers or fractions give exactly the right length of time; the common type has the longest period of which both periods are whole multiples; the compiler rejects the operation exactly when that period or a conversion factor does not fit std::intmax_t.", "quantifier": "all counts, all pairs of periods, all policies and representations", "why_tests_cant": "All counts and all pairs of ratios.", "anchors": ["include/ieme/chrono.hpp: duration, time_point", "include/ieme/ops.hpp: all arithmetic"]}
{"id": "C88", "title": "Fractional durations compare by length", "statement": "Each of the six comparisons of two durations with any periods answers whether the lengths are so related.", "quantifier": "all counts, all pairs of periods, all policies and representations", "why_tests_cant": "All counts and periods; the failure needs a negative denominator.", "anchors": ["include/ieme/chrono.hpp: duration, time_point", "include/ieme/ops.hpp: comparisons"]}
{"id": "C89", "title": "numeric_limits epsilon is the gap above one", "statement": "std::numeric_limits<fraction>::epsilon() is the difference between one and the least representable value greater than one.", "quantifier": "every representation", "why_tests_cant": "The least value above one is a minimum over 2^128 fractions.", "anchors": ["include/ieme/limits.hpp: std::numeric_limits<ieme::fraction>::epsilon"]}
{"id": "C90", "title": "Policy templates compose as documented", "statement": "reduce finishes exactly when the fraction is undefined or both parts have representable absolute values, and cancels exactly the common factors (and the sign in normalize_signs mode). reduced_output<O> finishes exactly when O does with a reducible result and returns it reduced; reduced_input<O> exactly when the operands are reducible and O finishes on the reduced ones; comparisons and negation likewise. The named aliases and the default are the documented nestings.", "quantifier": "every policy and nesting, mode, operation, overload, operands and representation", "why_tests_cant": "All nestings of policies; the failing operands are single values out of 2^64.", "anchors": ["include/ieme/ops.hpp: reduced_input, reduced_output, safe_reduced_io and the other aliases", "include/ieme/raw_fraction_math.hpp: reduce"]}
{"id": "C91", "title": "Every function returns values of its result type", "statement": "Whatever finishes, with or without unsigned wrap-around, returns parts in range of the result type: the operators return fractions over the common type, compound assignments over the left operand's type, and abs, rounding, redenominating, pow, mixed-number expressions, text, literal, floating-point and duration conversions likewise.", "quantifier": "every function, policy, type, operands, texts, bit patterns and periods", "why_tests_cant": "Closure for all inputs; a missing conversion shows only for values near the limits of a type.", "anchors": ["include/ieme/fraction.hpp: operators, compound assignment", "include/ieme/fraction_math.hpp: all functions", "include/ieme/mixed_number.hpp: mixed_number", "include/ieme/floating_point.hpp: conversions", "include/ieme/chrono.hpp: duration"]}
{"id": "C92", "title": "The rounding functions give exactly the documented integer, and finish exactly when they should", "statement": "trunc, floor, ceil and round finish without overflow exactly under a stated condition on the parts and the policy, and then return exactly that integer; the four redenominating functions return exactly that integer of f * d over d, and finish exactly when the scaling and the conversion fit.", "quantifier": "every defined fraction, policy, representation, denominator and mode", "why_tests_cant": "The inputs that overflow are isolated points near the limits of the type.", "anchors": ["include/ieme/fraction_math.hpp: trunc, floor, ceil, round, trunc_redenominate, ceil_redenominate, floor_redenominate, round_redenominate"]}
{"id": "C93", "title": "Mixed numbers: exactly when they can be made, and with which parts", "statement": "Constructing a mixed number from a whole part and a fraction, making one from a fraction, converting one to a fraction, negating and adding finish without overflow exactly under the stated conditions, and then have exactly the stated whole part and fraction.", "quantifier": "every whole part, defined fraction, policy and pair of types", "why_tests_cant": "The inputs that overflow are isolated points near the limits of two types.", "anchors": ["include/ieme/mixed_number.hpp: mixed_number, as_fraction, unary minus, addition"]}
{"id": "C94", "title": "Literals: exactly when they convert, and with which parts", "statement": "A floating-point literal converts without overflow exactly when the base to the number of digits of whole part and of fraction, and the power for the exponent, are representable, the exponent has at most nine digits, and the two operations under the policy finish; under fast and safe the parts are given in closed form; under output-normalising policies, and for _dec, they are the value in lowest terms.", "quantifier": "every literal with a radix point, policy and representation", "why_tests_cant": "The literals that overflow form a sharp boundary in an infinite set.", "anchors": ["include/ieme/floating_point.hpp: floating_point_string_to_fraction", "include/ieme/parse_utilities.hpp: digit_sequence_to_int", "include/ieme/fraction_literals.hpp: operator\"\"_dec"]}
{"id": "C95", "title": "Floating-point numbers: exactly when they convert, and with which parts", "statement": "to_fraction of a NaN gives 0/0 exactly when 2^mantissa bits is representable; of every other bit pattern it finishes exactly when that and the power for the exponent are representable, the sign fits and three operations under the policy finish; under fast and safe the parts are given in closed form; under output-normalising policies a normal number becomes its value in lowest terms.", "quantifier": "every bit pattern, format, policy and representation", "why_tests_cant": "2^64 bit patterns times types and policies; overflow is a sharp boundary.", "anchors": ["include/ieme/floating_point.hpp: to_fraction, floating_point_to_fraction"]}
{"id": "C96", "title": "The default policy, completely, in terms of values", "statement": "Under the default policy an arithmetic operation on operands with values x and y finishes without overflow exactly when the operand parts have representable absolute values and the intermediate values computed from x and y in lowest terms are representable; the result is the exact value in lowest terms with positive denominator. Comparisons of two fractions likewise. Operands whose parts do not exceed B with 2*B*B representable never overflow.", "quantifier": "every operator, overload, defined operands and representation (fractions that meet an integer have positive denominators)", "why_tests_cant": "The operands that overflow are a sharp boundary among 2^256 pairs.", "anchors": ["include/ieme/ops.hpp: default_ops, safe_reduced_io", "include/ieme/raw_fraction_math.hpp: reduce"]}
{"id": "C97", "title": "What can go wrong in each function", "statement": "Every function either finishes or fails in one of a few listed ways. Signed types overflow or violate the precondition of std::gcd, unsigned types never do; std::lcm's precondition can be violated by all. On signed types an operator divides by zero only for % with a zero on the right or for undefined operands, comparisons, negation, queries, reduction, literal and floating-point conversions never do, rounding functions exactly for undefined fractions, and an expression only when it has no value. fast fails only by signed overflow or the division by zero of %.", "quantifier": "every function, policy, operands and representation", "why_tests_cant": "Absence of a kind of undefined behaviour on all inputs cannot be observed by running some.", "anchors": ["include/ieme/ops.hpp: safe, fast, reduced_input, reduced_output", "include/ieme/fraction_math.hpp: all functions", "include/ieme/mixed_number.hpp: mixed_number", "include/ieme/floating_point.hpp: conversions", "include/ieme/chrono.hpp: duration"]}
{"id": "C98", "title": "Stream output and input agree under every formatting", "statement": "Whatever base flags, showbase, showpos, uppercase, adjustment, width and skipws a stream has, a fraction written to it is read back with the same flags as it was. Decimal text is the number, octal and hexadecimal text the number modulo 2^bits; the width applies to the numerator alone; with default flags these are the plain operators.", "quantifier": "every combination of flags, width, fraction, representation, preceding whitespace and following text", "why_tests_cant": "All flags times all widths times all fractions.", "anchors": ["include/ieme/raw_fraction.hpp: operator<<, operator>>"]}
{"id": "C99", "title": "The default policy is the one configured, and literals keep their value under each", "statement": "ops::defaults is the policy named by the macro IEME_DEFAULT_OPS_\u2026 that is defined, the first in the order safe before fast, plain before reduced when several are, and safe_reduced_io when none is. Under every configuration _dec throws for exactly the strings that are not floating-point literals, returns otherwise the exact value of the literal if anything, and finishes when the digits scaled by the exponent fit; configurations that reduce results return lowest terms.", "quantifier": "every combination of the eight macros, every string", "why_tests_cant": "256 configurations, each a separate build, times all strings.", "anchors": ["include/ieme/ops.hpp:518-536", "include/ieme/fraction_literals.hpp: operator\"\"_dec"]}
{"id": "C100", "title": "A wider representation never changes a result", "statement": "Whatever an operator, comparison, expression, sequence of assignments, rounding or power function, query, mixed-number operation, literal, floating-point conversion or duration operation returns cleanly with one representation, it returns, part for part, with every representation that has all values of the first; in particular it does not fail there. One type has all values of another exactly when it is at least as wide with the same signedness or wider, signed and the other unsigned.", "quantifier": "all pairs of integer types of which one has all values of the other, all policies, all operands", "why_tests_cant": "Pairs of types times all operands; a test fixes one pair.", "anchors": ["include/ieme/ops.hpp", "include/ieme/fraction.hpp", "include/ieme/fraction_math.hpp", "include/ieme/mixed_number.hpp", "include/ieme/floating_point.hpp", "include/ieme/parse_utilities.hpp", "include/ieme/chrono.hpp"]}
{"id": "C101", "title": "The order of evaluation does not matter", "statement": "C++ does not fix the order in which operands and arguments are evaluated. For reduction, negation, every operator and policy, every expression and compound assignment, the rounding functions, redenomination and powers, mixed numbers, decimal strings and conversions from floating point: every permitted order, interleavings included, returns the same value or every one fails; only which failure comes first can differ. The exponent arithmetic of pow never leaves the representation.", "quantifier": "all evaluation orders, all integer types, all policies, all operands, all expressions", "why_tests_cant": "A compiler fixes one order; a test on one compiler never sees the others.", "anchors": ["include/ieme/ops.hpp", "include/ieme/fraction.hpp", "include/ieme/fraction_math.hpp", "include/ieme/mixed_number.hpp", "include/ieme/floating_point.hpp"]}
{"id": "C102", "title": "Extraction under any formatting flags", "statement": "Under every combination of base and whitespace flags, extraction of a fraction succeeds exactly when the text is an integer as the flags allow, something without a slash, a slash and another such integer, and the type accepts both; value, rest and end-of-file state are then determined. Otherwise the target holds exactly what the way of failing says. With hexadecimal or no base flag the mark 0x is recognized, without base flag a leading zero selects octal.", "quantifier": "all texts, all flags, all integer types, all targets", "why_tests_cant": "The set of texts is infinite; tests use the default formatting only.", "anchors": ["include/ieme/raw_fraction.hpp: operator>>"]}
{"id": "C103", "title": "User-defined policies", "statement": "fraction<Rep, Ops> accepts any class as Ops. A contract on such a class - where its arithmetic functions finish cleanly on defined operands with a defined result, that result has the type and the exact value - holds if and only if every expression that finishes has its exact value. Under it compound assignments, abs, redenomination, mixed-number expressions, strings, normal floating-point numbers and durations are exact, and round is exactly as right as with the library's policies if the class also compares correctly. All policies of the library meet it, reduced_input and reduced_output preserve it, reduced_input with normalized signs extends it from operands in lowest terms to all, and reduced_output with normalized signs returns only canonical fractions or 0/0 around any class at all.", "quantifier": "all policies as arbitrary functions, all types, all operands, all expressions", "why_tests_cant": "The policy is a template parameter: tests instantiate finitely many of infinitely many classes.", "anchors": ["include/ieme/fraction.hpp: fraction", "include/ieme/fraction.hpp: IEME_DO_FRACTION_AND_FRACTION_OP", "include/ieme/ops.hpp: reduced_input", "include/ieme/ops.hpp: reduced_output"]}
{"id": "C104", "title": "Conversion to floating point in every rounding direction", "statement": "Whatever rounding direction a program has selected (to nearest, upward, downward, toward zero), to_float, to_double and to_long_double give the value of the fraction correctly rounded in that direction, so that converting downward and upward brackets the value by neighbouring numbers. Exactly representable fractions are converted exactly and round-trip in each direction, the direction has no influence on whether the conversion finishes, and downward equals toward zero for fractions that are not negative. Correct rounding holds exactly when the fraction and the quotient of its rounded parts round to the same number; bracketing needs only a representable denominator, and fractions with the same denominator keep their order whatever their parts.", "quantifier": "all four directions, all formats, all representations, all fractions", "why_tests_cant": "Four directions times all pairs of parts; the defect shows only when a part has more bits than the significand.", "anchors": ["include/ieme/floating_point.hpp: fraction_to_floating_point", "include/ieme/floating_point.hpp: to_float, to_double, to_long_double"]}
{"id": "C105", "title": "The error of conversion to floating point is bounded", "statement": "For every defined non-zero fraction, whether or not its parts are representable, to_float, to_double and to_long_double give a finite number whose relative error is at most (1+u)^2/(1-u) - 1, hence below four units u of one rounding, in each rounding direction. With representable parts the error is at most u. On int, 16785211/16781193 is converted to float with an error of more than 2.9 u.", "quantifier": "all fractions, all representations two binades narrower than the exponent range, all formats, all rounding directions", "why_tests_cant": "The worst case is a conspiracy of three roundings over all pairs of parts.", "anchors": ["include/ieme/floating_point.hpp: fraction_to_floating_point"]}
{"id": "C106", "title": "A static bound excludes overflow in whole expressions", "statement": "Compute for every node of an expression an upper bound on the magnitude of its numerator and denominator by cross multiplication. If all these bounds are representable, the expression evaluates under every policy without overflow or wrap-around to its exact value. With m operands of magnitude at most B it suffices that 2^(m-1)*B^m is representable. For sums, products and quotients of non-negative operands under fast the check is exact: evaluation finishes if and only if it succeeds, and the parts of the result are the bounds.", "quantifier": "all expressions, all policies, all representation types (without subtraction for unsigned ones)", "why_tests_cant": "Tests sample expressions and operands; the criterion is for all of them.", "anchors": ["include/ieme/ops.hpp", "include/ieme/fraction.hpp: operators"]}
{"id": "C107", "title": "Accumulating over a common denominator cannot overflow under safe", "statement": "Start from a fraction and add or subtract, in any order, fractions whose denominators divide D, and integers. With safe, or any stack of reducing wrappers around it, the sequence finishes, with the exact total, if D, the contributions and the running totals in units of 1/D are representable; the denominator of the result divides D. Under fast, n additions of 1/d to zero finish exactly when d^n and n*d^(n-1) are representable, so a tenth can be added to an int fraction nine times, against 2147483647 times under safe and the default policy.", "quantifier": "all lists of assignments, all signed types, all policies based on safe; all d and n for fast", "why_tests_cant": "Overflow depends on the whole history of a loop of unbounded length.", "anchors": ["include/ieme/ops.hpp", "include/ieme/fraction.hpp: operator+=, operator-="]}
{"id": "C108", "title": "Standard algorithms order fractions by value", "statement": "On defined fractions with positive denominators (with policies ending in safe, on all defined fractions) std::max, min and clamp return the argument of the right value, with ties going to the first; max_element and min_element return the first extreme element; is_sorted answers whether the values are nondecreasing; lower_bound finds the partition point; any range sorted with < is sorted by value; and for fractions in lowest terms the sorted order is unique. The algorithms fail only if a comparison does. Both conditions are needed: under fast, negative denominators make < cyclic, and an undefined fraction breaks max_element and is_sorted under every policy.", "quantifier": "all ranges of any length, all fractions, all policies, all integer types", "why_tests_cant": "Ranges of every length; the requirement that < be a strict weak order is not checkable by the compiler, and algorithms given an invalid order misbehave only for particular inputs.", "anchors": ["include/ieme/fraction.hpp: operator<", "include/ieme/ops.hpp"]}
{"id": "C109", "title": "Representation types narrower than int", "statement": "For signed char, unsigned char, short and unsigned short, of which the library compiles only what does not brace-initialise from a promoted result: is_integer and is_unit_fraction are exact for every fraction; is_reduced, is_proper and normalize_signs are exact unless a part is the least value; trunc, ceil and floor agree with fraction<int> except for the least value over minus one; pow2 is exact when representable. Comparisons under fast never overflow when products fit into int and are exact for positive denominators; under safe they finish exactly when the denominators' absolute values and least common multiple fit the narrow type, and are then exact. Operands of two different narrow types are computed with in int: arithmetic is exact under every policy, and does not overflow under fast (apart from %) when the widths add up to at most 29 bits.", "quantifier": "all narrow integer types, all fractions of them, all operators; all policies for operands of different types", "why_tests_cant": "The exceptions are single values (the least value) or pairs of denominators whose least common multiple is large; promotion makes the narrow types behave differently from all wider ones.", "anchors": ["include/ieme/math_utilities.hpp: abs, pow2", "include/ieme/raw_fraction_queries.hpp: is_integer, is_unit_fraction, is_reduced, is_proper", "include/ieme/raw_fraction_math.hpp: normalize_signs", "include/ieme/fraction_math.hpp: trunc, ceil, floor", "include/ieme/ops.hpp"]}
{"id": "C110", "title": "Programs with variables, branches and loops compute exact rational results", "statement": "Take any program over fraction variables built from assignments of expressions, sequencing, if and while with comparisons of two fractions. If it terminates over the rational numbers with everything it evaluates defined, then under a policy built on safe (the default included), or with tests for equality only under any policy, every run free of overflow that finishes holds exactly the rational results in all variables, and no run free of overflow goes on forever. Hence a correctness proof over the rational numbers carries over. The same holds with any tests under every policy if all variables and literals start with positive denominators and the policy normalises its output or the program does not divide. Under fast the conditions are needed: a negative denominator, given or made by a division, sends a program the wrong way.", "quantifier": "all programs, all initial contents, all numbers of loop iterations, all integer types, all policies as stated", "why_tests_cant": "Programs and loop counts are unbounded; one wrong comparison changes which statements run.", "anchors": ["include/ieme/fraction.hpp: operators, comparisons", "include/ieme/ops.hpp"]}
{"id": "C111", "title": "Literals, expressions and programs reach floating point with one rounding", "statement": "Convert to floating point a _dec literal, the value of an expression or a variable after a program, each computed free of overflow. If the parts of the exact mathematical value in lowest terms are representable, the result is that value rounded once to nearest, whatever operations led to it; two expressions of equal value convert to the same number under any policies and types. For decimal literals and double it is enough that the numerator in lowest terms is at most 2^53 and that the digits behind the point less the exponent are at most 22, for float 2^24 and 10. Without either bound a literal can convert to a double other than the one nearest to it.", "quantifier": "all decimal and hexadecimal literals with a point, all expressions, all programs of C110, all binary formats, all integer types and policies as stated", "why_tests_cant": "Literals and computations are unbounded; a second rounding shows only for rare values.", "anchors": ["include/ieme/fraction_literals.hpp: operator\"\"_dec", "include/ieme/floating_point.hpp", "include/ieme/ops.hpp"]}
{"id": "C112", "title": "Algorithms of std::chrono on fractional durations", "statement": "std::chrono::floor and ceil to a duration that counts in fractions return the exact length of the source, under every policy and for any two periods: they equal the plain conversion and do not round to a whole count. std::chrono::abs returns the absolute length under policies built on safe and for positive denominators; under fast a negative denominator leaves the duration negative. abs does not exist for unsigned representations. zero() has no length, min() is below every duration and max() above every one but the count min over minus one.", "quantifier": "all counts, integer or fractional, all periods, all integer types, all policies as stated", "why_tests_cant": "Whether the correction by one inside floor and ceil is ever taken depends on comparisons of all counts under all policies.", "anchors": ["include/ieme/chrono.hpp: treat_as_floating_point, duration", "include/ieme/limits.hpp: numeric_limits<fraction>"]}
{"id": "C113", "title": "The recursion of pow is shallow", "statement": "math_utilities::pow calls itself as many times as its exponent has halvings and odd stages: for a positive exponent the number of calls is the position of the highest set bit plus the number of set bits plus one, for a negative one the position of the highest set bit of its absolute value plus two. For an exponent of k binary digits that is at most 2k, which the exponent 2^k - 1 reaches; for an exponent of the type it is at most twice the width of the type, 128 for 64 bits, far from the limit of 512 nested constexpr calls that the standard recommends.", "quantifier": "all bases, all exponents, all integer types, whether or not the power overflows", "why_tests_cant": "The depth depends on the binary digits of the exponent; tests see only chosen exponents, and for signed types most exponents overflow before the result can be seen.", "anchors": ["include/ieme/math_utilities.hpp: pow"]}
{"id": "C114", "title": "A static check excludes overflow in whole programs", "statement": "A check that follows a program with variables, branches and loops without running it, and multiplies and adds bounds for the parts of its variables, excludes overflow: if the program terminates over the rational numbers and the check accepts it for n steps, its run of n steps causes no overflow or wrap-around, and either needs more steps or ends with exactly the rational results, within the bounds computed. If the run over the rational numbers needs at most n nested steps, and in particular if there are no loops, it completes. Conditions that pass are decided without overflow and correctly.", "quantifier": "all programs, all contents of the variables within the bounds, all numbers of steps, all integer types (unsigned ones if nothing in the program can go below zero), all policies built on safe, and all policies if conditions only test for equality", "why_tests_cant": "Every intermediate result on every path for all contents of the variables would have to be tried.", "anchors": ["include/ieme/ops.hpp", "include/ieme/fraction.hpp"]}
{"id": "C115", "title": "Compound assignment of an object to itself or its parts", "statement": "The compound assignments take references, and a fraction hands out references to its parts. Whatever places the operands occupy, left op= right leaves in left the exact result for the values that both had before, and changes no other place: f += f doubles, f -= f gives zero, f *= f squares, f /= f gives one and f %= f zero unless f is zero, f *= f.den() leaves the old numerator and f /= f.num() the reciprocal of the old denominator. A second assignment to the same object sees what the first left.", "quantifier": "all memories, all pairs of fraction objects, the same one included, all integer operands, parts of the left operand included, all five operators, all integer types and policies", "why_tests_cant": "Tests use distinct operands; an implementation that updates the parts in place passes them and fails when operands overlap.", "anchors": ["include/ieme/fraction.hpp: IEME_DEFINE_FRACTION_COMPOUND_ASSIGNMENT_OPS, numerator, denominator, raw"]}
{"id": "C116", "title": "Fractions with 8-bit representations are streamed as characters", "statement": "For signed char and unsigned char, which are int8_t and uint8_t, the stream operators write and read characters, not numbers: a fraction is written as the character with the code of the numerator, a slash and the character with the code of the denominator, never as the decimal text. Extraction accepts, after whitespace, any character, anything up to a slash, and after whitespace any character, and stores their codes. What is written reads back if and only if neither part is the code of a whitespace character, 9 to 13 or 32.", "quantifier": "all 8-bit fractions, all texts, all contents of the target, signed and unsigned", "why_tests_cant": "Tests of streaming use int; the exact set of fractions that do not read back needs all of them, whatever follows in the stream.", "anchors": ["include/ieme/raw_fraction.hpp: operator<<, operator>>", "include/ieme/fraction.hpp: operator<<, operator>>"]}
{"id": "C117", "title": "Fractions over a power of two always reach floating point with one rounding", "statement": "If the denominator of a fraction in lowest terms is a power of two, its conversion to a binary floating-point format is its value rounded once, even when the numerator is not representable: in every rounding direction on representations of at most bias bits (127 for float, 1023 for double), and to nearest on any representation if the power of two does not exceed 2^bias and the numerator does not overflow. So hexadecimal literals, expressions without division over such fractions, and normal floating-point numbers taken through a fraction into another format are rounded once, without any condition on their digits.", "quantifier": "all fractions, hexadecimal literals with a point and expressions, all binary formats with more exponent range than mantissa bits, all integer types and policies as stated", "why_tests_cant": "That the two roundings of the code collapse into one for every numerator cannot be sampled: a double rounding shows only near ties.", "anchors": ["include/ieme/floating_point.hpp", "include/ieme/fraction_literals.hpp: operator\"\"_dec", "include/ieme/ops.hpp"]}
{"id": "C118", "title": "Stream extraction never throws: where the stream is set to throw, the program ends", "statement": "The extraction operators should let a stream with exceptions enabled report its state to the caller. They are noexcept, so for every exception mask, format, integer type and text no exception leaves them: the program is terminated exactly if extraction without exceptions would leave the stream with a bit of the mask set, and otherwise value and stream are those without exceptions. In particular a correctly written fraction at the very end of a stream terminates the program if exceptions are enabled for eofbit, and the loop `while (stream >> value)` terminates it on every text if they are enabled for failbit, though without exceptions the loop collects exactly what was written.", "quantifier": "all exception masks over eofbit and failbit, all formatting flags, integer types, stream states, texts and lengths of loops", "why_tests_cant": "A test that reaches std::terminate does not return a result to compare, and whether a text ends the program depends on all of it; only a proof covers every text and mask.", "anchors": ["include/ieme/raw_fraction.hpp: operator>>", "include/ieme/fraction.hpp: operator>>"]}
{"id": "C119", "title": "The constants of numeric_limits keep their promises", "statement": "For std::numeric_limits<fraction>: is_signed says whether negative values exist, is_integer is rightly false, every integer of digits binary digits and every decimal number of digits10 digits, wherever its point is, is a value, and neither holds with one digit more; max() has digits ones. Where is_modulo is true, sums, differences and products out of range differ from the true value by a multiple of max() - min() + 1: proved under every policy for whole numbers, false for other fractions; where it is false whole numbers overflow. quiet_NaN() should not trap although has_quiet_NaN is true and traps is false: under every policy built on safe sums, differences and remainders with it never finish.", "quantifier": "all integer types, policies, operands and overloads as stated", "why_tests_cant": "The constants promise something about all values of a type and all operations; tests can only compare the constants with themselves or try single values.", "anchors": ["include/ieme/limits.hpp: std::numeric_limits<ieme::fraction>", "include/ieme/ops.hpp"]}
{"id": "C120", "title": "Maps keyed by fractions behave like maps keyed by rational numbers", "statement": "A program that inserts entries into an empty std::map<fraction, V>: the keys end in strictly ascending order of value, and a lookup gives what the first inserted entry with a key of the same value said; everything finishes when the parts of the keys are at most B and B*B is representable. The same for std::unordered_map<fraction, V> with std::hash and ==: proved for keys in lowest terms with positive denominators, false for others; a lookup gives what the first inserted entry of the same bucket with a key of the same value said, the keys differ in value exactly when inserted keys of the same value share a bucket, and they do so for every hash and number of buckets exactly when inserted keys of the same value have the same parts. Undefined keys break both: such a key swallows all later keys of a std::map or is found under any of them, and is never found in a std::unordered_map.", "quantifier": "all programs of insertions, keys the policy orders, policies, integer types, hashes of integers and bucket counts as stated", "why_tests_cant": "Which keys meet in the tree or in a bucket depends on the whole history of insertions; tests try single histories, and the failing keys are those that tests write in lowest terms.", "anchors": ["include/ieme/hash.hpp: std::hash<ieme::fraction>", "include/ieme/fraction.hpp: operator<, operator==", "include/ieme/ops.hpp"]}
{"id": "C121", "title": "Overload resolution picks the intended operator and expressions mixing types are exact", "statement": "For operands that are integers, fractions, mixed numbers and denominator literals of any representation and policy, overload resolution over the operator templates gives a binary operator a type exactly when the intended rules do, and that type; comparisons and compound assignments are accepted exactly for the intended pairs; operands of different policies are always rejected. Being more specialised is a strict partial order of the operator templates, and no two of them are equally specialised. So an expression that compiles mixes no policies, and without mixed numbers its representation is the highest-ranked of those in it, whatever the order and the parentheses. Whatever such an expression evaluates to is a value of its type, and if it evaluates cleanly it is the exact value.", "quantifier": "all expressions over +, -, *, /, %, all operand types, policies and values", "why_tests_cant": "Which template is called depends on the types of all operands; tests compile a few combinations, and a combination that should be rejected cannot be tested at all.", "anchors": ["include/ieme/fraction.hpp: operator+, operator-, operator*, operator/, operator%, comparisons, compound assignment (templates and deleted overloads)", "include/ieme/mixed_number.hpp: operator+", "include/ieme/fraction_literals.hpp: operator/"]}
{"id": "C122", "title": "With a wide enough representation everything finishes, with the exact result", "statement": "For every expression with a value there is a width from which on, in every signed type and under every policy, it evaluates without overflow or wrap-around, always to the same parts, which denote that value. The same holds for comparisons (true wherever the policy orders correctly), for programs with branches and loops that terminate over the rational numbers (with a number of steps that does not depend on the type), for reduction, negation, absolute value, rounding, redenomination, powers with exponents other than the minimum of int, expressions over mixed numbers, literals with exponents of up to nine digits, floating-point conversions and durations.", "quantifier": "all expressions, programs, fractions, mixed numbers, literals and floating-point numbers; all policies; all signed types from some width on", "why_tests_cant": "It quantifies over all widths, including types wider than any that exists; a test runs in one type.", "anchors": ["include/ieme/ops.hpp", "include/ieme/fraction.hpp", "include/ieme/fraction_math.hpp", "include/ieme/mixed_number.hpp", "include/ieme/fraction_literals.hpp", "include/ieme/floating_point.hpp", "include/ieme/chrono.hpp"]}
{"id": "C123", "title": "Over signed types nothing goes wrong silently, with listed exceptions", "statement": "Where every operator of an expression (mixing integers, denominator literals, fractions and mixed numbers) has a signed type and the whole parts of mixed numbers are not narrower than their fractional parts, whatever the expression evaluates to without undefined behaviour is its exact value; so an accepted constant expression is exact. The same holds for all functions of fractions over signed types, for programs, for durations over signed types of at least 64 bits, and for floating-point conversions. The exceptions are determined exactly: pow2 with an exponent one less than the width, conversions and literals that do not fit, literals above 2^63 that are negated.", "quantifier": "all expressions, operands, policies, signed types and programs", "why_tests_cant": "Absence of silent wrap-around is a statement about every intermediate value of every expression; a test sees only the final result of the inputs it tries.", "anchors": ["include/ieme/ops.hpp", "include/ieme/fraction.hpp", "include/ieme/fraction_math.hpp", "include/ieme/mixed_number.hpp", "include/ieme/fraction_literals.hpp", "include/ieme/floating_point.hpp", "include/ieme/chrono.hpp"]}
{"id": "C124", "title": "Streams of 16-bit fractions and mixed numbers with narrow whole parts", "statement": "Extraction of a fraction of short or unsigned short succeeds exactly for text of the right form whose integers are accepted, stores them (unsigned: modulo 2^16) and otherwise the nearest value with failbit, whatever the width of long; what was written is read back. A mixed number whose whole part is narrower than int is constructed cleanly exactly when one with an int is and the narrow type holds the truncated fraction and the sum, and is exact then; otherwise the two-argument constructor is off by a multiple of 2^bits, and the constructor from a fraction keeps the value with an improper fractional part. Sums of different whole types are exact; equal narrow types do not compile.", "quantifier": "all texts, all narrow types, all fractions, whole parts and policies", "why_tests_cant": "The silent conversions of narrow whole parts happen only at the edges of the type; streams have unbounded text.", "anchors": ["include/ieme/raw_fraction.hpp: operator>>", "include/ieme/mixed_number.hpp"]}
{"id": "C125", "title": "Programs with variables of different types", "statement": "A program whose variables are integers, fractions, mixed numbers and denominator literals of any representations and policies, with assignments that convert implicitly, compound assignments, calls of trunc, abs, reciprocal, whole, fractional and as_fraction, branches and loops, computes exactly the results it has over the rational numbers whenever its run is free of overflow and of conversions that change a value, provided that its order comparisons are between two integers or between two fractions of a policy built on safe. A run free of overflow of a program that terminates over the rationals does not go on forever. A program that compiles keeps every variable a value of its declared type, never meets a rejected expression and never throws; a statement that does not compile never completes. Over one representation and policy these are the programs of C110. The condition on comparisons is needed: with the default policy, x = 1 / -2_fr followed by if (x < 0) goes the wrong way.", "quantifier": "all declarations of variables (any integer types of at least 32 bits, any policies, any mixture of kinds), all programs over them, all contents of the variables and all numbers of steps", "why_tests_cant": "The implicit conversions and the overloads chosen depend on the declared types of all variables at once, and the number of programs is unbounded; a test fixes one program, one set of declarations and one input.", "anchors": ["include/ieme/fraction.hpp: converting constructors, compound assignment, comparisons", "include/ieme/mixed_number.hpp: constructors, conversion operator, whole, fractional, as_fraction", "include/ieme/fraction_literals.hpp: denominator_literal", "include/ieme/fraction_math.hpp"]}
{"id": "C126", "title": "The same program with wider types", "statement": "If every integer type and representation in a program over variables of different types is replaced by a wider one, in such a way that common types become common types, every clean run gives the same objects, part by part. Every expression over variables of different types that has a value (denominator literals written out and below 2^63) settles, with one type for everything, on an object with exactly this value; and every program that compiles and terminates over the rational numbers, without variables of literal type and with the comparisons that C125 allows, completes in all wide enough signed types, with the exact results, in a number of steps that does not depend on the type. Programs have at most one meaning. The condition on common types is needed: if (x < u) with long long x = -1 and unsigned u = 1 changes its outcome when u becomes unsigned long long.", "quantifier": "all programs over integers, fractions, mixed numbers and literals of any types and policies, all contents of the variables, all replacements of types by wider ones that respect common types, and all signed types from some width on", "why_tests_cant": "Quantifies over all programs, all replacements of types and all sufficiently wide types, including types wider than any compiler offers.", "anchors": ["include/ieme/fraction.hpp: operators, converting constructors, compound assignment", "include/ieme/mixed_number.hpp: operators and constructors", "include/ieme/fraction_literals.hpp: operators", "include/ieme/fraction_math.hpp"]}
{"id": "C127", "title": "Programs whose denominators stay positive", "statement": "Consider a program over integers, fractions, mixed numbers and literals of any types and policies whose variables have positive denominators, and in which every quotient is by a positive value or under a policy that normalises the signs of its results (an integer divided by a literal: by a positive literal) and every reciprocal is of a positive value. It computes exactly its rational meaning, whatever it compares with what, order comparisons of fractions with integers and under fast included; denominators stay positive; it does not run for ever; and with one wide enough signed type for everything it completes. The condition on quotients is exact: a quotient of operands with positive denominators has a positive denominator if and only if it holds. It can be checked without running the program when divisors are always positive or normalised and reciprocal is not called. Without the condition on reciprocals the answer can be wrong with the default policy.", "quantifier": "all programs with assignments, compound assignments, calls, branches and loops over variables of any types and policies, all contents of the variables with positive denominators, all step bounds", "why_tests_cant": "Programs are of any size and run for any number of steps over variables of any types; the sign of a denominator many steps earlier decides a comparison.", "anchors": ["include/ieme/fraction.hpp: operators, compound assignment", "include/ieme/ops.hpp", "include/ieme/fraction_literals.hpp: operator/", "include/ieme/fraction_math.hpp: reciprocal", "include/ieme/mixed_number.hpp"]}
{"id": "C128", "title": "Reduce modes that are not enumerators", "statement": "Any int cast to reduce_mode is a value of the type. With a number other than those of the two enumerators reduce turns every fraction into 0/0 and reports nothing; the enumerators are exactly the modes with which it keeps the value of a fraction it can reduce. A reduced_output with such a mode turns every result into 0/0 and fails when its inner policy fails. A reduced_input with such a mode over a library policy gives 0/0 whenever it finishes, can not tell fractions apart, and finds every two operands unequal and unordered; its negation is not affected. With the number of an enumerator both templates are what they are with the enumerator.", "quantifier": "all numbers cast to reduce_mode, all fractions, all operators and operand kinds, all inner policies (library policies for the results of reduced_input), all integer types of at least 32 bits", "why_tests_cant": "The claim is about every number outside the enumerators and every nesting of policies; the test suite uses the enumerators only.", "anchors": ["include/ieme/reduce_mode.hpp: reduce_mode", "include/ieme/raw_fraction_math.hpp: reduce", "include/ieme/ops.hpp: reduced_input, reduced_output"]}
{"id": "C129", "title": "Writing to a device that can be full", "statement": "A device behind an output stream may take only so many characters. Writing a fraction to a good stream sends as much of its text as there is room for, for every formatting: badbit is set exactly when that is not all of it, failbit exactly when the text is cut before the denominator begins, and the stream stays good exactly when the device has received the whole text. A stream that is not good receives nothing and keeps its width. The same holds for any number of fractions with separators: the device holds a prefix of the whole. Since the operator is noexcept, a stream that is set to throw never does: the program is terminated exactly when badbit is enabled and the text does not fit, or failbit is enabled and it is cut before the denominator. A text that is cut within the digits of the denominator reads back without failure, as the fraction whose denominator lacks those digits.", "quantifier": "all fractions, all formatting flags and widths, all amounts of room, all stream states and exception masks, all sequences of fractions, all integer types of at least 32 bits", "why_tests_cant": "The test suite writes to string streams, which are never full; the claim ranges over every point at which a device may stop.", "anchors": ["include/ieme/raw_fraction.hpp: operator<<", "include/ieme/fraction.hpp: operator<<"]}
{"id": "C130", "title": "Expressions over durations, time points and numbers stand for what they mean", "statement": "An expression of any depth over fractional durations, time points, fractions, integers and the integer durations and time points of the standard library, with +, -, *, /, %, negation and conversions between periods, that compiles and runs without overflow or wrap-around returns an object of its static type that stands for exactly the time or number that the expression means over the rationals, unless that has a division by zero. Comparisons of such expressions compare what they mean, == and != for every policy, the others for policies built on safe. Whether an expression compiles does not depend on the counts: an operator exists exactly when one operand counts in fractions, they have a common type, and the result has the dimension of a number, a duration or a time point. Moving the epoch changes no duration or number and moves time points by as much. A wider representation never changes a result. The period of a sum of three durations does not depend on their grouping when both groupings compile.", "quantifier": "all expressions, periods, counts, policies and representations", "why_tests_cant": "The test suite checks a few conversions; the claim ranges over all expressions, all periods and all counts.", "anchors": ["include/ieme/chrono.hpp: duration, time_point, to_fractional", "include/ieme/ops.hpp"]}
{"id": "C131", "title": "Programs over durations and time points compute the exact times", "statement": "A program over fractional durations, time points and numbers, with assignments, compound assignments, branches and loops on comparisons, that compiles and terminates over the rationals without a division by zero: every run free of overflow and wrap-around takes the same branches and ends with variables that stand for exactly the rational results (for policies built on safe, or when all conditions are == and !=); no such run goes on forever; and in all signed representations with enough bits it does complete, always with the same objects. Expressions and comparisons settle likewise. The compiler rejects a program exactly when the static check does, variables keep their types, a wider representation changes no result, and moving the epoch moves the time points of the result and changes nothing else. x op= e compiles wherever x = x op e does and means the same. The loop while (t < end) t += step; with a positive step ends at exactly the first t + k*step not before end.", "quantifier": "all programs, periods, counts, policies and representations, any number of steps", "why_tests_cant": "No test runs a loop over durations; the claim ranges over all programs, all numbers of steps and all widths.", "anchors": ["include/ieme/chrono.hpp: duration, time_point, treat_as_floating_point", "include/ieme/ops.hpp"]}
{"id": "C132", "title": "Unsigned fractions that wrap around on the way", "statement": "Over an unsigned representation every expression without % finishes under fast, and its parts are those of the schoolbook formulas in unbounded integers, modulo 2^bits. So a difference below zero or a part that is too large is harmless if the parts of the final result fit: they are then exact, and exactly then. Computing in a wider unsigned type and converting gives the same. Comparisons look at the residues of the cross products: == holds exactly when these differ by a multiple of 2^bits. Programs with branches and loops behave as if their variables were unbounded and only comparisons looked at residues, and never fail. Under safe the same holds for sums, differences, products and quotients by positive integers whose denominator without cancelling fits. Under the default policy it does not hold.", "quantifier": "all unsigned integer types, all expressions and programs without % whose fractions fit the type, all contents of the variables, all numbers of steps", "why_tests_cant": "Whether an intermediate wrap-around survives depends on the whole rest of the computation; tests of single operators on values that fit never wrap.", "anchors": ["include/ieme/ops.hpp: fast, safe", "include/ieme/fraction.hpp: operators, lines 575-718"]}
{"id": "C133", "title": "Numeric algorithms of the standard library", "statement": "std::accumulate, std::reduce, std::inner_product, std::partial_sum and std::adjacent_difference over ranges of defined fractions of one type, when they finish without overflow or wrap-around, compute exactly the sum, product, dot product, prefix sums and differences of the values, under every policy; std::reduce has that value for every bracketing and every permutation it may choose, and with a policy that normalises results, plain safe or plain fast it even gives the same numerator and denominator for all of them; std::partial_sum and std::adjacent_difference undo each other, identically for reduced elements under a normalising policy; every bracketing and order finishes without overflow if 2^(m-1)*B^m is representable for m operands with parts at most B, and under policies that end in safe if all denominators divide a representable D and the magnitudes in units of 1/D add up to a representable number. Whether a reduction overflows does depend on the bracketing, and so does the representation under a policy that reduces only its inputs.", "quantifier": "All lists of fractions of any length, all initial values, all bracketings and permutations, all integer types and all operation policies; the finishing conditions for every list that satisfies them.", "why_tests_cant": "The number of bracketings and permutations of a range grows faster than exponentially, and the implementation's choice is unspecified: a test observes one of them on one platform.", "anchors": ["include/ieme/fraction.hpp: operator+, operator-, operator* of two fractions", "include/ieme/ops.hpp"]}
{"id": "C134", "title": "Streams in a locale that groups digits", "statement": "In every locale whose thousands separator is not a digit, a sign or a slash, whatever its grouping, a fraction written to a stream is read back in that locale with the same numerator and denominator, without failure and without consuming what follows; the text is that of the classic locale with separators put in, text of the classic locale is read too, and input is read without failure exactly when it consists of decimal numerals that are in range and have either no separators or nonempty groups of the sizes that the locale asks for, around a slash; the fraction read is then the one of these digits. Where the locale does not group, input and output are those of the classic locale. Text that a grouping locale has written cannot be relied on in the classic one: it is read without failure as the leftmost groups of the numerator and denominator, which is the fraction exactly when neither part was broken into groups.", "quantifier": "All grouping rules and separators, all integer types and fractions in range, all previous values of the target and all text that may follow; acceptance for all input texts (without a minus sign if the type is unsigned).", "why_tests_cant": "Locales are unbounded families of grouping rules, and tests run in the classic locale.", "anchors": ["include/ieme/raw_fraction.hpp: operator<<", "include/ieme/raw_fraction.hpp: operator>>", "include/ieme/fraction.hpp: operator<<, operator>>"]}
{"id": "C135", "title": "A static check excludes overflow in programs over durations and time points", "statement": "A check that follows a program over durations, time points and numbers without running it, and multiplies and adds bounds for the parts of the counts - among them the conversion factors, which it knows from the types - excludes overflow: if the program compiles and terminates over the rational numbers and the check accepts it for n steps, its run of n steps causes no overflow or wrap-around, and either needs more steps or ends with variables that stand for exactly the rational results, within the bounds computed. A program without loops completes. Expressions that pass run under every policy to their exact meaning within the bound; comparisons that pass are decided without overflow and correctly.", "quantifier": "all programs, periods and counts within the bounds, all numbers of steps, all integer types (unsigned ones if nothing in the program can go below zero), all policies built on safe, and all policies if conditions only test for equality", "why_tests_cant": "Conversions between periods hide multiplications in every operator; every intermediate result on every path for all contents of the variables would have to be tried.", "anchors": ["include/ieme/chrono.hpp: duration, time_point, treat_as_floating_point", "include/ieme/ops.hpp"]}
{"id": "C136", "title": "Which conversions compile, and what they preserve", "statement": "Among integers, floating-point numbers, std::ratio, raw fractions, fractions, mixed numbers and denominator literals, overload resolution over the declared constructors and conversion functions accepts exactly the conversions of a short table, implicitly (X x = y) and explicitly (X x(y)); no initialisation is ambiguous; the forms with and without parentheses or braces agree wherever they compile; implicit conversions never change the policy. Every chain of conversions from anything but a floating-point number keeps the exact value unless a part wraps, and conversions of integers and fractions are free of wrap-around exactly when the parts fit the target; with braces integers never wrap. Common types are those on which the operators and std::chrono rely: of an integer type and a class the class, of different fractions none. Claims that fail are refuted: a floating-point number converts implicitly and loses its fraction, braces do not protect conversions between fractions, and conversions do not compose.", "quantifier": "all representations, policies and values, all pairs of types, all chains of initialisations", "why_tests_cant": "Code that must not compile cannot be in a test, and the pairs of types with their constructors, policies and values cannot be enumerated.", "anchors": ["include/ieme/fraction.hpp: constructors", "include/ieme/raw_fraction.hpp: constructors", "include/ieme/mixed_number.hpp: constructors, operator fraction", "include/ieme/fraction_literals.hpp: denominator_literal"]}
{"id": "C137", "title": "Measuring time with a wrapped clock", "statement": "Let a clock of period p be wrapped by clock_wrapper with period q, and let E be a multiple of the denominator of p/q. As long as the readings, the durations used and the results have numerators over E that fit the representation: every reading is exactly the time of the wrapped clock; the difference of two readings is exactly the time between them; all six comparisons of readings agree with those of the wrapped clock; a stopwatch that sums up any number of laps ends with exactly the time from the first reading to the last; a wait with a timeout ends exactly at the first reading at or after the deadline; and a schedule advanced k times by an interval is exactly k intervals after its start; and nothing overflows. For a 64-bit clock of nanoseconds wrapped to seconds this needs nothing more than that the readings are not negative. It is false of policies built on fast: ten seconds after such a clock has started, the difference of two readings overflows.", "quantifier": "all signed representations, periods, readings, lists of readings, timeouts and intervals, all policies built on safe (for a single reading: all policies); the failure under fast: an exact condition for all readings of the nanosecond clock", "why_tests_cant": "Readings depend on when a program runs; the overflow under fast appears only on machines that have been up for nine seconds, and lists of readings of every length would have to be tried.", "anchors": ["include/ieme/chrono.hpp: clock_wrapper, clock_wrapper::now, duration, time_point", "include/ieme/ops.hpp"]}
{"id": "C138", "title": "A static check excludes overflow in programs with variables of different types", "statement": "A check that follows a program over integers, fractions, mixed numbers and denominator literals of any types without running it, and computes from sizes for the initial contents how large every part can get and whether it can be negative, excludes overflow: if the program terminates over the rational numbers and the check accepts it for n steps, its run of n steps causes no overflow, no wrap-around and no lossy conversion, and either needs more steps or ends with exactly the rational results, within the sizes computed. From some number of steps on it completes; a program without loops completes at its depth. Expressions that pass are evaluated exactly; conditions that pass are decided correctly. A program accepted at its depth compiles. For a sum or product of integers of any types that are not negative the check accepts just if no contents within the sizes overflow. Squaring an int is accepted up to 46340 and overflows at 46341, an unsigned up to 65535 and wraps at 65536.", "quantifier": "all declarations of variables (any mixture of kinds, integer types and policies, unsigned types included), all programs over them, all sizes, all contents within them, all numbers of steps; nothing is assumed of the policies or of the comparisons in the program beyond what the check itself computes", "why_tests_cant": "Every intermediate result of every conversion and overload on every path for all contents of the variables would have to be tried; the promoted types of intermediate results differ from statement to statement.", "anchors": ["include/ieme/fraction.hpp: operators, converting constructors, compound assignment, comparisons", "include/ieme/mixed_number.hpp: constructors, operators, conversion operator, members", "include/ieme/fraction_literals.hpp: denominator_literal", "include/ieme/ops.hpp", "include/ieme/fraction_math.hpp"]}
{"id": "C139", "title": "Reading from a device that breaks down never stores a cut number, but may leave the target half read", "statement": "If the stream buffer throws instead of reporting the end of its text, extraction never lets the exception out: without exceptions enabled it returns, with badbit set exactly if the end of the delivered text was reached, and otherwise with the value and the state that any continuation of the text gives; with exceptions enabled the program ends exactly if that state has a bit of the mask. Each part of the target is its old value or the number that stands in the complete text, never a number cut by the break, and the loop `while (stream >> value)` collects the first values of the complete text, all of them unless the stream is bad. Claims that fail are refuted: a fraction that was delivered completely but with nothing after it replaces the numerator only and leaves the old denominator; and on a device that reports the end at the same place the cut number is stored and the stream converts to true.", "quantifier": "all texts, continuations, targets, integer types, formatting flags, exception masks over eofbit, failbit and badbit, and lengths of loops", "why_tests_cant": "A device that fails at a chosen character must be simulated, and the places where it can fail, the texts, formats and masks cannot be enumerated.", "anchors": ["include/ieme/raw_fraction.hpp: operator>>", "include/ieme/fraction.hpp: operator>>"]}
{"id": "C140", "title": "Program text with literals is read in exactly one way and evaluates to the number it shows", "statement": "An expression written with integer, _fr and _dec literals, the operators + - * / %, signs, parentheses and blanks is accepted exactly if it splits into longest tokens that follow the C++ grammar, and then in only one way; blanks between tokens never matter and can be left out where the tokens stay apart. If it evaluates cleanly, its value is the exact value of what is written and has the type of the expression; where integer literals have signed types and _fr literals fit int, nothing wraps silently at all. An integer literal has the first type its suffix (u, l, ll and their combinations) allows that holds it. In particular n/d_fr, in any base and spacing and with any suffix of n, has exactly the parts n and d in the type of n if d fits it, and a literal with a radix point followed by _dec is one token with that value in lowest terms, any other number before _dec throws. Claims that fail are refuted: n/m/d_fr divides the integers first and is exact only if m divides n; 1/010_fr is 1/8; 1/4294967298_fr is 1/2; 1--1/2_fr and 0xe+1/2_fr are rejected; 1u/2_fr - 1 is 4294967295/2.", "quantifier": "all texts, token sequences, expressions of any nesting, literals of any base and length, and layouts", "why_tests_cant": "There are infinitely many texts and layouts, and the reading of one depends on the longest token at every place; tests in C++ also cannot contain a text that does not compile.", "anchors": ["include/ieme/fraction_literals.hpp: operator\"\"_fr", "include/ieme/fraction_literals.hpp: operator\"\"_dec", "include/ieme/fraction_literals.hpp: operator/"]}
{"id": "C141", "title": "The floating-point exception flags tell exactly whether a conversion lost something", "statement": "Clearing the floating-point exception flags before converting fractions to floating point and looking at them afterwards is reliable. For every integer type, format, rounding direction and either way of detecting tininess: watching changes no result; FE_INEXACT is clear exactly when numerator and denominator in lowest terms and the value are all representable, and then the result is the value and no flag at all is raised. When the integers fit the exponent range of the format, FE_INEXACT is raised exactly when the result is not the value of the fraction, overflow, underflow, invalid and division by zero are never raised by a defined fraction, an undefined one raises FE_INVALID alone, the flags do not depend on the rounding direction, and after any number of conversions the flags say whether all were exact and whether one was undefined. The choice between detecting tininess before or after rounding is never visible in a division. An exact normal result leads back to the fraction. For integers wider than the exponent range the claim fails and is refuted: intermediate overflow is flagged even if the result is exact.", "quantifier": "all fractions, integer types, formats, rounding directions, ways to detect tininess, and sequences of conversions", "why_tests_cant": "The flags depend on three rounded operations for each of about 2^128 fractions, on the rounding direction and on the hardware's treatment of tiny results; a test sees one processor and few values.", "anchors": ["include/ieme/floating_point.hpp: fraction_to_floating_point"]}
{"id": "C142", "title": "A comparison that a static_assert accepts is true", "statement": "The condition of a static_assert, two expressions of integer, _fr and _dec literals with one comparison operator between them, is read in exactly one way, and anything else is rejected. Where integer literals have signed types and _fr literals fit int, an equation or inequation that the compiler accepts is mathematically true and one that it finds to fail is false; accepted equations can be chained. The same holds for < <= > >= if both sides are fractions or both are integers, or no _fr literal carries a minus sign. Two fractions n/d_fr with parts up to 46340 are never rejected and compare exactly as their values. Claims that fail are refuted: 1/4294967298_fr == 1/2_fr is accepted; 0 < 1/-2_fr is accepted and 1/-2_fr < 0 fails; 1/0_fr == 1/0_fr compiles and fails.", "quantifier": "all texts, operators, expressions of any nesting, literals of any base and length, and layouts", "why_tests_cant": "A test can contain some static_asserts, but not all conditions, and none that does not compile.", "anchors": ["include/ieme/fraction_literals.hpp: operator/", "include/ieme/fraction_literals.hpp: operator\"\"_dec", "include/ieme/fraction.hpp: operator==", "include/ieme/fraction.hpp: operator<"]}
{"id": "C143", "title": "Programs that read a text of fractions to its end", "statement": "The loop `while (in >> value)`, on any text, with any formatting flags and any type: it collects exactly the fractions that the text begins with, up to the first place where none follows that the type accepts; what it leaves in the value is determined. From a text of written fractions with whitespace between them all are collected, and the stream ends at its end with the last fraction in the value. The loop `sum += value` makes exactly the sum of what is collected; it finishes, with the sum in lowest terms, when the denominators divide a representable number and the magnitudes add up. The loop `out << value << sep` writes a text from which the same fractions are collected, and applied to its own output reproduces it; the loop that writes reduce(value) finishes exactly when no part is the minimum, keeps the values, and reproduces its own output. After the loop the stream is at its end exactly if only whitespace is left or the text breaks off within a fraction; so a truncated text, or a number without slash, is not detected, which is refuted with witnesses.", "quantifier": "all texts, formatting flags, integer types, policies, separators and values before the loop, as stated", "why_tests_cant": "Texts are unbounded, and whether a malformed text is noticed depends on every character of it.", "anchors": ["include/ieme/raw_fraction.hpp: operator>>, operator<<", "include/ieme/fraction.hpp: operator>>, operator<<, operator+=", "include/ieme/raw_fraction_math.hpp: reduce"]}
{"id": "C144", "title": "A policy with hidden state is called once per operator, and one that only records changes nothing", "statement": "A user-defined policy may keep state: count its calls, log them, raise a flag. Every operator and compound assignment calls the member of its name exactly once; round calls minus and less, redenominating one multiplication (rounding: three calls), a conversion of text, of floating point or between durations the calls its formula has, putting a mixed number in order at most a subtraction and an addition; any nest of reduced_input and reduced_output passes on exactly one call. A policy that answers like a stateless one and only records has the stateless outcome everywhere. The operands of an expression may be evaluated in any order, even alternately: over such a policy the outcomes are exactly those whose calls stand in an order with each operator behind its operands, every order ends, none gets stuck, all have the same result and the same calls up to order, so that counters and all other commuting records agree in the end. A sticky flag for inexact results can be relied on in every order, and raising one whenever something wraps is right for exactly the policies that are exact where nothing wraps. Claims that fail are refuted: the order of a log, and the result if answers depend on the state, depend on the unspecified order of evaluation.", "quantifier": "all policies with state of any type, states, representation types, operands, expressions of any nesting, orders of evaluation, wrappers nested to any depth", "why_tests_cant": "A test sees the one order that its compiler has chosen, and one policy; the claims are about all orders that the language allows and every policy a user can write.", "anchors": ["include/ieme/fraction.hpp: fraction operators", "include/ieme/ops.hpp: reduced_input, reduced_output", "include/ieme/fraction_math.hpp: round, *_redenominate", "include/ieme/mixed_number.hpp: fix"]}
{"id": "C145", "title": "The models of the headers compute what the text of the headers says", "statement": "The text of eleven headers (numbers, reduce_mode, math_utilities, raw_fraction, raw_fraction_queries, raw_fraction_math, ops, fraction, fraction_queries, fraction_math, mixed_number) is parsed, and calls are evaluated from what it parses to by an interpreter that knows the language and nothing of the library. For every constant, query, function, policy member, constructor, accessor, operator and compound assignment in them, apart from stream operators and the constructor from std::ratio, the evaluation of the text has exactly the outcome of the model that the other properties are about: the same value, the same wrap-around, the same undefined behaviour. Where an accessor has a const and a non-const overload, their bodies are the same.", "quantifier": "all arguments, representation types, policies nested to any depth, reduce and round modes; every header text is parsed as a whole", "why_tests_cant": "A test compares results for some arguments; that a model written by hand says what the code says, for every argument and every instantiation, takes the text itself and a semantics for it.", "anchors": ["include/ieme/numbers.hpp: whole file", "include/ieme/math_utilities.hpp: abs, pow2, pow", "include/ieme/raw_fraction.hpp: raw_fraction", "include/ieme/raw_fraction_queries.hpp: whole file", "include/ieme/raw_fraction_math.hpp: whole file", "include/ieme/ops.hpp: safe, fast, reduced_input, reduced_output", "include/ieme/fraction.hpp: fraction, operators", "include/ieme/fraction_queries.hpp: whole file", "include/ieme/fraction_math.hpp: whole file", "include/ieme/mixed_number.hpp: whole file"]}
{"id": "C146", "title": "The models of parsing compute what the text of the parser says", "statement": "The text of parse_utilities.hpp, of floating_point_string_to_fraction and of the literal operator _dec is parsed, and calls are evaluated from what it parses to by an interpreter that knows the language, std::string_view, std::optional and std::pair, and nothing of what the parser is for. For is_valid_digit_sequence, digit_sequence_to_int, scan_floating_point_string, floating_point_string_to_fraction and _dec the evaluation of the text ends and has exactly the outcome of the model that the other properties are about. Consequently the text of _dec, evaluated, throws for exactly the strings that are no literals with a radix point, and returns nothing but the exact value of the literal.", "quantifier": "all strings of fewer than 2^64 characters, bases, integer types, representation types and policies", "why_tests_cant": "There are infinitely many strings, and loops over them with early exits; a test runs the loops for some strings, and cannot compare a hand-written model with the text for all of them.", "anchors": ["include/ieme/parse_utilities.hpp: whole file", "include/ieme/floating_point.hpp: floating_point_string_to_fraction", "include/ieme/fraction_literals.hpp: operator\"\"_dec"]}
{"id": "C147", "title": "The models of the floating-point conversions compute what their text says", "statement": "The text of to_fraction, to_float, to_double and to_long_double and of the two function templates that do their work, floating_point_to_fraction and fraction_to_floating_point, is parsed, and calls are evaluated from what it parses to by an interpreter that knows the language, std::memcpy of a floating-point number into an integer, and conversion to and division of floating-point numbers, and nothing of how floating-point numbers are laid out in fields. For each function the evaluation of the text ends and has exactly the outcome of the model that the other properties are about. Consequently the text, evaluated on a little-endian target, converts a normal number to nothing but its exact value; evaluated on a big-endian target it never converts a normal number to its value; and to_float and to_double round correctly when the representation has no more bits than the significand.", "quantifier": "all byte orders, bit patterns, fractions, representation types, policies, and the four formats of long double", "why_tests_cant": "The conversion takes bit patterns apart with constants computed from template arguments; a test runs on one byte order and some of the 2^64 patterns, and cannot compare a hand-written model with the text for all of them.", "anchors": ["include/ieme/floating_point.hpp: to_fraction, to_float, to_double, to_long_double", "include/ieme/floating_point.hpp: floating_point_to_fraction, fraction_to_floating_point"]}
{"id": "C148", "title": "The models of hashing, limits and denominator literals compute what their text says", "statement": "The text of hash.hpp, of limits.hpp and of fraction_literals.hpp (except _dec) is parsed, and calls and static constants are evaluated from what it parses to by an interpreter that knows the language: class templates, partial specialisations and their matching with default template arguments, member types, overloads, and std::numeric_limits of the integer types. For hash_combine, hash and the specialisations of std::hash, for the functions of ieme::limits and the functions and constants of std::numeric_limits of a fraction, and for the construction, value, signs and divisions of denominator literals, the evaluation of the text has exactly the outcome of the model that the other properties are about. Consequently, evaluated from the text, two fractions have the same hash whatever std::hash does only if they have the same parts, and max() and min() have the values of the greatest and least integer.", "quantifier": "all integer types, policies, fractions, mixed numbers, literals, functions std::hash of the integer types and widths of std::size_t (at least 2 bits)", "why_tests_cant": "That a hand-written model says the same as the text of the header for every type, value and policy cannot be seen from running the header on some of them.", "anchors": ["include/ieme/hash.hpp: hash, hash_combine, std::hash", "include/ieme/limits.hpp: limits, std::numeric_limits", "include/ieme/fraction_literals.hpp: denominator_literal, _fr, operator/"]}
{"id": "C149", "title": "The limits of mixed numbers can be used", "statement": "limits and std::numeric_limits of a mixed number would be expected to give its greatest and least values and its properties. They never do: every function of limits<mixed_number<W, F, o>> and every function and constant of std::numeric_limits<mixed_number<W, F>> is ill-formed, because both specialisations name a type mixed_number::fraction_type that does not exist; and for a policy other than the default no specialisation of std::numeric_limits fits, so that is_specialized is false and max(), min() and the others return zero. With the name corrected, max() and smallest() work for int, but min() runs into the precondition of std::gcd, undefined() and quiet_NaN() divide by zero, and has_quiet_NaN is missing.", "quantifier": "all integer types of the whole and of the fractional part, policies, and names of functions and constants (the corrected text: int)", "why_tests_cant": "The specialisations compile as long as nobody uses them, and no test uses them; that they cannot be used for any arguments is a statement about all instantiations.", "anchors": ["include/ieme/limits.hpp: limits<mixed_number>", "include/ieme/limits.hpp: std::numeric_limits<mixed_number>", "include/ieme/mixed_number.hpp: mixed_number"]}
{"id": "C150", "title": "The models of the stream operators do what their text says", "statement": "The text of the four stream operators is parsed and evaluated over an arbitrary kind of stream, given only by what it does with integers and characters. Whatever the stream, << writes the numerator, a slash and the denominator and leaves the object alone; >> reads the numerator, skips to the next slash and reads the denominator; and an exception of the stream ends in std::terminate, never in the caller. Taken with the streams of the models, the outcome is exactly that of each of the models the other properties are about: default formatting, formatting flags and width, other locales, 8-bit representations, stream exceptions, devices that break down or are full. Consequently, evaluated from the text, >> reads back what << has written.", "quantifier": "all kinds of streams and their states, fractions and raw fractions, integer types, formatting flags, locales and exception masks", "why_tests_cant": "A test sees some streams and some texts; that seven models and the text agree for every stream there can be is a statement about all of them.", "anchors": ["include/ieme/raw_fraction.hpp: operator<<, operator>>", "include/ieme/fraction.hpp: operator<<, operator>>"]}
{"id": "C151", "title": "The models of durations and clocks compute what the text of chrono.hpp says", "statement": "The text of chrono.hpp is parsed and evaluated with the alias templates, default template arguments, deduction, member types and the partial specialisation of treat_as_floating_point that it contains, over the durations and time points of the standard library and over the text of the fractions. The names of types mean what they say: duration, duration_like, time_point and time_point_like with and without a policy, and nanoseconds to hours with their lengths in seconds. Conversion of any duration or time point to a fractional one of any period, to_fractional with and without a policy, and clock_wrapper::now with and without period and policy have exactly the outcomes of the models the other properties are about, faults included. Consequently, evaluated from the text, to_fractional gives the count over one and never fails, a time that now gives is exactly the reading of the clock, a wrapper is steady if its clock is, and time points of another clock are rejected.", "quantifier": "all integer types, policies, periods, clocks and their readings, counts that are integers of any type or fractions of the target type", "why_tests_cant": "Periods, clocks and policies are template arguments: a test compiles a few of them, and a wrong alias or default shows only in the instantiations that are tried.", "anchors": ["include/ieme/chrono.hpp: treat_as_floating_point", "include/ieme/chrono.hpp: duration, duration_like, time_point, time_point_like", "include/ieme/chrono.hpp: to_fractional", "include/ieme/chrono.hpp: clock_wrapper"]}
{"id": "C152", "title": "Evaluated from its text, the library is exact and wrong exactly where the other properties say", "statement": "Calls are evaluated from the text of the headers that was parsed, not from the models. What an arithmetic operator on fractions or a fraction and an integer, of one or two integer types, returns without wrapping is the exact sum, difference, product, quotient (undefined for a zero divisor) or remainder. == and != are exact; an order comparison is right exactly when the denominators it multiplies by are positive or the values are equal. Unary minus, abs and reduce are exact, and reduce leaves a canonical fraction. trunc is exact; floor and ceil are wrong exactly between -1 and 0; round is right exactly under the condition of C32. The text gives the following wrong results: 1/-2 < 0 is false; 1/65536 < 1/65537 of int is undefined under safe and answered by fast; 1/0 + 1/2 divides by zero under the default policy; 1/2 / (3/0) is 0/6 under safe; is_reduced(3/-4) is true; round(-3/4) is 0; floor_redenominate(-1/8, 4) is 0/4; pow2(31) over int is negative; pow with the exponent -2147483648 overflows for every base; a mixed number from n/0 divides by zero for all types.", "quantifier": "all integer types, policies, operators and operands; the wrong results are concrete or for all types", "why_tests_cant": "The other properties are about models; a test of the model says nothing about the text, and the text can not be run here.", "anchors": ["include/ieme/fraction.hpp: operators", "include/ieme/fraction_math.hpp: abs, trunc, ceil, floor, round, redenominate, pow, pow2", "include/ieme/ops.hpp: safe, fast, reduced_input, reduced_output", "include/ieme/mixed_number.hpp: mixed_number"]}
{"id": "C153", "title": "Code that uses fractions, run with the text of the headers, means what it says", "statement": "Code of a user is read by the parser of the headers and run by their interpreter, so every operator, constructor and function of the library it uses is evaluated from the text of the headers. The code may use integers, fractions and mixed numbers of any integer types and one policy, truth values, arithmetic, ==, !=, order comparisons of fractions under a policy built on safe, && and ||, ?:, constructors and casts, whole, fractional and as_fraction, the numerators and denominators of reduced fractions, abs, reduce, normalize_signs, reciprocal, trunc, floor, ceil, round and the redenominations where they are right, the queries about sign, size, integers, unit fractions and definedness, declarations, assignments, compound assignments, if, return and while loops. Its meaning is said over the integers and the rational numbers alone. If the code ends without undefined behaviour and without wrap-around, it ends as it means. In particular the loop that adds 1/k, ..., 1 adds the harmonic number of k, the loop that multiplies k times by b multiplies by b to the k, and the loop that adds b k times to a mixed number adds k b and leaves the truncated value as the whole part, for all k, policies and integer types; and Euclid's algorithm on fractions ends with a number of which both are integer multiples and which is an integer combination of both; and the greedy algorithm for Egyptian fractions takes from a non-negative fraction at most as many unit fractions as its numerator, of which it is the sum; and k steps of bisection for a square root, under a policy built on safe, divide the distance of the bounds by 2 to the k and keep the root between them. Under safe and fast the power loop ends without overflow or wrap-around exactly if the parts of all intermediate products are representable, with exactly those parts; under safe the loop that adds b/d k times to a/d does exactly if all a + j b are representable, and keeps the denominator, while under fast the denominator is multiplied by d each time; and under safe Euclid's algorithm on a/d and b/d, with |a| and |b| representable, always ends so, with the greatest common divisor of a and b up to sign over d. Under every policy built on safe, the default among them, and on every signed type b/d can be added k times to 0 in a loop if k |b| is representable, and every expression over fractions and integers of one type whose static bounds (C106) are representable evaluates without overflow under every policy. Code of a user with assignments, conditionals and loops over fractions of one type that the static check of C114 accepts for the number of steps it needs over the rationals completes without overflow with the exact values. An equation a == b is true exactly if both sides mean the same number, so the distributive law holds. Order comparisons with integers are left out because x < 0 is false in the text for x = 1 over -2.", "quantifier": "all expressions, statements and loops of the stated forms, all integer types, policies and values of the variables", "why_tests_cant": "Tests run finitely many programs; the theorem is about all programs of the grammar, on all inputs.", "anchors": ["include/ieme/fraction.hpp: constructors, operators", "include/ieme/mixed_number.hpp: constructors, operators, as_fraction, whole, fractional", "include/ieme/fraction_math.hpp: abs, reduce, normalize_signs, reciprocal, trunc, floor, ceil, round, redenominate, trunc_redenominate, ceil_redenominate, floor_redenominate, round_redenominate", "include/ieme/fraction_queries.hpp: is_proper, is_improper, is_defined, is_undefined, is_zero, is_positive, is_negative, is_non_negative, is_non_positive, is_integer, is_unit_fraction"]}
{"id": "C154", "title": "Well-typed code that uses fractions can only fail by arithmetic", "statement": "The types of the code of users of C153, and of order comparisons with integers, ceil, floor, round, the other queries, and numerators and denominators, are decided without regard to values: common_type_t for operands of two integer types, the usual conversions for assignments. Run with the text of the headers, a well-typed expression has a value of its type whose numerator, denominator and whole part are in range; well-typed statements keep the types of the variables and return objects of the declared type; so does code with loops, after any number of rounds. The only failures are overflow, division by zero and the preconditions of std::gcd and std::lcm: overload resolution, template argument deduction and conversions in the text never fail. The runs of C153 are exactly the limited runs that end without wrap-around. An expression that is well typed and has a meaning evaluates to its meaning, wraps around, or fails by arithmetic; and well-typed code that has a meaning ends, after sufficiently many rounds of its loops, in one of these three ways.", "quantifier": "all well-typed expressions, statements and code, all integer types, policies, values of the variables and numbers of rounds", "why_tests_cant": "Type soundness is a statement about all programs; a test compiles and runs one.", "anchors": ["include/ieme/fraction.hpp: constructors, operators", "include/ieme/fraction_math.hpp: abs, reduce, normalize_signs, reciprocal, trunc, ceil, floor, round", "include/ieme/mixed_number.hpp: constructors, operators, as_fraction, whole, fractional", "include/ieme/fraction_queries.hpp: queries"]}
