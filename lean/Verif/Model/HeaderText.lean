/-!
# The text of the headers

Each list holds the lines of one header of `/repo/include/ieme`, character by character, in the
order of the file.  `Verif/Model/HeaderProgram.lean` shows what they parse to.
-/

namespace Ieme.Header.Text

/-- `/repo/include/ieme/numbers.hpp:1-27` -/
def numbers : List String := [
  "#ifndef IEME_NUMBERS_HPP",
  "#define IEME_NUMBERS_HPP",
  "",
  "",
  "namespace ieme {",
  "",
  "",
  "template <auto V, typename T>",
  "static constexpr auto number = static_cast<T>(V);",
  "",
  "template <typename T>",
  "static constexpr auto _0 = number<0, T>;",
  "",
  "template <typename T>",
  "static constexpr auto _1 = number<1, T>;",
  "",
  "template <typename T>",
  "static constexpr auto _2 = number<2, T>;",
  "",
  "template <typename T>",
  "static constexpr auto _10 = number<10, T>;",
  "",
  "",
  "} // namespace ieme",
  "",
  "",
  "#endif"]

/-- `/repo/include/ieme/reduce_mode.hpp:1-14` -/
def reduceMode : List String := [
  "#ifndef IEME_REDUCE_MODE_HPP",
  "#define IEME_REDUCE_MODE_HPP",
  "",
  "",
  "namespace ieme {",
  "",
  "",
  "enum class reduce_mode { normalize_signs, ignore_signs };",
  "",
  "",
  "};",
  "",
  "",
  "#endif"]

/-- `/repo/include/ieme/math_utilities.hpp:1-59` -/
def mathUtilities : List String := [
  "#ifndef IEME_MATH_UTILITIES_HPP",
  "#define IEME_MATH_UTILITIES_HPP",
  "",
  "#include <ieme/numbers.hpp>",
  "",
  "#include <type_traits>",
  "",
  "",
  "namespace ieme {",
  "namespace math_utilities {",
  "",
  "",
  "template <typename Int>",
  "constexpr Int abs(Int value) noexcept;",
  "",
  "template <typename Int>",
  "constexpr Int pow2(Int exponent) noexcept;",
  "",
  "template <typename Int>",
  "constexpr Int pow(Int base, Int exponent) noexcept;",
  "",
  "",
  "// =============================================================================",
  "",
  "",
  "template <typename Int>",
  "constexpr Int abs(Int const value) noexcept",
  "{",
  "  return (value >= _0<Int>) ? value : -value;",
  "}",
  "",
  "template <typename Int>",
  "constexpr Int pow2(Int const exponent) noexcept",
  "{",
  "  using unsigned_type = std::make_unsigned_t<Int>;",
  "",
  "  return static_cast<Int>(_1<unsigned_type> << unsigned_type(exponent));",
  "}",
  "",
  "template <typename Int>",
  "constexpr Int pow(Int const base, Int const exponent) noexcept",
  "{",
  "  if (exponent == _0<Int>)",
  "    return _1<Int>;",
  "",
  "  if (exponent % _2<Int> == _1<Int>)",
  "    return base * pow(base, exponent - _1<Int>);",
  "",
  "  auto const squareRoot = pow(base, exponent / _2<Int>);",
  "",
  "  return squareRoot * squareRoot;",
  "}",
  "",
  "",
  "}; // namespace math_utilities",
  "}; // namespace ieme",
  "",
  "",
  "#endif"]

/-- `/repo/include/ieme/raw_fraction.hpp:1-77` -/
def rawFraction : List String := [
  "#ifndef IEME_RAW_FRACTION_HPP",
  "#define IEME_RAW_FRACTION_HPP",
  "",
  "#include <istream>",
  "#include <limits>",
  "#include <ostream>",
  "#include <type_traits>",
  "",
  "",
  "namespace ieme {",
  "",
  "",
  "template <typename Rep>",
  "struct raw_fraction {",
  "  using rep_type = Rep;",
  "  Rep numerator = {}, denominator = {};",
  "",
  "  constexpr raw_fraction() noexcept = default;",
  "",
  "  constexpr raw_fraction(Rep const& init_numerator,",
  "                         Rep const& init_denominator) noexcept;",
  "",
  "  template <typename OtherRep,",
  "            typename = std::enable_if_t<std::is_convertible_v<OtherRep, Rep>>>",
  "  constexpr raw_fraction(raw_fraction<OtherRep> const& other) noexcept;",
  "};",
  "",
  "template <typename Rep>",
  "std::ostream& operator<<(std::ostream& stream,",
  "                         raw_fraction<Rep> const& value) noexcept;",
  "",
  "template <typename Rep>",
  "std::istream& operator>>(std::istream& stream,",
  "                         raw_fraction<Rep>& value) noexcept;",
  "",
  "",
  "// =============================================================================",
  "",
  "",
  "template <typename Rep>",
  "constexpr raw_fraction<Rep>::raw_fraction(Rep const& init_numerator,",
  "                                          Rep const& init_denominator) noexcept",
  "  :",
  "  numerator {init_numerator}, denominator {init_denominator}",
  "{",
  "}",
  "",
  "template <typename Rep>",
  "template <typename OtherRep, typename>",
  "constexpr raw_fraction<Rep>::raw_fraction(",
  "  raw_fraction<OtherRep> const& other) noexcept :",
  "  raw_fraction {static_cast<Rep>(other.numerator),",
  "                static_cast<Rep>(other.denominator)}",
  "{",
  "}",
  "",
  "template <typename Rep>",
  "std::ostream& operator<<(std::ostream& stream,",
  "                         raw_fraction<Rep> const& value) noexcept",
  "{",
  "  return stream << value.numerator << '/' << value.denominator;",
  "}",
  "",
  "template <typename Rep>",
  "std::istream& operator>>(std::istream& stream,",
  "                         raw_fraction<Rep>& value) noexcept",
  "{",
  "  stream >> value.numerator;",
  "  stream.ignore(std::numeric_limits<std::streamsize>::max(), '/');",
  "  return stream >> value.denominator;",
  "}",
  "",
  "",
  "}; // namespace ieme",
  "",
  "",
  "#endif"]

/-- `/repo/include/ieme/raw_fraction_queries.hpp:1-173` -/
def rawFractionQueries : List String := [
  "#ifndef IEME_RAW_FRACTION_QUERIES_HPP",
  "#define IEME_RAW_FRACTION_QUERIES_HPP",
  "",
  "#include <ieme/math_utilities.hpp>",
  "#include <ieme/numbers.hpp>",
  "#include <ieme/raw_fraction.hpp>",
  "",
  "#include <numeric>",
  "",
  "",
  "namespace ieme {",
  "",
  "",
  "template <typename Rep>",
  "constexpr bool is_defined(raw_fraction<Rep> const& value) noexcept;",
  "",
  "template <typename Rep>",
  "constexpr bool is_undefined(raw_fraction<Rep> const& value) noexcept;",
  "",
  "template <typename Rep>",
  "constexpr bool is_positive(raw_fraction<Rep> const& value) noexcept;",
  "",
  "template <typename Rep>",
  "constexpr bool is_non_negative(raw_fraction<Rep> const& value) noexcept;",
  "",
  "template <typename Rep>",
  "constexpr bool is_zero(raw_fraction<Rep> const& value) noexcept;",
  "",
  "template <typename Rep>",
  "constexpr bool is_non_positive(raw_fraction<Rep> const& value) noexcept;",
  "",
  "template <typename Rep>",
  "constexpr bool is_negative(raw_fraction<Rep> const& value) noexcept;",
  "",
  "template <typename Rep>",
  "constexpr bool is_integer(raw_fraction<Rep> const& value) noexcept;",
  "",
  "template <typename Rep>",
  "constexpr bool is_unit_fraction(raw_fraction<Rep> const& value) noexcept;",
  "",
  "template <typename Rep>",
  "constexpr bool is_reduced_ignore_signs(raw_fraction<Rep> const& value) noexcept;",
  "",
  "template <typename Rep>",
  "constexpr bool is_reduced(raw_fraction<Rep> const& value) noexcept;",
  "",
  "template <typename Rep>",
  "constexpr bool is_proper(raw_fraction<Rep> const& value) noexcept;",
  "",
  "template <typename Rep>",
  "constexpr bool is_improper(raw_fraction<Rep> const& value) noexcept;",
  "",
  "template <typename Rep>",
  "constexpr bool are_identical(raw_fraction<Rep> const& left,",
  "                             raw_fraction<Rep> const& right);",
  "",
  "template <typename Rep>",
  "constexpr bool are_different(raw_fraction<Rep> const& left,",
  "                             raw_fraction<Rep> const& right);",
  "",
  "",
  "// =============================================================================",
  "",
  "",
  "template <typename Rep>",
  "constexpr bool is_defined(raw_fraction<Rep> const& value) noexcept",
  "{",
  "  return value.denominator != _0<Rep>;",
  "}",
  "",
  "template <typename Rep>",
  "constexpr bool is_undefined(raw_fraction<Rep> const& value) noexcept",
  "{",
  "  return !is_defined(value);",
  "}",
  "",
  "template <typename Rep>",
  "constexpr bool is_positive(raw_fraction<Rep> const& value) noexcept",
  "{",
  "  return (value.numerator > _0<Rep> && value.denominator > _0<Rep>)",
  "         || (value.numerator < _0<Rep> && value.denominator < _0<Rep>);",
  "}",
  "",
  "template <typename Rep>",
  "constexpr bool is_non_negative(raw_fraction<Rep> const& value) noexcept",
  "{",
  "  return (value.numerator >= _0<Rep> && value.denominator > _0<Rep>)",
  "         || (value.numerator <= _0<Rep> && value.denominator < _0<Rep>);",
  "}",
  "",
  "template <typename Rep>",
  "constexpr bool is_zero(raw_fraction<Rep> const& value) noexcept",
  "{",
  "  return is_defined(value) && value.numerator == _0<Rep>;",
  "}",
  "",
  "template <typename Rep>",
  "constexpr bool is_non_positive(raw_fraction<Rep> const& value) noexcept",
  "{",
  "  return (value.numerator >= _0<Rep> && value.denominator < _0<Rep>)",
  "         || (value.numerator <= _0<Rep> && value.denominator > _0<Rep>);",
  "}",
  "",
  "template <typename Rep>",
  "constexpr bool is_negative(raw_fraction<Rep> const& value) noexcept",
  "{",
  "  return (value.numerator > _0<Rep> && value.denominator < _0<Rep>)",
  "         || (value.numerator < _0<Rep> && value.denominator > _0<Rep>);",
  "}",
  "",
  "template <typename Rep>",
  "constexpr bool is_integer(raw_fraction<Rep> const& value) noexcept",
  "{",
  "  return is_defined(value) && value.numerator % value.denominator == _0<Rep>;",
  "}",
  "",
  "template <typename Rep>",
  "constexpr bool is_unit_fraction(raw_fraction<Rep> const& value) noexcept",
  "{",
  "  return is_defined(value)",
  "         && value.numerator",
  "              != _0<Rep> && value.denominator % value.numerator == _0<Rep>;",
  "}",
  "",
  "template <typename Rep>",
  "constexpr bool is_reduced_ignore_signs(raw_fraction<Rep> const& value) noexcept",
  "{",
  "  return is_defined(value)",
  "         && std::gcd(value.numerator, value.denominator) == _1<Rep>;",
  "}",
  "",
  "template <typename Rep>",
  "constexpr bool is_reduced(raw_fraction<Rep> const& value) noexcept",
  "{",
  "  auto const signs_are_normalized",
  "    = value.numerator > _0<Rep> || value.denominator > _0<Rep>;",
  "",
  "  return signs_are_normalized && is_reduced_ignore_signs(value);",
  "}",
  "",
  "template <typename Rep>",
  "constexpr bool is_proper(raw_fraction<Rep> const& value) noexcept",
  "{",
  "  return math_utilities::abs(value.numerator)",
  "         < math_utilities::abs(value.denominator);",
  "}",
  "",
  "template <typename Rep>",
  "constexpr bool is_improper(raw_fraction<Rep> const& value) noexcept",
  "{",
  "  return !is_proper(value);",
  "}",
  "",
  "template <typename Rep>",
  "constexpr bool are_identical(raw_fraction<Rep> const& left,",
  "                             raw_fraction<Rep> const& right)",
  "{",
  "  return left.numerator == right.numerator",
  "         && left.denominator == right.denominator;",
  "}",
  "",
  "template <typename Rep>",
  "constexpr bool are_different(raw_fraction<Rep> const& left,",
  "                             raw_fraction<Rep> const& right)",
  "{",
  "  return !are_identical(left, right);",
  "}",
  "",
  "",
  "}; // namespace ieme",
  "",
  "",
  "#endif"]

/-- `/repo/include/ieme/raw_fraction_math.hpp:1-91` -/
def rawFractionMath : List String := [
  "#ifndef IEME_RAW_FRACTION_MATH_HPP",
  "#define IEME_RAW_FRACTION_MATH_HPP",
  "",
  "#include <ieme/numbers.hpp>",
  "#include <ieme/raw_fraction.hpp>",
  "#include <ieme/reduce_mode.hpp>",
  "",
  "#include <numeric>",
  "",
  "",
  "namespace ieme {",
  "",
  "",
  "template <typename Rep>",
  "constexpr raw_fraction<Rep> reciprocal(raw_fraction<Rep> const& value) noexcept;",
  "",
  "template <typename Rep>",
  "constexpr raw_fraction<Rep>",
  "normalize_signs(raw_fraction<Rep> const& value) noexcept;",
  "",
  "template <typename Rep>",
  "constexpr raw_fraction<Rep> reduce(raw_fraction<Rep> const& value,",
  "                                   reduce_mode mode",
  "                                   = reduce_mode::normalize_signs) noexcept;",
  "",
  "template <typename Rep>",
  "constexpr raw_fraction<Rep>",
  "reduce_normalize_signs(raw_fraction<Rep> const& value) noexcept;",
  "",
  "template <typename Rep>",
  "constexpr raw_fraction<Rep>",
  "reduce_ignore_signs(raw_fraction<Rep> const& value) noexcept;",
  "",
  "",
  "// =============================================================================",
  "",
  "",
  "template <typename Rep>",
  "constexpr raw_fraction<Rep> reciprocal(raw_fraction<Rep> const& value) noexcept",
  "{",
  "  return {value.denominator, value.numerator};",
  "}",
  "",
  "template <typename Rep>",
  "constexpr raw_fraction<Rep>",
  "normalize_signs(raw_fraction<Rep> const& value) noexcept",
  "{",
  "  return (value.denominator > _0<Rep>)",
  "           ? value",
  "           : raw_fraction<Rep>(-value.numerator, -value.denominator);",
  "}",
  "",
  "template <typename Rep>",
  "constexpr raw_fraction<Rep> reduce(raw_fraction<Rep> const& value,",
  "                                   reduce_mode const mode) noexcept",
  "{",
  "  switch (mode)",
  "  {",
  "    case reduce_mode::normalize_signs:",
  "      return reduce_normalize_signs(value);",
  "    case reduce_mode::ignore_signs:",
  "      return reduce_ignore_signs(value);",
  "  }",
  "",
  "  return {_0<Rep>, _0<Rep>};",
  "}",
  "",
  "template <typename Rep>",
  "constexpr raw_fraction<Rep>",
  "reduce_normalize_signs(raw_fraction<Rep> const& value) noexcept",
  "{",
  "  return normalize_signs(reduce_ignore_signs(value));",
  "}",
  "",
  "template <typename Rep>",
  "constexpr raw_fraction<Rep>",
  "reduce_ignore_signs(raw_fraction<Rep> const& value) noexcept",
  "{",
  "  if (is_undefined(value))",
  "    return {_0<Rep>, _0<Rep>};",
  "",
  "  auto const gcd = std::gcd(value.numerator, value.denominator);",
  "",
  "  return {value.numerator / gcd, value.denominator / gcd};",
  "}",
  "",
  "",
  "}; // namespace ieme",
  "",
  "",
  "#endif"]

/-- `/repo/include/ieme/ops.hpp:1-1479` -/
def ops : List String := [
  "#ifndef IEME_OPS_HPP",
  "#define IEME_OPS_HPP",
  "",
  "#include <ieme/raw_fraction.hpp>",
  "#include <ieme/raw_fraction_math.hpp>",
  "#include <ieme/raw_fraction_queries.hpp>",
  "",
  "#define IEME_DEFAULT_OPS_FALLBACK safe_reduced_io",
  "",
  "",
  "namespace ieme {",
  "namespace ops {",
  "",
  "",
  "class safe {",
  "",
  "public:",
  "  ~safe() = delete;",
  "",
  "  template <typename Rep>",
  "  static constexpr raw_fraction<Rep>",
  "  negate(raw_fraction<Rep> const& value) noexcept;",
  "",
  "  template <typename Rep>",
  "  static constexpr raw_fraction<Rep>",
  "  plus(raw_fraction<Rep> const& left, raw_fraction<Rep> const& right) noexcept;",
  "",
  "  template <typename Rep>",
  "  static constexpr raw_fraction<Rep> plus(raw_fraction<Rep> const& left,",
  "                                          Rep const& right) noexcept;",
  "",
  "  template <typename Rep>",
  "  static constexpr raw_fraction<Rep>",
  "  plus(Rep const& left, raw_fraction<Rep> const& right) noexcept;",
  "",
  "  template <typename Rep>",
  "  static constexpr raw_fraction<Rep>",
  "  minus(raw_fraction<Rep> const& left, raw_fraction<Rep> const& right) noexcept;",
  "",
  "  template <typename Rep>",
  "  static constexpr raw_fraction<Rep> minus(raw_fraction<Rep> const& left,",
  "                                           Rep const& right) noexcept;",
  "",
  "  template <typename Rep>",
  "  static constexpr raw_fraction<Rep>",
  "  minus(Rep const& left, raw_fraction<Rep> const& right) noexcept;",
  "",
  "  template <typename Rep>",
  "  static constexpr raw_fraction<Rep>",
  "  multiplies(raw_fraction<Rep> const& left,",
  "             raw_fraction<Rep> const& right) noexcept;",
  "",
  "  template <typename Rep>",
  "  static constexpr raw_fraction<Rep> multiplies(raw_fraction<Rep> const& left,",
  "                                                Rep const& right) noexcept;",
  "",
  "  template <typename Rep>",
  "  static constexpr raw_fraction<Rep>",
  "  multiplies(Rep const& left, raw_fraction<Rep> const& right) noexcept;",
  "",
  "  template <typename Rep>",
  "  static constexpr raw_fraction<Rep>",
  "  divides(raw_fraction<Rep> const& left,",
  "          raw_fraction<Rep> const& right) noexcept;",
  "",
  "  template <typename Rep>",
  "  static constexpr raw_fraction<Rep> divides(raw_fraction<Rep> const& left,",
  "                                             Rep const& right) noexcept;",
  "",
  "  template <typename Rep>",
  "  static constexpr raw_fraction<Rep>",
  "  divides(Rep const& left, raw_fraction<Rep> const& right) noexcept;",
  "",
  "  template <typename Rep>",
  "  static constexpr raw_fraction<Rep>",
  "  modulus(raw_fraction<Rep> const& left,",
  "          raw_fraction<Rep> const& right) noexcept;",
  "",
  "  template <typename Rep>",
  "  static constexpr raw_fraction<Rep> modulus(raw_fraction<Rep> const& left,",
  "                                             Rep const& right) noexcept;",
  "",
  "  template <typename Rep>",
  "  static constexpr raw_fraction<Rep>",
  "  modulus(Rep const& left, raw_fraction<Rep> const& right) noexcept;",
  "",
  "  template <typename Rep>",
  "  static constexpr bool equal_to(raw_fraction<Rep> const& left,",
  "                                 raw_fraction<Rep> const& right) noexcept;",
  "",
  "  template <typename Rep>",
  "  static constexpr bool equal_to(raw_fraction<Rep> const& left,",
  "                                 Rep const& right) noexcept;",
  "",
  "  template <typename Rep>",
  "  static constexpr bool equal_to(Rep const& left,",
  "                                 raw_fraction<Rep> const& right) noexcept;",
  "",
  "  template <typename Rep>",
  "  static constexpr bool not_equal_to(raw_fraction<Rep> const& left,",
  "                                     raw_fraction<Rep> const& right) noexcept;",
  "",
  "  template <typename Rep>",
  "  static constexpr bool not_equal_to(raw_fraction<Rep> const& left,",
  "                                     Rep const& right) noexcept;",
  "",
  "  template <typename Rep>",
  "  static constexpr bool not_equal_to(Rep const& left,",
  "                                     raw_fraction<Rep> const& right) noexcept;",
  "",
  "  template <typename Rep>",
  "  static constexpr bool less(raw_fraction<Rep> const& left,",
  "                             raw_fraction<Rep> const& right) noexcept;",
  "",
  "  template <typename Rep>",
  "  static constexpr bool less(raw_fraction<Rep> const& left,",
  "                             Rep const& right) noexcept;",
  "",
  "  template <typename Rep>",
  "  static constexpr bool less(Rep const& left,",
  "                             raw_fraction<Rep> const& right) noexcept;",
  "",
  "  template <typename Rep>",
  "  static constexpr bool less_equal(raw_fraction<Rep> const& left,",
  "                                   raw_fraction<Rep> const& right) noexcept;",
  "",
  "  template <typename Rep>",
  "  static constexpr bool less_equal(raw_fraction<Rep> const& left,",
  "                                   Rep const& right) noexcept;",
  "",
  "  template <typename Rep>",
  "  static constexpr bool less_equal(Rep const& left,",
  "                                   raw_fraction<Rep> const& right) noexcept;",
  "",
  "  template <typename Rep>",
  "  static constexpr bool greater(raw_fraction<Rep> const& left,",
  "                                raw_fraction<Rep> const& right) noexcept;",
  "",
  "  template <typename Rep>",
  "  static constexpr bool greater(raw_fraction<Rep> const& left,",
  "                                Rep const& right) noexcept;",
  "",
  "  template <typename Rep>",
  "  static constexpr bool greater(Rep const& left,",
  "                                raw_fraction<Rep> const& right) noexcept;",
  "",
  "  template <typename Rep>",
  "  static constexpr bool greater_equal(raw_fraction<Rep> const& left,",
  "                                      raw_fraction<Rep> const& right) noexcept;",
  "",
  "  template <typename Rep>",
  "  static constexpr bool greater_equal(raw_fraction<Rep> const& left,",
  "                                      Rep const& right) noexcept;",
  "",
  "  template <typename Rep>",
  "  static constexpr bool greater_equal(Rep const& left,",
  "                                      raw_fraction<Rep> const& right) noexcept;",
  "};",
  "",
  "",
  "class fast {",
  "",
  "public:",
  "  ~fast() = delete;",
  "",
  "  template <typename Rep>",
  "  static constexpr raw_fraction<Rep>",
  "  negate(raw_fraction<Rep> const& value) noexcept;",
  "",
  "  template <typename Rep>",
  "  static constexpr raw_fraction<Rep>",
  "  plus(raw_fraction<Rep> const& left, raw_fraction<Rep> const& right) noexcept;",
  "",
  "  template <typename Rep>",
  "  static constexpr raw_fraction<Rep> plus(raw_fraction<Rep> const& left,",
  "                                          Rep const& right) noexcept;",
  "",
  "  template <typename Rep>",
  "  static constexpr raw_fraction<Rep>",
  "  plus(Rep const& left, raw_fraction<Rep> const& right) noexcept;",
  "",
  "  template <typename Rep>",
  "  static constexpr raw_fraction<Rep>",
  "  minus(raw_fraction<Rep> const& left, raw_fraction<Rep> const& right) noexcept;",
  "",
  "  template <typename Rep>",
  "  static constexpr raw_fraction<Rep> minus(raw_fraction<Rep> const& left,",
  "                                           Rep const& right) noexcept;",
  "",
  "  template <typename Rep>",
  "  static constexpr raw_fraction<Rep>",
  "  minus(Rep const& left, raw_fraction<Rep> const& right) noexcept;",
  "",
  "  template <typename Rep>",
  "  static constexpr raw_fraction<Rep>",
  "  multiplies(raw_fraction<Rep> const& left,",
  "             raw_fraction<Rep> const& right) noexcept;",
  "",
  "  template <typename Rep>",
  "  static constexpr raw_fraction<Rep> multiplies(raw_fraction<Rep> const& left,",
  "                                                Rep const& right) noexcept;",
  "",
  "  template <typename Rep>",
  "  static constexpr raw_fraction<Rep>",
  "  multiplies(Rep const& left, raw_fraction<Rep> const& right) noexcept;",
  "",
  "  template <typename Rep>",
  "  static constexpr raw_fraction<Rep>",
  "  divides(raw_fraction<Rep> const& left,",
  "          raw_fraction<Rep> const& right) noexcept;",
  "",
  "  template <typename Rep>",
  "  static constexpr raw_fraction<Rep> divides(raw_fraction<Rep> const& left,",
  "                                             Rep const& right) noexcept;",
  "",
  "  template <typename Rep>",
  "  static constexpr raw_fraction<Rep>",
  "  divides(Rep const& left, raw_fraction<Rep> const& right) noexcept;",
  "",
  "  template <typename Rep>",
  "  static constexpr raw_fraction<Rep>",
  "  modulus(raw_fraction<Rep> const& left,",
  "          raw_fraction<Rep> const& right) noexcept;",
  "",
  "  template <typename Rep>",
  "  static constexpr raw_fraction<Rep> modulus(raw_fraction<Rep> const& left,",
  "                                             Rep const& right) noexcept;",
  "",
  "  template <typename Rep>",
  "  static constexpr raw_fraction<Rep>",
  "  modulus(Rep const& left, raw_fraction<Rep> const& right) noexcept;",
  "",
  "  template <typename Rep>",
  "  static constexpr bool equal_to(raw_fraction<Rep> const& left,",
  "                                 raw_fraction<Rep> const& right) noexcept;",
  "",
  "  template <typename Rep>",
  "  static constexpr bool equal_to(raw_fraction<Rep> const& left,",
  "                                 Rep const& right) noexcept;",
  "",
  "  template <typename Rep>",
  "  static constexpr bool equal_to(Rep const& left,",
  "                                 raw_fraction<Rep> const& right) noexcept;",
  "",
  "  template <typename Rep>",
  "  static constexpr bool not_equal_to(raw_fraction<Rep> const& left,",
  "                                     raw_fraction<Rep> const& right) noexcept;",
  "",
  "  template <typename Rep>",
  "  static constexpr bool not_equal_to(raw_fraction<Rep> const& left,",
  "                                     Rep const& right) noexcept;",
  "",
  "  template <typename Rep>",
  "  static constexpr bool not_equal_to(Rep const& left,",
  "                                     raw_fraction<Rep> const& right) noexcept;",
  "",
  "  template <typename Rep>",
  "  static constexpr bool less(raw_fraction<Rep> const& left,",
  "                             raw_fraction<Rep> const& right) noexcept;",
  "",
  "  template <typename Rep>",
  "  static constexpr bool less(raw_fraction<Rep> const& left,",
  "                             Rep const& right) noexcept;",
  "",
  "  template <typename Rep>",
  "  static constexpr bool less(Rep const& left,",
  "                             raw_fraction<Rep> const& right) noexcept;",
  "",
  "  template <typename Rep>",
  "  static constexpr bool less_equal(raw_fraction<Rep> const& left,",
  "                                   raw_fraction<Rep> const& right) noexcept;",
  "",
  "  template <typename Rep>",
  "  static constexpr bool less_equal(raw_fraction<Rep> const& left,",
  "                                   Rep const& right) noexcept;",
  "",
  "  template <typename Rep>",
  "  static constexpr bool less_equal(Rep const& left,",
  "                                   raw_fraction<Rep> const& right) noexcept;",
  "",
  "  template <typename Rep>",
  "  static constexpr bool greater(raw_fraction<Rep> const& left,",
  "                                raw_fraction<Rep> const& right) noexcept;",
  "",
  "  template <typename Rep>",
  "  static constexpr bool greater(raw_fraction<Rep> const& left,",
  "                                Rep const& right) noexcept;",
  "",
  "  template <typename Rep>",
  "  static constexpr bool greater(Rep const& left,",
  "                                raw_fraction<Rep> const& right) noexcept;",
  "",
  "  template <typename Rep>",
  "  static constexpr bool greater_equal(raw_fraction<Rep> const& left,",
  "                                      raw_fraction<Rep> const& right) noexcept;",
  "",
  "  template <typename Rep>",
  "  static constexpr bool greater_equal(raw_fraction<Rep> const& left,",
  "                                      Rep const& right) noexcept;",
  "",
  "  template <typename Rep>",
  "  static constexpr bool greater_equal(Rep const& left,",
  "                                      raw_fraction<Rep> const& right) noexcept;",
  "};",
  "",
  "",
  "template <typename Ops, reduce_mode Mode = reduce_mode::ignore_signs>",
  "class reduced_input {",
  "",
  "public:",
  "  using ops_type = Ops;",
  "",
  "  static constexpr reduce_mode mode = Mode;",
  "",
  "  ~reduced_input() = delete;",
  "",
  "  template <typename Rep>",
  "  static constexpr raw_fraction<Rep>",
  "  negate(raw_fraction<Rep> const& value) noexcept;",
  "",
  "  template <typename Rep>",
  "  static constexpr raw_fraction<Rep>",
  "  plus(raw_fraction<Rep> const& left, raw_fraction<Rep> const& right) noexcept;",
  "",
  "  template <typename Rep>",
  "  static constexpr raw_fraction<Rep> plus(raw_fraction<Rep> const& left,",
  "                                          Rep const& right) noexcept;",
  "",
  "  template <typename Rep>",
  "  static constexpr raw_fraction<Rep>",
  "  plus(Rep const& left, raw_fraction<Rep> const& right) noexcept;",
  "",
  "  template <typename Rep>",
  "  static constexpr raw_fraction<Rep>",
  "  minus(raw_fraction<Rep> const& left, raw_fraction<Rep> const& right) noexcept;",
  "",
  "  template <typename Rep>",
  "  static constexpr raw_fraction<Rep> minus(raw_fraction<Rep> const& left,",
  "                                           Rep const& right) noexcept;",
  "",
  "  template <typename Rep>",
  "  static constexpr raw_fraction<Rep>",
  "  minus(Rep const& left, raw_fraction<Rep> const& right) noexcept;",
  "",
  "  template <typename Rep>",
  "  static constexpr raw_fraction<Rep>",
  "  multiplies(raw_fraction<Rep> const& left,",
  "             raw_fraction<Rep> const& right) noexcept;",
  "",
  "  template <typename Rep>",
  "  static constexpr raw_fraction<Rep> multiplies(raw_fraction<Rep> const& left,",
  "                                                Rep const& right) noexcept;",
  "",
  "  template <typename Rep>",
  "  static constexpr raw_fraction<Rep>",
  "  multiplies(Rep const& left, raw_fraction<Rep> const& right) noexcept;",
  "",
  "  template <typename Rep>",
  "  static constexpr raw_fraction<Rep>",
  "  divides(raw_fraction<Rep> const& left,",
  "          raw_fraction<Rep> const& right) noexcept;",
  "",
  "  template <typename Rep>",
  "  static constexpr raw_fraction<Rep> divides(raw_fraction<Rep> const& left,",
  "                                             Rep const& right) noexcept;",
  "",
  "  template <typename Rep>",
  "  static constexpr raw_fraction<Rep>",
  "  divides(Rep const& left, raw_fraction<Rep> const& right) noexcept;",
  "",
  "  template <typename Rep>",
  "  static constexpr raw_fraction<Rep>",
  "  modulus(raw_fraction<Rep> const& left,",
  "          raw_fraction<Rep> const& right) noexcept;",
  "",
  "  template <typename Rep>",
  "  static constexpr raw_fraction<Rep> modulus(raw_fraction<Rep> const& left,",
  "                                             Rep const& right) noexcept;",
  "",
  "  template <typename Rep>",
  "  static constexpr raw_fraction<Rep>",
  "  modulus(Rep const& left, raw_fraction<Rep> const& right) noexcept;",
  "",
  "  template <typename Rep>",
  "  static constexpr bool equal_to(raw_fraction<Rep> const& left,",
  "                                 raw_fraction<Rep> const& right) noexcept;",
  "",
  "  template <typename Rep>",
  "  static constexpr bool equal_to(raw_fraction<Rep> const& left,",
  "                                 Rep const& right) noexcept;",
  "",
  "  template <typename Rep>",
  "  static constexpr bool equal_to(Rep const& left,",
  "                                 raw_fraction<Rep> const& right) noexcept;",
  "",
  "  template <typename Rep>",
  "  static constexpr bool not_equal_to(raw_fraction<Rep> const& left,",
  "                                     raw_fraction<Rep> const& right) noexcept;",
  "",
  "  template <typename Rep>",
  "  static constexpr bool not_equal_to(raw_fraction<Rep> const& left,",
  "                                     Rep const& right) noexcept;",
  "",
  "  template <typename Rep>",
  "  static constexpr bool not_equal_to(Rep const& left,",
  "                                     raw_fraction<Rep> const& right) noexcept;",
  "",
  "  template <typename Rep>",
  "  static constexpr bool less(raw_fraction<Rep> const& left,",
  "                             raw_fraction<Rep> const& right) noexcept;",
  "",
  "  template <typename Rep>",
  "  static constexpr bool less(raw_fraction<Rep> const& left,",
  "                             Rep const& right) noexcept;",
  "",
  "  template <typename Rep>",
  "  static constexpr bool less(Rep const& left,",
  "                             raw_fraction<Rep> const& right) noexcept;",
  "",
  "  template <typename Rep>",
  "  static constexpr bool less_equal(raw_fraction<Rep> const& left,",
  "                                   raw_fraction<Rep> const& right) noexcept;",
  "",
  "  template <typename Rep>",
  "  static constexpr bool less_equal(raw_fraction<Rep> const& left,",
  "                                   Rep const& right) noexcept;",
  "",
  "  template <typename Rep>",
  "  static constexpr bool less_equal(Rep const& left,",
  "                                   raw_fraction<Rep> const& right) noexcept;",
  "",
  "  template <typename Rep>",
  "  static constexpr bool greater(raw_fraction<Rep> const& left,",
  "                                raw_fraction<Rep> const& right) noexcept;",
  "",
  "  template <typename Rep>",
  "  static constexpr bool greater(raw_fraction<Rep> const& left,",
  "                                Rep const& right) noexcept;",
  "",
  "  template <typename Rep>",
  "  static constexpr bool greater(Rep const& left,",
  "                                raw_fraction<Rep> const& right) noexcept;",
  "",
  "  template <typename Rep>",
  "  static constexpr bool greater_equal(raw_fraction<Rep> const& left,",
  "                                      raw_fraction<Rep> const& right) noexcept;",
  "",
  "  template <typename Rep>",
  "  static constexpr bool greater_equal(raw_fraction<Rep> const& left,",
  "                                      Rep const& right) noexcept;",
  "",
  "  template <typename Rep>",
  "  static constexpr bool greater_equal(Rep const& left,",
  "                                      raw_fraction<Rep> const& right) noexcept;",
  "};",
  "",
  "",
  "template <typename Ops, reduce_mode Mode = reduce_mode::normalize_signs>",
  "class reduced_output {",
  "",
  "public:",
  "  using ops_type = Ops;",
  "",
  "  static constexpr reduce_mode mode = Mode;",
  "",
  "  ~reduced_output() = delete;",
  "",
  "  template <typename Rep>",
  "  static constexpr raw_fraction<Rep>",
  "  negate(raw_fraction<Rep> const& value) noexcept;",
  "",
  "  template <typename Left, typename Right>",
  "  static constexpr auto plus(Left const& left, Right const& right) noexcept;",
  "",
  "  template <typename Left, typename Right>",
  "  static constexpr auto minus(Left const& left, Right const& right) noexcept;",
  "",
  "  template <typename Left, typename Right>",
  "  static constexpr auto multiplies(Left const& left,",
  "                                   Right const& right) noexcept;",
  "",
  "  template <typename Left, typename Right>",
  "  static constexpr auto divides(Left const& left, Right const& right) noexcept;",
  "",
  "  template <typename Left, typename Right>",
  "  static constexpr auto modulus(Left const& left, Right const& right) noexcept;",
  "",
  "  template <typename Left, typename Right>",
  "  static constexpr bool equal_to(Left const& left, Right const& right) noexcept;",
  "",
  "  template <typename Left, typename Right>",
  "  static constexpr bool not_equal_to(Left const& left,",
  "                                     Right const& right) noexcept;",
  "",
  "  template <typename Left, typename Right>",
  "  static constexpr bool less(Left const& left, Right const& right) noexcept;",
  "",
  "  template <typename Left, typename Right>",
  "  static constexpr bool less_equal(Left const& left,",
  "                                   Right const& right) noexcept;",
  "",
  "  template <typename Left, typename Right>",
  "  static constexpr bool greater(Left const& left, Right const& right) noexcept;",
  "",
  "  template <typename Left, typename Right>",
  "  static constexpr bool greater_equal(Left const& left,",
  "                                      Right const& right) noexcept;",
  "};",
  "",
  "",
  "using safe_reduced_i = reduced_input<safe>;",
  "using safe_reduced_o = reduced_output<safe>;",
  "using safe_reduced_io = reduced_input<safe_reduced_o>;",
  "using fast_reduced_i = reduced_input<fast>;",
  "using fast_reduced_o = reduced_output<fast>;",
  "using fast_reduced_io = reduced_input<fast_reduced_o>;",
  "",
  "#if defined(IEME_DEFAULT_OPS_SAFE)",
  "using defaults = safe;",
  "#elif defined(IEME_DEFAULT_OPS_SAFE_REDUCED_I)",
  "using defaults = safe_reduced_i;",
  "#elif defined(IEME_DEFAULT_OPS_SAFE_REDUCED_O)",
  "using defaults = safe_reduced_o;",
  "#elif defined(IEME_DEFAULT_OPS_SAFE_REDUCED_IO)",
  "using defaults = safe_reduced_io;",
  "#elif defined(IEME_DEFAULT_OPS_FAST)",
  "using defaults = fast;",
  "#elif defined(IEME_DEFAULT_OPS_FAST_REDUCED_I)",
  "using defaults = fast_reduced_i;",
  "#elif defined(IEME_DEFAULT_OPS_FAST_REDUCED_O)",
  "using defaults = fast_reduced_o;",
  "#elif defined(IEME_DEFAULT_OPS_FAST_REDUCED_IO)",
  "using defaults = fast_reduced_io;",
  "#else",
  "using defaults = IEME_DEFAULT_OPS_FALLBACK;",
  "#endif",
  "",
  "",
  "// =============================================================================",
  "",
  "",
  "template <typename Rep>",
  "constexpr raw_fraction<Rep>",
  "safe::negate(raw_fraction<Rep> const& value) noexcept",
  "{",
  "  return {-value.numerator, value.denominator};",
  "}",
  "",
  "template <typename Rep>",
  "constexpr raw_fraction<Rep> safe::plus(raw_fraction<Rep> const& left,",
  "                                       raw_fraction<Rep> const& right) noexcept",
  "{",
  "  auto const lcm = std::lcm(left.denominator, right.denominator);",
  "",
  "  return {lcm / left.denominator * left.numerator",
  "            + lcm / right.denominator * right.numerator,",
  "          lcm};",
  "}",
  "",
  "template <typename Rep>",
  "constexpr raw_fraction<Rep> safe::plus(raw_fraction<Rep> const& left,",
  "                                       Rep const& right) noexcept",
  "{",
  "  return {left.numerator + right * left.denominator, left.denominator};",
  "}",
  "",
  "template <typename Rep>",
  "constexpr raw_fraction<Rep> safe::plus(Rep const& left,",
  "                                       raw_fraction<Rep> const& right) noexcept",
  "{",
  "  return plus(right, left);",
  "}",
  "",
  "template <typename Rep>",
  "constexpr raw_fraction<Rep> safe::minus(raw_fraction<Rep> const& left,",
  "                                        raw_fraction<Rep> const& right) noexcept",
  "{",
  "  auto const lcm = std::lcm(left.denominator, right.denominator);",
  "",
  "  return {lcm / left.denominator * left.numerator",
  "            - lcm / right.denominator * right.numerator,",
  "          lcm};",
  "}",
  "",
  "template <typename Rep>",
  "constexpr raw_fraction<Rep> safe::minus(raw_fraction<Rep> const& left,",
  "                                        Rep const& right) noexcept",
  "{",
  "  return {left.numerator - right * left.denominator, left.denominator};",
  "}",
  "",
  "template <typename Rep>",
  "constexpr raw_fraction<Rep> safe::minus(Rep const& left,",
  "                                        raw_fraction<Rep> const& right) noexcept",
  "{",
  "  return {left * right.denominator - right.numerator, right.denominator};",
  "}",
  "",
  "template <typename Rep>",
  "constexpr raw_fraction<Rep>",
  "safe::multiplies(raw_fraction<Rep> const& left,",
  "                 raw_fraction<Rep> const& right) noexcept",
  "{",
  "  return {left.numerator * right.numerator,",
  "          left.denominator * right.denominator};",
  "}",
  "",
  "template <typename Rep>",
  "constexpr raw_fraction<Rep> safe::multiplies(raw_fraction<Rep> const& left,",
  "                                             Rep const& right) noexcept",
  "{",
  "  return {left.numerator * right, left.denominator};",
  "}",
  "",
  "template <typename Rep>",
  "constexpr raw_fraction<Rep>",
  "safe::multiplies(Rep const& left, raw_fraction<Rep> const& right) noexcept",
  "{",
  "  return multiplies(right, left);",
  "}",
  "",
  "template <typename Rep>",
  "constexpr raw_fraction<Rep>",
  "safe::divides(raw_fraction<Rep> const& left,",
  "              raw_fraction<Rep> const& right) noexcept",
  "{",
  "  return {left.numerator * right.denominator,",
  "          left.denominator * right.numerator};",
  "}",
  "",
  "template <typename Rep>",
  "constexpr raw_fraction<Rep> safe::divides(raw_fraction<Rep> const& left,",
  "                                          Rep const& right) noexcept",
  "{",
  "  return {left.numerator, left.denominator * right};",
  "}",
  "",
  "template <typename Rep>",
  "constexpr raw_fraction<Rep>",
  "safe::divides(Rep const& left, raw_fraction<Rep> const& right) noexcept",
  "{",
  "  return {left * right.denominator, right.numerator};",
  "}",
  "",
  "template <typename Rep>",
  "constexpr raw_fraction<Rep>",
  "safe::modulus(raw_fraction<Rep> const& left,",
  "              raw_fraction<Rep> const& right) noexcept",
  "{",
  "  auto const lcm = std::lcm(left.denominator, right.denominator);",
  "",
  "  return {(lcm / left.denominator * left.numerator)",
  "            % (lcm / right.denominator * right.numerator),",
  "          lcm};",
  "}",
  "",
  "template <typename Rep>",
  "constexpr raw_fraction<Rep> safe::modulus(raw_fraction<Rep> const& left,",
  "                                          Rep const& right) noexcept",
  "{",
  "  return {left.numerator % (left.denominator * right), left.denominator};",
  "}",
  "",
  "template <typename Rep>",
  "constexpr raw_fraction<Rep>",
  "safe::modulus(Rep const& left, raw_fraction<Rep> const& right) noexcept",
  "{",
  "  return {(right.denominator * left) % right.numerator, right.denominator};",
  "}",
  "",
  "template <typename Rep>",
  "constexpr bool safe::equal_to(raw_fraction<Rep> const& left,",
  "                              raw_fraction<Rep> const& right) noexcept",
  "{",
  "  if (is_undefined(left) || is_undefined(right))",
  "    return false;",
  "",
  "  auto const lcm = std::lcm(left.denominator, right.denominator);",
  "",
  "  return lcm / left.denominator * left.numerator",
  "         == lcm / right.denominator * right.numerator;",
  "}",
  "",
  "template <typename Rep>",
  "constexpr bool safe::equal_to(raw_fraction<Rep> const& left,",
  "                              Rep const& right) noexcept",
  "{",
  "  return left.numerator == right * left.denominator && is_defined(left);",
  "}",
  "",
  "template <typename Rep>",
  "constexpr bool safe::equal_to(Rep const& left,",
  "                              raw_fraction<Rep> const& right) noexcept",
  "{",
  "  return equal_to(right, left);",
  "}",
  "",
  "template <typename Rep>",
  "constexpr bool safe::not_equal_to(raw_fraction<Rep> const& left,",
  "                                  raw_fraction<Rep> const& right) noexcept",
  "{",
  "  return !equal_to(left, right);",
  "}",
  "",
  "template <typename Rep>",
  "constexpr bool safe::not_equal_to(raw_fraction<Rep> const& left,",
  "                                  Rep const& right) noexcept",
  "{",
  "  return !equal_to(left, right);",
  "}",
  "",
  "template <typename Rep>",
  "constexpr bool safe::not_equal_to(Rep const& left,",
  "                                  raw_fraction<Rep> const& right) noexcept",
  "{",
  "  return not_equal_to(right, left);",
  "}",
  "",
  "template <typename Rep>",
  "constexpr bool safe::less(raw_fraction<Rep> const& left,",
  "                          raw_fraction<Rep> const& right) noexcept",
  "{",
  "  if (is_undefined(left) || is_undefined(right))",
  "    return false;",
  "",
  "  auto const lcm = std::lcm(left.denominator, right.denominator);",
  "",
  "  return lcm / left.denominator * left.numerator",
  "         < lcm / right.denominator * right.numerator;",
  "}",
  "",
  "template <typename Rep>",
  "constexpr bool safe::less(raw_fraction<Rep> const& left,",
  "                          Rep const& right) noexcept",
  "{",
  "  return left.numerator < right * left.denominator && is_defined(left);",
  "}",
  "",
  "template <typename Rep>",
  "constexpr bool safe::less(Rep const& left,",
  "                          raw_fraction<Rep> const& right) noexcept",
  "{",
  "  return left * right.denominator < right.numerator && is_defined(right);",
  "}",
  "",
  "template <typename Rep>",
  "constexpr bool safe::less_equal(raw_fraction<Rep> const& left,",
  "                                raw_fraction<Rep> const& right) noexcept",
  "{",
  "  if (is_undefined(left) || is_undefined(right))",
  "    return false;",
  "",
  "  auto const lcm = std::lcm(left.denominator, right.denominator);",
  "",
  "  return lcm / left.denominator * left.numerator",
  "         <= lcm / right.denominator * right.numerator;",
  "}",
  "",
  "template <typename Rep>",
  "constexpr bool safe::less_equal(raw_fraction<Rep> const& left,",
  "                                Rep const& right) noexcept",
  "{",
  "  return left.numerator <= right * left.denominator && is_defined(left);",
  "}",
  "",
  "template <typename Rep>",
  "constexpr bool safe::less_equal(Rep const& left,",
  "                                raw_fraction<Rep> const& right) noexcept",
  "{",
  "  return left * right.denominator <= right.numerator && is_defined(right);",
  "}",
  "",
  "template <typename Rep>",
  "constexpr bool safe::greater(raw_fraction<Rep> const& left,",
  "                             raw_fraction<Rep> const& right) noexcept",
  "{",
  "  return less(right, left);",
  "}",
  "",
  "template <typename Rep>",
  "constexpr bool safe::greater(raw_fraction<Rep> const& left,",
  "                             Rep const& right) noexcept",
  "{",
  "  return less(right, left);",
  "}",
  "",
  "template <typename Rep>",
  "constexpr bool safe::greater(Rep const& left,",
  "                             raw_fraction<Rep> const& right) noexcept",
  "{",
  "  return less(right, left);",
  "}",
  "",
  "template <typename Rep>",
  "constexpr bool safe::greater_equal(raw_fraction<Rep> const& left,",
  "                                   raw_fraction<Rep> const& right) noexcept",
  "{",
  "  return less_equal(right, left);",
  "}",
  "",
  "template <typename Rep>",
  "constexpr bool safe::greater_equal(raw_fraction<Rep> const& left,",
  "                                   Rep const& right) noexcept",
  "{",
  "  return less_equal(right, left);",
  "}",
  "",
  "template <typename Rep>",
  "constexpr bool safe::greater_equal(Rep const& left,",
  "                                   raw_fraction<Rep> const& right) noexcept",
  "{",
  "  return less_equal(right, left);",
  "}",
  "",
  "",
  "template <typename Rep>",
  "constexpr raw_fraction<Rep>",
  "fast::negate(raw_fraction<Rep> const& value) noexcept",
  "{",
  "  return {-value.numerator, value.denominator};",
  "}",
  "",
  "template <typename Rep>",
  "constexpr raw_fraction<Rep> fast::plus(raw_fraction<Rep> const& left,",
  "                                       raw_fraction<Rep> const& right) noexcept",
  "{",
  "  return {left.numerator * right.denominator",
  "            + right.numerator * left.denominator,",
  "          left.denominator * right.denominator};",
  "}",
  "",
  "template <typename Rep>",
  "constexpr raw_fraction<Rep> fast::plus(raw_fraction<Rep> const& left,",
  "                                       Rep const& right) noexcept",
  "{",
  "  return {left.numerator + right * left.denominator, left.denominator};",
  "}",
  "",
  "template <typename Rep>",
  "constexpr raw_fraction<Rep> fast::plus(Rep const& left,",
  "                                       raw_fraction<Rep> const& right) noexcept",
  "{",
  "  return plus(right, left);",
  "}",
  "",
  "template <typename Rep>",
  "constexpr raw_fraction<Rep> fast::minus(raw_fraction<Rep> const& left,",
  "                                        raw_fraction<Rep> const& right) noexcept",
  "{",
  "  return {left.numerator * right.denominator",
  "            - right.numerator * left.denominator,",
  "          left.denominator * right.denominator};",
  "}",
  "",
  "template <typename Rep>",
  "constexpr raw_fraction<Rep> fast::minus(raw_fraction<Rep> const& left,",
  "                                        Rep const& right) noexcept",
  "{",
  "  return {left.numerator - right * left.denominator, left.denominator};",
  "}",
  "",
  "template <typename Rep>",
  "constexpr raw_fraction<Rep> fast::minus(Rep const& left,",
  "                                        raw_fraction<Rep> const& right) noexcept",
  "{",
  "  return {left * right.denominator - right.numerator, right.denominator};",
  "}",
  "",
  "template <typename Rep>",
  "constexpr raw_fraction<Rep>",
  "fast::multiplies(raw_fraction<Rep> const& left,",
  "                 raw_fraction<Rep> const& right) noexcept",
  "{",
  "  return {left.numerator * right.numerator,",
  "          left.denominator * right.denominator};",
  "}",
  "",
  "template <typename Rep>",
  "constexpr raw_fraction<Rep> fast::multiplies(raw_fraction<Rep> const& left,",
  "                                             Rep const& right) noexcept",
  "{",
  "  return {left.numerator * right, left.denominator};",
  "}",
  "",
  "template <typename Rep>",
  "constexpr raw_fraction<Rep>",
  "fast::multiplies(Rep const& left, raw_fraction<Rep> const& right) noexcept",
  "{",
  "  return multiplies(right, left);",
  "}",
  "",
  "template <typename Rep>",
  "constexpr raw_fraction<Rep>",
  "fast::divides(raw_fraction<Rep> const& left,",
  "              raw_fraction<Rep> const& right) noexcept",
  "{",
  "  return {left.numerator * right.denominator,",
  "          left.denominator * right.numerator};",
  "}",
  "",
  "template <typename Rep>",
  "constexpr raw_fraction<Rep> fast::divides(raw_fraction<Rep> const& left,",
  "                                          Rep const& right) noexcept",
  "{",
  "  return {left.numerator, left.denominator * right};",
  "}",
  "",
  "template <typename Rep>",
  "constexpr raw_fraction<Rep>",
  "fast::divides(Rep const& left, raw_fraction<Rep> const& right) noexcept",
  "{",
  "  return {left * right.denominator, right.numerator};",
  "}",
  "",
  "template <typename Rep>",
  "constexpr raw_fraction<Rep>",
  "fast::modulus(raw_fraction<Rep> const& left,",
  "              raw_fraction<Rep> const& right) noexcept",
  "{",
  "  return {(left.numerator * right.denominator)",
  "            % (right.numerator * left.denominator),",
  "          left.denominator * right.denominator};",
  "}",
  "",
  "template <typename Rep>",
  "constexpr raw_fraction<Rep> fast::modulus(raw_fraction<Rep> const& left,",
  "                                          Rep const& right) noexcept",
  "{",
  "  return {left.numerator % (right * left.denominator), left.denominator};",
  "}",
  "",
  "template <typename Rep>",
  "constexpr raw_fraction<Rep>",
  "fast::modulus(Rep const& left, raw_fraction<Rep> const& right) noexcept",
  "{",
  "  return {(left * right.denominator) % right.numerator, right.denominator};",
  "}",
  "",
  "template <typename Rep>",
  "constexpr bool fast::equal_to(raw_fraction<Rep> const& left,",
  "                              raw_fraction<Rep> const& right) noexcept",
  "{",
  "  return left.numerator * right.denominator",
  "           == right.numerator * left.denominator",
  "         && is_defined(left) && is_defined(right);",
  "}",
  "",
  "template <typename Rep>",
  "constexpr bool fast::equal_to(raw_fraction<Rep> const& left,",
  "                              Rep const& right) noexcept",
  "{",
  "  return left.numerator == right * left.denominator && is_defined(left);",
  "}",
  "",
  "template <typename Rep>",
  "constexpr bool fast::equal_to(Rep const& left,",
  "                              raw_fraction<Rep> const& right) noexcept",
  "{",
  "  return equal_to(right, left);",
  "}",
  "",
  "template <typename Rep>",
  "constexpr bool fast::not_equal_to(raw_fraction<Rep> const& left,",
  "                                  raw_fraction<Rep> const& right) noexcept",
  "{",
  "  return !equal_to(left, right);",
  "}",
  "",
  "template <typename Rep>",
  "constexpr bool fast::not_equal_to(raw_fraction<Rep> const& left,",
  "                                  Rep const& right) noexcept",
  "{",
  "  return !equal_to(left, right);",
  "}",
  "",
  "template <typename Rep>",
  "constexpr bool fast::not_equal_to(Rep const& left,",
  "                                  raw_fraction<Rep> const& right) noexcept",
  "{",
  "  return !equal_to(left, right);",
  "}",
  "",
  "template <typename Rep>",
  "constexpr bool fast::less(raw_fraction<Rep> const& left,",
  "                          raw_fraction<Rep> const& right) noexcept",
  "{",
  "  return left.numerator * right.denominator < right.numerator * left.denominator",
  "         && is_defined(left) && is_defined(right);",
  "}",
  "",
  "template <typename Rep>",
  "constexpr bool fast::less(raw_fraction<Rep> const& left,",
  "                          Rep const& right) noexcept",
  "{",
  "  return left.numerator < right * left.denominator && is_defined(left);",
  "}",
  "",
  "template <typename Rep>",
  "constexpr bool fast::less(Rep const& left,",
  "                          raw_fraction<Rep> const& right) noexcept",
  "{",
  "  return left * right.denominator < right.numerator && is_defined(right);",
  "}",
  "",
  "template <typename Rep>",
  "constexpr bool fast::less_equal(raw_fraction<Rep> const& left,",
  "                                raw_fraction<Rep> const& right) noexcept",
  "{",
  "  return left.numerator * right.denominator",
  "           <= right.numerator * left.denominator",
  "         && is_defined(left) && is_defined(right);",
  "}",
  "",
  "template <typename Rep>",
  "constexpr bool fast::less_equal(raw_fraction<Rep> const& left,",
  "                                Rep const& right) noexcept",
  "{",
  "  return left.numerator <= right * left.denominator && is_defined(left);",
  "}",
  "",
  "template <typename Rep>",
  "constexpr bool fast::less_equal(Rep const& left,",
  "                                raw_fraction<Rep> const& right) noexcept",
  "{",
  "  return left * right.denominator <= right.numerator && is_defined(right);",
  "}",
  "",
  "template <typename Rep>",
  "constexpr bool fast::greater(raw_fraction<Rep> const& left,",
  "                             raw_fraction<Rep> const& right) noexcept",
  "{",
  "  return less(right, left);",
  "}",
  "",
  "template <typename Rep>",
  "constexpr bool fast::greater(raw_fraction<Rep> const& left,",
  "                             Rep const& right) noexcept",
  "{",
  "  return less(right, left);",
  "}",
  "",
  "template <typename Rep>",
  "constexpr bool fast::greater(Rep const& left,",
  "                             raw_fraction<Rep> const& right) noexcept",
  "{",
  "  return less(right, left);",
  "}",
  "",
  "template <typename Rep>",
  "constexpr bool fast::greater_equal(raw_fraction<Rep> const& left,",
  "                                   raw_fraction<Rep> const& right) noexcept",
  "{",
  "  return less_equal(right, left);",
  "}",
  "",
  "template <typename Rep>",
  "constexpr bool fast::greater_equal(raw_fraction<Rep> const& left,",
  "                                   Rep const& right) noexcept",
  "{",
  "  return less_equal(right, left);",
  "}",
  "",
  "template <typename Rep>",
  "constexpr bool fast::greater_equal(Rep const& left,",
  "                                   raw_fraction<Rep> const& right) noexcept",
  "{",
  "  return less_equal(right, left);",
  "}",
  "",
  "",
  "template <typename Ops, reduce_mode Mode>",
  "template <typename Rep>",
  "constexpr raw_fraction<Rep>",
  "reduced_input<Ops, Mode>::negate(raw_fraction<Rep> const& value) noexcept",
  "{",
  "  return ops_type::negate(reduce(value));",
  "}",
  "",
  "template <typename Ops, reduce_mode Mode>",
  "template <typename Rep>",
  "constexpr raw_fraction<Rep>",
  "reduced_input<Ops, Mode>::plus(raw_fraction<Rep> const& left,",
  "                               raw_fraction<Rep> const& right) noexcept",
  "{",
  "  return ops_type::plus(reduce(left, mode), reduce(right, mode));",
  "}",
  "",
  "template <typename Ops, reduce_mode Mode>",
  "template <typename Rep>",
  "constexpr raw_fraction<Rep>",
  "reduced_input<Ops, Mode>::plus(raw_fraction<Rep> const& left,",
  "                               Rep const& right) noexcept",
  "{",
  "  return ops_type::plus(reduce(left, mode), right);",
  "}",
  "",
  "template <typename Ops, reduce_mode Mode>",
  "template <typename Rep>",
  "constexpr raw_fraction<Rep>",
  "reduced_input<Ops, Mode>::plus(Rep const& left,",
  "                               raw_fraction<Rep> const& right) noexcept",
  "{",
  "  return ops_type::plus(left, reduce(right, mode));",
  "}",
  "",
  "template <typename Ops, reduce_mode Mode>",
  "template <typename Rep>",
  "constexpr raw_fraction<Rep>",
  "reduced_input<Ops, Mode>::minus(raw_fraction<Rep> const& left,",
  "                                raw_fraction<Rep> const& right) noexcept",
  "{",
  "  return ops_type::minus(reduce(left, mode), reduce(right, mode));",
  "}",
  "",
  "template <typename Ops, reduce_mode Mode>",
  "template <typename Rep>",
  "constexpr raw_fraction<Rep>",
  "reduced_input<Ops, Mode>::minus(raw_fraction<Rep> const& left,",
  "                                Rep const& right) noexcept",
  "{",
  "  return ops_type::minus(reduce(left, mode), right);",
  "}",
  "",
  "template <typename Ops, reduce_mode Mode>",
  "template <typename Rep>",
  "constexpr raw_fraction<Rep>",
  "reduced_input<Ops, Mode>::minus(Rep const& left,",
  "                                raw_fraction<Rep> const& right) noexcept",
  "{",
  "  return ops_type::minus(left, reduce(right, mode));",
  "}",
  "",
  "template <typename Ops, reduce_mode Mode>",
  "template <typename Rep>",
  "constexpr raw_fraction<Rep>",
  "reduced_input<Ops, Mode>::multiplies(raw_fraction<Rep> const& left,",
  "                                     raw_fraction<Rep> const& right) noexcept",
  "{",
  "  return ops_type::multiplies(reduce(left, mode), reduce(right, mode));",
  "}",
  "",
  "template <typename Ops, reduce_mode Mode>",
  "template <typename Rep>",
  "constexpr raw_fraction<Rep>",
  "reduced_input<Ops, Mode>::multiplies(raw_fraction<Rep> const& left,",
  "                                     Rep const& right) noexcept",
  "{",
  "  return ops_type::multiplies(reduce(left, mode), right);",
  "}",
  "",
  "template <typename Ops, reduce_mode Mode>",
  "template <typename Rep>",
  "constexpr raw_fraction<Rep>",
  "reduced_input<Ops, Mode>::multiplies(Rep const& left,",
  "                                     raw_fraction<Rep> const& right) noexcept",
  "{",
  "  return ops_type::multiplies(left, reduce(right, mode));",
  "}",
  "",
  "template <typename Ops, reduce_mode Mode>",
  "template <typename Rep>",
  "constexpr raw_fraction<Rep>",
  "reduced_input<Ops, Mode>::divides(raw_fraction<Rep> const& left,",
  "                                  raw_fraction<Rep> const& right) noexcept",
  "{",
  "  return ops_type::divides(reduce(left, mode), reduce(right, mode));",
  "}",
  "",
  "template <typename Ops, reduce_mode Mode>",
  "template <typename Rep>",
  "constexpr raw_fraction<Rep>",
  "reduced_input<Ops, Mode>::divides(raw_fraction<Rep> const& left,",
  "                                  Rep const& right) noexcept",
  "{",
  "  return ops_type::divides(reduce(left, mode), right);",
  "}",
  "",
  "template <typename Ops, reduce_mode Mode>",
  "template <typename Rep>",
  "constexpr raw_fraction<Rep>",
  "reduced_input<Ops, Mode>::divides(Rep const& left,",
  "                                  raw_fraction<Rep> const& right) noexcept",
  "{",
  "  return ops_type::divides(left, reduce(right, mode));",
  "}",
  "",
  "template <typename Ops, reduce_mode Mode>",
  "template <typename Rep>",
  "constexpr raw_fraction<Rep>",
  "reduced_input<Ops, Mode>::modulus(raw_fraction<Rep> const& left,",
  "                                  raw_fraction<Rep> const& right) noexcept",
  "{",
  "  return ops_type::modulus(reduce(left, mode), reduce(right, mode));",
  "}",
  "",
  "template <typename Ops, reduce_mode Mode>",
  "template <typename Rep>",
  "constexpr raw_fraction<Rep>",
  "reduced_input<Ops, Mode>::modulus(raw_fraction<Rep> const& left,",
  "                                  Rep const& right) noexcept",
  "{",
  "  return ops_type::modulus(reduce(left, mode), right);",
  "}",
  "",
  "template <typename Ops, reduce_mode Mode>",
  "template <typename Rep>",
  "constexpr raw_fraction<Rep>",
  "reduced_input<Ops, Mode>::modulus(Rep const& left,",
  "                                  raw_fraction<Rep> const& right) noexcept",
  "{",
  "  return ops_type::modulus(left, reduce(right, mode));",
  "}",
  "",
  "template <typename Ops, reduce_mode Mode>",
  "template <typename Rep>",
  "constexpr bool",
  "reduced_input<Ops, Mode>::equal_to(raw_fraction<Rep> const& left,",
  "                                   raw_fraction<Rep> const& right) noexcept",
  "{",
  "  return ops_type::equal_to(reduce(left, mode), reduce(right, mode));",
  "}",
  "",
  "template <typename Ops, reduce_mode Mode>",
  "template <typename Rep>",
  "constexpr bool reduced_input<Ops, Mode>::equal_to(raw_fraction<Rep> const& left,",
  "                                                  Rep const& right) noexcept",
  "{",
  "  return ops_type::equal_to(reduce(left, mode), right);",
  "}",
  "",
  "template <typename Ops, reduce_mode Mode>",
  "template <typename Rep>",
  "constexpr bool",
  "reduced_input<Ops, Mode>::equal_to(Rep const& left,",
  "                                   raw_fraction<Rep> const& right) noexcept",
  "{",
  "  return ops_type::equal_to(left, reduce(right, mode));",
  "}",
  "",
  "template <typename Ops, reduce_mode Mode>",
  "template <typename Rep>",
  "constexpr bool",
  "reduced_input<Ops, Mode>::not_equal_to(raw_fraction<Rep> const& left,",
  "                                       raw_fraction<Rep> const& right) noexcept",
  "{",
  "  return ops_type::not_equal_to(reduce(left, mode), reduce(right, mode));",
  "}",
  "",
  "template <typename Ops, reduce_mode Mode>",
  "template <typename Rep>",
  "constexpr bool",
  "reduced_input<Ops, Mode>::not_equal_to(raw_fraction<Rep> const& left,",
  "                                       Rep const& right) noexcept",
  "{",
  "  return ops_type::not_equal_to(reduce(left, mode), right);",
  "}",
  "",
  "template <typename Ops, reduce_mode Mode>",
  "template <typename Rep>",
  "constexpr bool",
  "reduced_input<Ops, Mode>::not_equal_to(Rep const& left,",
  "                                       raw_fraction<Rep> const& right) noexcept",
  "{",
  "  return ops_type::not_equal_to(left, reduce(right, mode));",
  "}",
  "",
  "template <typename Ops, reduce_mode Mode>",
  "template <typename Rep>",
  "constexpr bool",
  "reduced_input<Ops, Mode>::less(raw_fraction<Rep> const& left,",
  "                               raw_fraction<Rep> const& right) noexcept",
  "{",
  "  return ops_type::less(reduce(left, mode), reduce(right, mode));",
  "}",
  "",
  "template <typename Ops, reduce_mode Mode>",
  "template <typename Rep>",
  "constexpr bool reduced_input<Ops, Mode>::less(raw_fraction<Rep> const& left,",
  "                                              Rep const& right) noexcept",
  "{",
  "  return ops_type::less(reduce(left, mode), right);",
  "}",
  "",
  "template <typename Ops, reduce_mode Mode>",
  "template <typename Rep>",
  "constexpr bool",
  "reduced_input<Ops, Mode>::less(Rep const& left,",
  "                               raw_fraction<Rep> const& right) noexcept",
  "{",
  "  return ops_type::less(left, reduce(right, mode));",
  "}",
  "",
  "template <typename Ops, reduce_mode Mode>",
  "template <typename Rep>",
  "constexpr bool",
  "reduced_input<Ops, Mode>::less_equal(raw_fraction<Rep> const& left,",
  "                                     raw_fraction<Rep> const& right) noexcept",
  "{",
  "  return ops_type::less_equal(reduce(left, mode), reduce(right, mode));",
  "}",
  "",
  "template <typename Ops, reduce_mode Mode>",
  "template <typename Rep>",
  "constexpr bool",
  "reduced_input<Ops, Mode>::less_equal(raw_fraction<Rep> const& left,",
  "                                     Rep const& right) noexcept",
  "{",
  "  return ops_type::less_equal(reduce(left, mode), right);",
  "}",
  "",
  "template <typename Ops, reduce_mode Mode>",
  "template <typename Rep>",
  "constexpr bool",
  "reduced_input<Ops, Mode>::less_equal(Rep const& left,",
  "                                     raw_fraction<Rep> const& right) noexcept",
  "{",
  "  return ops_type::less_equal(left, reduce(right, mode));",
  "}",
  "",
  "template <typename Ops, reduce_mode Mode>",
  "template <typename Rep>",
  "constexpr bool",
  "reduced_input<Ops, Mode>::greater(raw_fraction<Rep> const& left,",
  "                                  raw_fraction<Rep> const& right) noexcept",
  "{",
  "  return ops_type::greater(reduce(left, mode), reduce(right, mode));",
  "}",
  "",
  "template <typename Ops, reduce_mode Mode>",
  "template <typename Rep>",
  "constexpr bool reduced_input<Ops, Mode>::greater(raw_fraction<Rep> const& left,",
  "                                                 Rep const& right) noexcept",
  "{",
  "  return ops_type::greater(reduce(left, mode), right);",
  "}",
  "",
  "template <typename Ops, reduce_mode Mode>",
  "template <typename Rep>",
  "constexpr bool",
  "reduced_input<Ops, Mode>::greater(Rep const& left,",
  "                                  raw_fraction<Rep> const& right) noexcept",
  "{",
  "  return ops_type::greater(left, reduce(right, mode));",
  "}",
  "",
  "template <typename Ops, reduce_mode Mode>",
  "template <typename Rep>",
  "constexpr bool",
  "reduced_input<Ops, Mode>::greater_equal(raw_fraction<Rep> const& left,",
  "                                        raw_fraction<Rep> const& right) noexcept",
  "{",
  "  return ops_type::greater_equal(reduce(left, mode), reduce(right, mode));",
  "}",
  "",
  "template <typename Ops, reduce_mode Mode>",
  "template <typename Rep>",
  "constexpr bool",
  "reduced_input<Ops, Mode>::greater_equal(raw_fraction<Rep> const& left,",
  "                                        Rep const& right) noexcept",
  "{",
  "  return ops_type::greater_equal(reduce(left, mode), right);",
  "}",
  "",
  "template <typename Ops, reduce_mode Mode>",
  "template <typename Rep>",
  "constexpr bool",
  "reduced_input<Ops, Mode>::greater_equal(Rep const& left,",
  "                                        raw_fraction<Rep> const& right) noexcept",
  "{",
  "  return ops_type::greater_equal(left, reduce(right, mode));",
  "}",
  "",
  "",
  "template <typename Ops, reduce_mode Mode>",
  "template <typename Rep>",
  "constexpr raw_fraction<Rep>",
  "reduced_output<Ops, Mode>::negate(raw_fraction<Rep> const& value) noexcept",
  "{",
  "  return reduce(ops_type::negate(value), mode);",
  "}",
  "",
  "template <typename Ops, reduce_mode Mode>",
  "template <typename Left, typename Right>",
  "constexpr auto reduced_output<Ops, Mode>::plus(Left const& left,",
  "                                               Right const& right) noexcept",
  "{",
  "  return reduce(ops_type::plus(left, right), mode);",
  "}",
  "",
  "template <typename Ops, reduce_mode Mode>",
  "template <typename Left, typename Right>",
  "constexpr auto reduced_output<Ops, Mode>::minus(Left const& left,",
  "                                                Right const& right) noexcept",
  "{",
  "  return reduce(ops_type::minus(left, right), mode);",
  "}",
  "",
  "template <typename Ops, reduce_mode Mode>",
  "template <typename Left, typename Right>",
  "constexpr auto",
  "reduced_output<Ops, Mode>::multiplies(Left const& left,",
  "                                      Right const& right) noexcept",
  "{",
  "  return reduce(ops_type::multiplies(left, right), mode);",
  "}",
  "",
  "template <typename Ops, reduce_mode Mode>",
  "template <typename Left, typename Right>",
  "constexpr auto reduced_output<Ops, Mode>::divides(Left const& left,",
  "                                                  Right const& right) noexcept",
  "{",
  "  return reduce(ops_type::divides(left, right), mode);",
  "}",
  "",
  "template <typename Ops, reduce_mode Mode>",
  "template <typename Left, typename Right>",
  "constexpr auto reduced_output<Ops, Mode>::modulus(Left const& left,",
  "                                                  Right const& right) noexcept",
  "{",
  "  return reduce(ops_type::modulus(left, right), mode);",
  "}",
  "",
  "template <typename Ops, reduce_mode Mode>",
  "template <typename Left, typename Right>",
  "constexpr bool reduced_output<Ops, Mode>::equal_to(Left const& left,",
  "                                                   Right const& right) noexcept",
  "{",
  "  return ops_type::equal_to(left, right);",
  "}",
  "",
  "template <typename Ops, reduce_mode Mode>",
  "template <typename Left, typename Right>",
  "constexpr bool",
  "reduced_output<Ops, Mode>::not_equal_to(Left const& left,",
  "                                        Right const& right) noexcept",
  "{",
  "  return ops_type::not_equal_to(left, right);",
  "}",
  "",
  "template <typename Ops, reduce_mode Mode>",
  "template <typename Left, typename Right>",
  "constexpr bool reduced_output<Ops, Mode>::less(Left const& left,",
  "                                               Right const& right) noexcept",
  "{",
  "  return ops_type::less(left, right);",
  "}",
  "",
  "template <typename Ops, reduce_mode Mode>",
  "template <typename Left, typename Right>",
  "constexpr bool",
  "reduced_output<Ops, Mode>::less_equal(Left const& left,",
  "                                      Right const& right) noexcept",
  "{",
  "  return ops_type::less_equal(left, right);",
  "}",
  "",
  "template <typename Ops, reduce_mode Mode>",
  "template <typename Left, typename Right>",
  "constexpr bool reduced_output<Ops, Mode>::greater(Left const& left,",
  "                                                  Right const& right) noexcept",
  "{",
  "  return ops_type::greater(left, right);",
  "}",
  "",
  "template <typename Ops, reduce_mode Mode>",
  "template <typename Left, typename Right>",
  "constexpr bool",
  "reduced_output<Ops, Mode>::greater_equal(Left const& left,",
  "                                         Right const& right) noexcept",
  "{",
  "  return ops_type::greater_equal(left, right);",
  "}",
  "",
  "",
  "}; // namespace ops",
  "}; // namespace ieme",
  "",
  "",
  "#endif"]

/-- `/repo/include/ieme/fraction.hpp:1-724` -/
def fraction : List String := [
  "#ifndef IEME_FRACTION_HPP",
  "#define IEME_FRACTION_HPP",
  "",
  "#include <ieme/ops.hpp>",
  "#include <ieme/raw_fraction.hpp>",
  "",
  "#include <istream>",
  "#include <ostream>",
  "#include <ratio>",
  "",
  "",
  "namespace ieme {",
  "",
  "",
  "template <typename Rep, typename Ops>",
  "class fraction;",
  "",
  "",
  "template <typename Rep, typename Ops>",
  "std::ostream& operator<<(std::ostream& stream,",
  "                         fraction<Rep, Ops> const& value) noexcept;",
  "",
  "template <typename Rep, typename Ops>",
  "std::istream& operator>>(std::istream& stream,",
  "                         fraction<Rep, Ops>& value) noexcept;",
  "",
  "",
  "template <typename Rep, typename Ops = ops::defaults>",
  "class fraction final {",
  "",
  "public:",
  "  using raw_fraction_type = raw_fraction<Rep>;",
  "  using rep_type = typename raw_fraction_type::rep_type;",
  "  using ops_type = Ops;",
  "",
  "  constexpr fraction() = default;",
  "",
  "  constexpr fraction(raw_fraction_type const& raw) noexcept;",
  "",
  "  constexpr fraction(Rep const& numerator, Rep const& denominator = 1) noexcept;",
  "",
  "  template <typename OtherRep>",
  "  constexpr fraction(fraction<OtherRep, Ops> const& other) noexcept;",
  "",
  "  template <typename OtherRep, typename OtherOps>",
  "  explicit constexpr fraction(",
  "    fraction<OtherRep, OtherOps> const& other) noexcept;",
  "",
  "  template <std::intmax_t Numerator, std::intmax_t Denominator>",
  "  constexpr fraction(std::ratio<Numerator, Denominator> ratio) noexcept;",
  "",
  "  constexpr Rep const& numerator() const noexcept;",
  "  constexpr Rep& numerator() noexcept;",
  "",
  "  constexpr Rep const& denominator() const noexcept;",
  "  constexpr Rep& denominator() noexcept;",
  "",
  "  constexpr Rep const& num() const noexcept { return numerator(); }",
  "  constexpr Rep& num() noexcept { return numerator(); }",
  "",
  "  constexpr Rep const& den() const noexcept { return denominator(); }",
  "  constexpr Rep& den() noexcept { return denominator(); }",
  "",
  "  constexpr raw_fraction_type const& raw() const noexcept { return raw_; }",
  "  constexpr raw_fraction_type& raw() noexcept { return raw_; }",
  "",
  "private:",
  "  raw_fraction_type raw_ = {_0<rep_type>, _1<rep_type>};",
  "",
  "  friend std::ostream& operator<< <>(std::ostream& stream,",
  "                                     fraction<Rep, Ops> const& value) noexcept;",
  "",
  "  friend std::istream& operator>><>(std::istream& stream,",
  "                                    fraction<Rep, Ops>& value) noexcept;",
  "};",
  "",
  "template <typename Rep, typename Ops>",
  "constexpr fraction<Rep, Ops>",
  "operator+(fraction<Rep, Ops> const& value) noexcept;",
  "",
  "template <typename Rep, typename Ops>",
  "constexpr fraction<Rep, Ops>",
  "operator-(fraction<Rep, Ops> const& value) noexcept;",
  "",
  "template <typename LeftRep, typename RightRep, typename Ops>",
  "constexpr fraction<std::common_type_t<LeftRep, RightRep>, Ops>",
  "operator+(fraction<LeftRep, Ops> const& left,",
  "          fraction<RightRep, Ops> const& right) noexcept;",
  "",
  "template <typename LeftRep, typename RightRep, typename Ops>",
  "constexpr fraction<std::common_type_t<LeftRep, RightRep>, Ops>",
  "operator+(fraction<LeftRep, Ops> const& left, RightRep const& right) noexcept;",
  "",
  "template <typename LeftRep, typename RightRep, typename Ops>",
  "constexpr fraction<std::common_type_t<LeftRep, RightRep>, Ops>",
  "operator+(LeftRep const& left, fraction<RightRep, Ops> const& right) noexcept;",
  "",
  "template <typename LeftRep,",
  "          typename RightRep,",
  "          typename LeftOps,",
  "          typename RightOps,",
  "          typename = std::enable_if_t<!std::is_same_v<LeftOps, RightOps>>>",
  "constexpr void",
  "operator+(fraction<LeftRep, LeftOps> const& left,",
  "          fraction<RightRep, RightOps> const& right) noexcept = delete;",
  "",
  "template <typename LeftRep, typename RightRep, typename Ops>",
  "constexpr fraction<std::common_type_t<LeftRep, RightRep>, Ops>",
  "operator-(fraction<LeftRep, Ops> const& left,",
  "          fraction<RightRep, Ops> const& right) noexcept;",
  "",
  "template <typename LeftRep, typename RightRep, typename Ops>",
  "constexpr fraction<std::common_type_t<LeftRep, RightRep>, Ops>",
  "operator-(fraction<LeftRep, Ops> const& left, RightRep const& right) noexcept;",
  "",
  "template <typename LeftRep, typename RightRep, typename Ops>",
  "constexpr fraction<std::common_type_t<LeftRep, RightRep>, Ops>",
  "operator-(LeftRep const& left, fraction<RightRep, Ops> const& right) noexcept;",
  "",
  "template <typename LeftRep,",
  "          typename RightRep,",
  "          typename LeftOps,",
  "          typename RightOps,",
  "          typename = std::enable_if_t<!std::is_same_v<LeftOps, RightOps>>>",
  "constexpr void",
  "operator-(fraction<LeftRep, LeftOps> const& left,",
  "          fraction<RightRep, RightOps> const& right) noexcept = delete;",
  "",
  "template <typename LeftRep, typename RightRep, typename Ops>",
  "constexpr fraction<std::common_type_t<LeftRep, RightRep>, Ops>",
  "operator*(fraction<LeftRep, Ops> const& left,",
  "          fraction<RightRep, Ops> const& right) noexcept;",
  "",
  "template <typename LeftRep, typename RightRep, typename Ops>",
  "constexpr fraction<std::common_type_t<LeftRep, RightRep>, Ops>",
  "operator*(fraction<LeftRep, Ops> const& left, RightRep const& right) noexcept;",
  "",
  "template <typename LeftRep, typename RightRep, typename Ops>",
  "constexpr fraction<std::common_type_t<LeftRep, RightRep>, Ops>",
  "operator*(LeftRep const& left, fraction<RightRep, Ops> const& right) noexcept;",
  "",
  "template <typename LeftRep,",
  "          typename RightRep,",
  "          typename LeftOps,",
  "          typename RightOps,",
  "          typename = std::enable_if_t<!std::is_same_v<LeftOps, RightOps>>>",
  "constexpr void",
  "operator*(fraction<LeftRep, LeftOps> const& left,",
  "          fraction<RightRep, RightOps> const& right) noexcept = delete;",
  "",
  "template <typename LeftRep, typename RightRep, typename Ops>",
  "constexpr fraction<std::common_type_t<LeftRep, RightRep>, Ops>",
  "operator/(fraction<LeftRep, Ops> const& left,",
  "          fraction<RightRep, Ops> const& right) noexcept;",
  "",
  "template <typename LeftRep, typename RightRep, typename Ops>",
  "constexpr fraction<std::common_type_t<LeftRep, RightRep>, Ops>",
  "operator/(fraction<LeftRep, Ops> const& left, RightRep const& right) noexcept;",
  "",
  "template <typename LeftRep, typename RightRep, typename Ops>",
  "constexpr fraction<std::common_type_t<LeftRep, RightRep>, Ops>",
  "operator/(LeftRep const& left, fraction<RightRep, Ops> const& right) noexcept;",
  "",
  "template <typename LeftRep,",
  "          typename RightRep,",
  "          typename LeftOps,",
  "          typename RightOps,",
  "          typename = std::enable_if_t<!std::is_same_v<LeftOps, RightOps>>>",
  "constexpr void",
  "operator/(fraction<LeftRep, LeftOps> const& left,",
  "          fraction<RightRep, RightOps> const& right) noexcept = delete;",
  "",
  "template <typename LeftRep, typename RightRep, typename Ops>",
  "constexpr fraction<std::common_type_t<LeftRep, RightRep>, Ops>",
  "operator%(fraction<LeftRep, Ops> const& left,",
  "          fraction<RightRep, Ops> const& right) noexcept;",
  "",
  "template <typename LeftRep, typename RightRep, typename Ops>",
  "constexpr fraction<std::common_type_t<LeftRep, RightRep>, Ops>",
  "operator%(fraction<LeftRep, Ops> const& left, RightRep const& right) noexcept;",
  "",
  "template <typename LeftRep, typename RightRep, typename Ops>",
  "constexpr fraction<std::common_type_t<LeftRep, RightRep>, Ops>",
  "operator%(LeftRep const& left, fraction<RightRep, Ops> const& right) noexcept;",
  "",
  "template <typename LeftRep,",
  "          typename RightRep,",
  "          typename LeftOps,",
  "          typename RightOps,",
  "          typename = std::enable_if_t<!std::is_same_v<LeftOps, RightOps>>>",
  "constexpr void",
  "operator%(fraction<LeftRep, LeftOps> const& left,",
  "          fraction<RightRep, RightOps> const& right) noexcept = delete;",
  "",
  "template <typename LeftRep,",
  "          typename RightRep,",
  "          typename Ops,",
  "          typename = std::enable_if_t<std::is_convertible_v<RightRep, LeftRep>>>",
  "constexpr fraction<LeftRep, Ops>&",
  "operator+=(fraction<LeftRep, Ops>& left,",
  "           fraction<RightRep, Ops> const& right) noexcept;",
  "",
  "template <typename LeftRep,",
  "          typename RightRep,",
  "          typename Ops,",
  "          typename = std::enable_if_t<std::is_convertible_v<RightRep, LeftRep>>>",
  "constexpr fraction<LeftRep, Ops>& operator+=(fraction<LeftRep, Ops>& left,",
  "                                             RightRep const& right) noexcept;",
  "",
  "template <typename LeftRep,",
  "          typename RightRep,",
  "          typename LeftOps,",
  "          typename RightOps,",
  "          typename = std::enable_if_t<!std::is_same_v<LeftOps, RightOps>>>",
  "constexpr void",
  "operator+=(fraction<LeftRep, LeftOps> const& left,",
  "           fraction<RightRep, RightOps> const& right) noexcept = delete;",
  "",
  "template <typename LeftRep,",
  "          typename RightRep,",
  "          typename Ops,",
  "          typename = std::enable_if_t<std::is_convertible_v<RightRep, LeftRep>>>",
  "constexpr fraction<LeftRep, Ops>&",
  "operator-=(fraction<LeftRep, Ops>& left,",
  "           fraction<RightRep, Ops> const& right) noexcept;",
  "",
  "template <typename LeftRep,",
  "          typename RightRep,",
  "          typename Ops,",
  "          typename = std::enable_if_t<std::is_convertible_v<RightRep, LeftRep>>>",
  "constexpr fraction<LeftRep, Ops>& operator-=(fraction<LeftRep, Ops>& left,",
  "                                             RightRep const& right) noexcept;",
  "",
  "template <typename LeftRep,",
  "          typename RightRep,",
  "          typename LeftOps,",
  "          typename RightOps,",
  "          typename = std::enable_if_t<!std::is_same_v<LeftOps, RightOps>>>",
  "constexpr void",
  "operator-=(fraction<LeftRep, LeftOps> const& left,",
  "           fraction<RightRep, RightOps> const& right) noexcept = delete;",
  "",
  "template <typename LeftRep,",
  "          typename RightRep,",
  "          typename Ops,",
  "          typename = std::enable_if_t<std::is_convertible_v<RightRep, LeftRep>>>",
  "constexpr fraction<LeftRep, Ops>&",
  "operator*=(fraction<LeftRep, Ops>& left,",
  "           fraction<RightRep, Ops> const& right) noexcept;",
  "",
  "template <typename LeftRep,",
  "          typename RightRep,",
  "          typename Ops,",
  "          typename = std::enable_if_t<std::is_convertible_v<RightRep, LeftRep>>>",
  "constexpr fraction<LeftRep, Ops>& operator*=(fraction<LeftRep, Ops>& left,",
  "                                             RightRep const& right) noexcept;",
  "",
  "template <typename LeftRep,",
  "          typename RightRep,",
  "          typename LeftOps,",
  "          typename RightOps,",
  "          typename = std::enable_if_t<!std::is_same_v<LeftOps, RightOps>>>",
  "constexpr void",
  "operator*=(fraction<LeftRep, LeftOps> const& left,",
  "           fraction<RightRep, RightOps> const& right) noexcept = delete;",
  "",
  "template <typename LeftRep,",
  "          typename RightRep,",
  "          typename Ops,",
  "          typename = std::enable_if_t<std::is_convertible_v<RightRep, LeftRep>>>",
  "constexpr fraction<LeftRep, Ops>&",
  "operator/=(fraction<LeftRep, Ops>& left,",
  "           fraction<RightRep, Ops> const& right) noexcept;",
  "",
  "template <typename LeftRep,",
  "          typename RightRep,",
  "          typename Ops,",
  "          typename = std::enable_if_t<std::is_convertible_v<RightRep, LeftRep>>>",
  "constexpr fraction<LeftRep, Ops>& operator/=(fraction<LeftRep, Ops>& left,",
  "                                             RightRep const& right) noexcept;",
  "",
  "template <typename LeftRep,",
  "          typename RightRep,",
  "          typename LeftOps,",
  "          typename RightOps,",
  "          typename = std::enable_if_t<!std::is_same_v<LeftOps, RightOps>>>",
  "constexpr void",
  "operator/=(fraction<LeftRep, LeftOps> const& left,",
  "           fraction<RightRep, RightOps> const& right) noexcept = delete;",
  "",
  "template <typename LeftRep,",
  "          typename RightRep,",
  "          typename Ops,",
  "          typename = std::enable_if_t<std::is_convertible_v<RightRep, LeftRep>>>",
  "constexpr fraction<LeftRep, Ops>&",
  "operator%=(fraction<LeftRep, Ops>& left,",
  "           fraction<RightRep, Ops> const& right) noexcept;",
  "",
  "template <typename LeftRep,",
  "          typename RightRep,",
  "          typename Ops,",
  "          typename = std::enable_if_t<std::is_convertible_v<RightRep, LeftRep>>>",
  "constexpr fraction<LeftRep, Ops>& operator%=(fraction<LeftRep, Ops>& left,",
  "                                             RightRep const& right) noexcept;",
  "",
  "template <typename LeftRep,",
  "          typename RightRep,",
  "          typename LeftOps,",
  "          typename RightOps,",
  "          typename = std::enable_if_t<!std::is_same_v<LeftOps, RightOps>>>",
  "constexpr void",
  "operator%=(fraction<LeftRep, LeftOps> const& left,",
  "           fraction<RightRep, RightOps> const& right) noexcept = delete;",
  "",
  "template <typename LeftRep,",
  "          typename RightRep,",
  "          typename Ops,",
  "          typename = std::common_type_t<LeftRep, RightRep>>",
  "constexpr bool operator==(fraction<LeftRep, Ops> const& left,",
  "                          fraction<RightRep, Ops> const& right) noexcept;",
  "",
  "template <typename LeftRep,",
  "          typename RightRep,",
  "          typename Ops,",
  "          typename = std::common_type_t<LeftRep, RightRep>>",
  "constexpr bool operator==(fraction<LeftRep, Ops> const& left,",
  "                          RightRep const& right) noexcept;",
  "",
  "template <typename LeftRep,",
  "          typename RightRep,",
  "          typename Ops,",
  "          typename = std::common_type_t<LeftRep, RightRep>>",
  "constexpr bool operator==(LeftRep const& left,",
  "                          fraction<RightRep, Ops> const& right) noexcept;",
  "",
  "template <typename LeftRep,",
  "          typename RightRep,",
  "          typename LeftOps,",
  "          typename RightOps,",
  "          typename = std::enable_if_t<!std::is_same_v<LeftOps, RightOps>>>",
  "constexpr void",
  "operator==(fraction<LeftRep, LeftOps> const& left,",
  "           fraction<RightRep, RightOps> const& right) noexcept = delete;",
  "",
  "template <typename LeftRep,",
  "          typename RightRep,",
  "          typename Ops,",
  "          typename = std::common_type_t<LeftRep, RightRep>>",
  "constexpr bool operator!=(fraction<LeftRep, Ops> const& left,",
  "                          fraction<RightRep, Ops> const& right) noexcept;",
  "",
  "template <typename LeftRep,",
  "          typename RightRep,",
  "          typename Ops,",
  "          typename = std::common_type_t<LeftRep, RightRep>>",
  "constexpr bool operator!=(fraction<LeftRep, Ops> const& left,",
  "                          RightRep const& right) noexcept;",
  "",
  "template <typename LeftRep,",
  "          typename RightRep,",
  "          typename Ops,",
  "          typename = std::common_type_t<LeftRep, RightRep>>",
  "constexpr bool operator!=(LeftRep const& left,",
  "                          fraction<RightRep, Ops> const& right) noexcept;",
  "",
  "template <typename LeftRep,",
  "          typename RightRep,",
  "          typename LeftOps,",
  "          typename RightOps,",
  "          typename = std::enable_if_t<!std::is_same_v<LeftOps, RightOps>>>",
  "constexpr void",
  "operator!=(fraction<LeftRep, LeftOps> const& left,",
  "           fraction<RightRep, RightOps> const& right) noexcept = delete;",
  "",
  "template <typename LeftRep,",
  "          typename RightRep,",
  "          typename Ops,",
  "          typename = std::common_type_t<LeftRep, RightRep>>",
  "constexpr bool operator<(fraction<LeftRep, Ops> const& left,",
  "                         fraction<RightRep, Ops> const& right) noexcept;",
  "",
  "template <typename LeftRep,",
  "          typename RightRep,",
  "          typename Ops,",
  "          typename = std::common_type_t<LeftRep, RightRep>>",
  "constexpr bool operator<(fraction<LeftRep, Ops> const& left,",
  "                         RightRep const& right) noexcept;",
  "",
  "template <typename LeftRep,",
  "          typename RightRep,",
  "          typename Ops,",
  "          typename = std::common_type_t<LeftRep, RightRep>>",
  "constexpr bool operator<(LeftRep const& left,",
  "                         fraction<RightRep, Ops> const& right) noexcept;",
  "",
  "template <typename LeftRep,",
  "          typename RightRep,",
  "          typename LeftOps,",
  "          typename RightOps,",
  "          typename = std::enable_if_t<!std::is_same_v<LeftOps, RightOps>>>",
  "constexpr void",
  "operator<(fraction<LeftRep, LeftOps> const& left,",
  "          fraction<RightRep, RightOps> const& right) noexcept = delete;",
  "",
  "template <typename LeftRep,",
  "          typename RightRep,",
  "          typename Ops,",
  "          typename = std::common_type_t<LeftRep, RightRep>>",
  "constexpr bool operator<=(fraction<LeftRep, Ops> const& left,",
  "                          fraction<RightRep, Ops> const& right) noexcept;",
  "",
  "template <typename LeftRep,",
  "          typename RightRep,",
  "          typename Ops,",
  "          typename = std::common_type_t<LeftRep, RightRep>>",
  "constexpr bool operator<=(fraction<LeftRep, Ops> const& left,",
  "                          RightRep const& right) noexcept;",
  "",
  "template <typename LeftRep,",
  "          typename RightRep,",
  "          typename Ops,",
  "          typename = std::common_type_t<LeftRep, RightRep>>",
  "constexpr bool operator<=(LeftRep const& left,",
  "                          fraction<RightRep, Ops> const& right) noexcept;",
  "",
  "template <typename LeftRep,",
  "          typename RightRep,",
  "          typename LeftOps,",
  "          typename RightOps,",
  "          typename = std::enable_if_t<!std::is_same_v<LeftOps, RightOps>>>",
  "constexpr void",
  "operator<=(fraction<LeftRep, LeftOps> const& left,",
  "           fraction<RightRep, RightOps> const& right) noexcept = delete;",
  "",
  "template <typename LeftRep,",
  "          typename RightRep,",
  "          typename Ops,",
  "          typename = std::common_type_t<LeftRep, RightRep>>",
  "constexpr bool operator>(fraction<LeftRep, Ops> const& left,",
  "                         fraction<RightRep, Ops> const& right) noexcept;",
  "",
  "template <typename LeftRep,",
  "          typename RightRep,",
  "          typename Ops,",
  "          typename = std::common_type_t<LeftRep, RightRep>>",
  "constexpr bool operator>(fraction<LeftRep, Ops> const& left,",
  "                         RightRep const& right) noexcept;",
  "",
  "template <typename LeftRep,",
  "          typename RightRep,",
  "          typename Ops,",
  "          typename = std::common_type_t<LeftRep, RightRep>>",
  "constexpr bool operator>(LeftRep const& left,",
  "                         fraction<RightRep, Ops> const& right) noexcept;",
  "",
  "template <typename LeftRep,",
  "          typename RightRep,",
  "          typename LeftOps,",
  "          typename RightOps,",
  "          typename = std::enable_if_t<!std::is_same_v<LeftOps, RightOps>>>",
  "constexpr void",
  "operator>(fraction<LeftRep, LeftOps> const& left,",
  "          fraction<RightRep, RightOps> const& right) noexcept = delete;",
  "",
  "template <typename LeftRep,",
  "          typename RightRep,",
  "          typename Ops,",
  "          typename = std::common_type_t<LeftRep, RightRep>>",
  "constexpr bool operator>=(fraction<LeftRep, Ops> const& left,",
  "                          fraction<RightRep, Ops> const& right) noexcept;",
  "",
  "template <typename LeftRep,",
  "          typename RightRep,",
  "          typename Ops,",
  "          typename = std::common_type_t<LeftRep, RightRep>>",
  "constexpr bool operator>=(fraction<LeftRep, Ops> const& left,",
  "                          RightRep const& right) noexcept;",
  "",
  "template <typename LeftRep,",
  "          typename RightRep,",
  "          typename Ops,",
  "          typename = std::common_type_t<LeftRep, RightRep>>",
  "constexpr bool operator>=(LeftRep const& left,",
  "                          fraction<RightRep, Ops> const& right) noexcept;",
  "",
  "template <typename LeftRep,",
  "          typename RightRep,",
  "          typename LeftOps,",
  "          typename RightOps,",
  "          typename = std::enable_if_t<!std::is_same_v<LeftOps, RightOps>>>",
  "constexpr void",
  "operator>=(fraction<LeftRep, LeftOps> const& left,",
  "           fraction<RightRep, RightOps> const& right) noexcept = delete;",
  "",
  "",
  "// =============================================================================",
  "",
  "",
  "template <typename Rep, typename Ops>",
  "std::ostream& operator<<(std::ostream& stream,",
  "                         fraction<Rep, Ops> const& value) noexcept",
  "{",
  "  return stream << value.raw_;",
  "}",
  "",
  "template <typename Rep, typename Ops>",
  "std::istream& operator>>(std::istream& stream,",
  "                         fraction<Rep, Ops>& value) noexcept",
  "{",
  "  return stream >> value.raw_;",
  "}",
  "",
  "template <typename Rep, typename Ops>",
  "constexpr fraction<Rep, Ops>::fraction(raw_fraction_type const& raw) noexcept :",
  "  raw_ {raw}",
  "{",
  "}",
  "",
  "template <typename Rep, typename Ops>",
  "constexpr fraction<Rep, Ops>::fraction(Rep const& numerator,",
  "                                       Rep const& denominator) noexcept :",
  "  raw_ {numerator, denominator}",
  "{",
  "}",
  "",
  "template <typename Rep, typename Ops>",
  "template <typename OtherRep>",
  "constexpr fraction<Rep, Ops>::fraction(",
  "  fraction<OtherRep, Ops> const& other) noexcept :",
  "  raw_ {other.raw()}",
  "{",
  "}",
  "",
  "template <typename Rep, typename Ops>",
  "template <typename OtherRep, typename OtherOps>",
  "constexpr fraction<Rep, Ops>::fraction(",
  "  fraction<OtherRep, OtherOps> const& other) noexcept :",
  "  raw_ {other.raw()}",
  "{",
  "}",
  "",
  "template <typename Rep, typename Ops>",
  "template <std::intmax_t Numerator, std::intmax_t Denominator>",
  "constexpr fraction<Rep, Ops>::fraction(",
  "  std::ratio<Numerator, Denominator>) noexcept :",
  "  raw_ {std::ratio<Numerator, Denominator>::num,",
  "        std::ratio<Numerator, Denominator>::den}",
  "{",
  "}",
  "",
  "template <typename Rep, typename Ops>",
  "constexpr Rep const& fraction<Rep, Ops>::numerator() const noexcept",
  "{",
  "  return raw_.numerator;",
  "}",
  "",
  "template <typename Rep, typename Ops>",
  "constexpr Rep& fraction<Rep, Ops>::numerator() noexcept",
  "{",
  "  return raw_.numerator;",
  "}",
  "",
  "template <typename Rep, typename Ops>",
  "constexpr Rep const& fraction<Rep, Ops>::denominator() const noexcept",
  "{",
  "  return raw_.denominator;",
  "}",
  "",
  "template <typename Rep, typename Ops>",
  "constexpr Rep& fraction<Rep, Ops>::denominator() noexcept",
  "{",
  "  return raw_.denominator;",
  "}",
  "",
  "template <typename Rep, typename Ops>",
  "constexpr fraction<Rep, Ops> operator+(fraction<Rep, Ops> const& value) noexcept",
  "{",
  "  return value;",
  "}",
  "",
  "template <typename Rep, typename Ops>",
  "constexpr fraction<Rep, Ops> operator-(fraction<Rep, Ops> const& value) noexcept",
  "{",
  "  return Ops::negate(value.raw());",
  "}",
  "",
  "#define IEME_DO_FRACTION_AND_FRACTION_OP(function)                             \\",
  "  using common_rep_type = std::common_type_t<LeftRep, RightRep>;               \\",
  "  using common_raw_type = raw_fraction<common_rep_type>;                       \\",
  "                                                                               \\",
  "  if constexpr (std::is_same_v<LeftRep, RightRep>)                             \\",
  "    return Ops::function(left.raw(), right.raw());                             \\",
  "  else if constexpr (std::is_same_v<LeftRep, common_rep_type>)                 \\",
  "    return Ops::function(left.raw(),                                           \\",
  "                         static_cast<common_raw_type>(right.raw()));           \\",
  "  else if constexpr (std::is_same_v<RightRep, common_rep_type>)                \\",
  "    return Ops::function(static_cast<common_raw_type>(left.raw()),             \\",
  "                         right.raw());                                         \\",
  "  else                                                                         \\",
  "    return Ops::function(static_cast<common_raw_type>(left.raw()),             \\",
  "                         static_cast<common_raw_type>(right.raw()));",
  "",
  "#define IEME_DO_FRACTION_AND_REP_OP(function)                                  \\",
  "  using common_rep_type = std::common_type_t<LeftRep, RightRep>;               \\",
  "  using common_raw_type = raw_fraction<common_rep_type>;                       \\",
  "                                                                               \\",
  "  if constexpr (std::is_same_v<LeftRep, RightRep>)                             \\",
  "    return Ops::function(left.raw(), right);                                   \\",
  "  else if constexpr (std::is_same_v<LeftRep, common_rep_type>)                 \\",
  "    return Ops::function(left.raw(), static_cast<common_rep_type>(right));     \\",
  "  else if constexpr (std::is_same_v<RightRep, common_rep_type>)                \\",
  "    return Ops::function(static_cast<common_raw_type>(left.raw()), right);     \\",
  "  else                                                                         \\",
  "    return Ops::function(static_cast<common_raw_type>(left.raw()),             \\",
  "                         static_cast<common_rep_type>(right));",
  "",
  "#define IEME_DO_REP_AND_FRACTION_OP(function)                                  \\",
  "  using common_rep_type = std::common_type_t<LeftRep, RightRep>;               \\",
  "  using common_raw_type = raw_fraction<common_rep_type>;                       \\",
  "                                                                               \\",
  "  if constexpr (std::is_same_v<LeftRep, RightRep>)                             \\",
  "    return Ops::function(left, right.raw());                                   \\",
  "  else if constexpr (std::is_same_v<LeftRep, common_rep_type>)                 \\",
  "    return Ops::function(left, static_cast<common_raw_type>(right.raw()));     \\",
  "  else if constexpr (std::is_same_v<RightRep, common_rep_type>)                \\",
  "    return Ops::function(static_cast<common_rep_type>(left), right.raw());     \\",
  "  else                                                                         \\",
  "    return Ops::function(static_cast<common_rep_type>(left),                   \\",
  "                         static_cast<common_raw_type>(right.raw()));",
  "",
  "#define IEME_DEFINE_FRACTION_ARITHMETIC_OPS(symbol, function)                  \\",
  "  template <typename LeftRep, typename RightRep, typename Ops>                 \\",
  "  constexpr fraction<std::common_type_t<LeftRep, RightRep>, Ops>               \\",
  "  operator symbol(fraction<LeftRep, Ops> const& left,                          \\",
  "                  fraction<RightRep, Ops> const& right) noexcept               \\",
  "  {                                                                            \\",
  "    IEME_DO_FRACTION_AND_FRACTION_OP(function)                                 \\",
  "  }                                                                            \\",
  "                                                                               \\",
  "  template <typename LeftRep, typename RightRep, typename Ops>                 \\",
  "  constexpr fraction<std::common_type_t<LeftRep, RightRep>, Ops>               \\",
  "  operator symbol(fraction<LeftRep, Ops> const& left,                          \\",
  "                  RightRep const& right) noexcept                              \\",
  "  {                                                                            \\",
  "    IEME_DO_FRACTION_AND_REP_OP(function)                                      \\",
  "  }                                                                            \\",
  "                                                                               \\",
  "  template <typename LeftRep, typename RightRep, typename Ops>                 \\",
  "  constexpr fraction<std::common_type_t<LeftRep, RightRep>, Ops>               \\",
  "  operator symbol(LeftRep const& left,                                         \\",
  "                  fraction<RightRep, Ops> const& right) noexcept               \\",
  "  {                                                                            \\",
  "    IEME_DO_REP_AND_FRACTION_OP(function)                                      \\",
  "  }",
  "",
  "IEME_DEFINE_FRACTION_ARITHMETIC_OPS(+, plus)",
  "IEME_DEFINE_FRACTION_ARITHMETIC_OPS(-, minus)",
  "IEME_DEFINE_FRACTION_ARITHMETIC_OPS(*, multiplies)",
  "IEME_DEFINE_FRACTION_ARITHMETIC_OPS(/, divides)",
  "IEME_DEFINE_FRACTION_ARITHMETIC_OPS(%, modulus)",
  "",
  "#define IEME_DEFINE_FRACTION_COMPOUND_ASSIGNMENT_OPS(symbol)                   \\",
  "  template <typename LeftRep, typename RightRep, typename Ops, typename>       \\",
  "  constexpr fraction<LeftRep, Ops>& operator symbol##=(                        \\",
  "    fraction<LeftRep, Ops>& left,                                              \\",
  "    fraction<RightRep, Ops> const& right) noexcept                             \\",
  "  {                                                                            \\",
  "    if constexpr (std::is_same_v<LeftRep, RightRep>)                           \\",
  "      return left = left symbol right;                                         \\",
  "    else                                                                       \\",
  "      return left = left symbol fraction<LeftRep, Ops>(right);                 \\",
  "  }                                                                            \\",
  "                                                                               \\",
  "  template <typename LeftRep, typename RightRep, typename Ops, typename>       \\",
  "  constexpr fraction<LeftRep, Ops>& operator symbol##=(                        \\",
  "    fraction<LeftRep, Ops>& left, RightRep const& right) noexcept              \\",
  "  {                                                                            \\",
  "    if constexpr (std::is_same_v<LeftRep, RightRep>)                           \\",
  "      return left = left symbol right;                                         \\",
  "    else                                                                       \\",
  "      return left = left symbol static_cast<LeftRep>(right);                   \\",
  "  }",
  "",
  "IEME_DEFINE_FRACTION_COMPOUND_ASSIGNMENT_OPS(+)",
  "IEME_DEFINE_FRACTION_COMPOUND_ASSIGNMENT_OPS(-)",
  "IEME_DEFINE_FRACTION_COMPOUND_ASSIGNMENT_OPS(*)",
  "IEME_DEFINE_FRACTION_COMPOUND_ASSIGNMENT_OPS(/)",
  "IEME_DEFINE_FRACTION_COMPOUND_ASSIGNMENT_OPS(%)",
  "",
  "#define IEME_DEFINE_FRACTION_COMPARISON_OPS(symbol, function)                  \\",
  "  template <typename LeftRep, typename RightRep, typename Ops, typename>       \\",
  "  constexpr bool operator symbol(                                              \\",
  "    fraction<LeftRep, Ops> const& left,                                        \\",
  "    fraction<RightRep, Ops> const& right) noexcept                             \\",
  "  {                                                                            \\",
  "    IEME_DO_FRACTION_AND_FRACTION_OP(function)                                 \\",
  "  }                                                                            \\",
  "                                                                               \\",
  "  template <typename LeftRep, typename RightRep, typename Ops, typename>       \\",
  "  constexpr bool operator symbol(fraction<LeftRep, Ops> const& left,           \\",
  "                                 RightRep const& right) noexcept               \\",
  "  {                                                                            \\",
  "    IEME_DO_FRACTION_AND_REP_OP(function)                                      \\",
  "  }                                                                            \\",
  "                                                                               \\",
  "  template <typename LeftRep, typename RightRep, typename Ops, typename>       \\",
  "  constexpr bool operator symbol(                                              \\",
  "    LeftRep const& left, fraction<RightRep, Ops> const& right) noexcept        \\",
  "  {                                                                            \\",
  "    IEME_DO_REP_AND_FRACTION_OP(function)                                      \\",
  "  }",
  "",
  "IEME_DEFINE_FRACTION_COMPARISON_OPS(==, equal_to)",
  "IEME_DEFINE_FRACTION_COMPARISON_OPS(!=, not_equal_to)",
  "IEME_DEFINE_FRACTION_COMPARISON_OPS(<, less)",
  "IEME_DEFINE_FRACTION_COMPARISON_OPS(<=, less_equal)",
  "IEME_DEFINE_FRACTION_COMPARISON_OPS(>, greater)",
  "IEME_DEFINE_FRACTION_COMPARISON_OPS(>=, greater_equal)",
  "",
  "",
  "}; // namespace ieme",
  "",
  "",
  "#endif"]

/-- `/repo/include/ieme/fraction_queries.hpp:1-159` -/
def fractionQueries : List String := [
  "#ifndef IEME_FRACTION_QUERIES_HPP",
  "#define IEME_FRACTION_QUERIES_HPP",
  "",
  "#include <ieme/fraction.hpp>",
  "#include <ieme/raw_fraction_math.hpp>",
  "",
  "",
  "namespace ieme {",
  "",
  "",
  "template <typename Rep, typename Ops>",
  "constexpr bool is_defined(fraction<Rep, Ops> const& value) noexcept;",
  "",
  "template <typename Rep, typename Ops>",
  "constexpr bool is_undefined(fraction<Rep, Ops> const& value) noexcept;",
  "",
  "template <typename Rep, typename Ops>",
  "constexpr bool is_positive(fraction<Rep, Ops> const& value) noexcept;",
  "",
  "template <typename Rep, typename Ops>",
  "constexpr bool is_non_negative(fraction<Rep, Ops> const& value) noexcept;",
  "",
  "template <typename Rep, typename Ops>",
  "constexpr bool is_zero(fraction<Rep, Ops> const& value) noexcept;",
  "",
  "template <typename Rep, typename Ops>",
  "constexpr bool is_non_positive(fraction<Rep, Ops> const& value) noexcept;",
  "",
  "template <typename Rep, typename Ops>",
  "constexpr bool is_negative(fraction<Rep, Ops> const& value) noexcept;",
  "",
  "template <typename Rep, typename Ops>",
  "constexpr bool is_integer(fraction<Rep, Ops> const& value) noexcept;",
  "",
  "template <typename Rep, typename Ops>",
  "constexpr bool is_unit_fraction(fraction<Rep, Ops> const& value) noexcept;",
  "",
  "template <typename Rep, typename Ops>",
  "constexpr bool",
  "is_reduced_ignore_signs(fraction<Rep, Ops> const& value) noexcept;",
  "",
  "template <typename Rep, typename Ops>",
  "constexpr bool is_reduced(fraction<Rep, Ops> const& value) noexcept;",
  "",
  "template <typename Rep, typename Ops>",
  "constexpr bool is_proper(fraction<Rep, Ops> const& value) noexcept;",
  "",
  "template <typename Rep, typename Ops>",
  "constexpr bool is_improper(fraction<Rep, Ops> const& value) noexcept;",
  "",
  "template <typename Rep, typename LeftOps, typename RightOps>",
  "constexpr bool are_identical(const fraction<Rep, LeftOps>& left,",
  "                             const fraction<Rep, RightOps>& right) noexcept;",
  "",
  "template <typename Rep, typename LeftOps, typename RightOps>",
  "constexpr bool are_different(const fraction<Rep, LeftOps>& left,",
  "                             const fraction<Rep, RightOps>& right) noexcept;",
  "",
  "",
  "// =============================================================================",
  "",
  "",
  "template <typename Rep, typename Ops>",
  "constexpr bool is_defined(fraction<Rep, Ops> const& value) noexcept",
  "{",
  "  return is_defined(value.raw());",
  "}",
  "",
  "template <typename Rep, typename Ops>",
  "constexpr bool is_undefined(fraction<Rep, Ops> const& value) noexcept",
  "{",
  "  return is_undefined(value.raw());",
  "}",
  "",
  "template <typename Rep, typename Ops>",
  "constexpr bool is_positive(fraction<Rep, Ops> const& value) noexcept",
  "{",
  "  return is_positive(value.raw());",
  "}",
  "",
  "template <typename Rep, typename Ops>",
  "constexpr bool is_non_negative(fraction<Rep, Ops> const& value) noexcept",
  "{",
  "  return is_non_negative(value.raw());",
  "}",
  "",
  "template <typename Rep, typename Ops>",
  "constexpr bool is_zero(fraction<Rep, Ops> const& value) noexcept",
  "{",
  "  return is_zero(value.raw());",
  "}",
  "",
  "template <typename Rep, typename Ops>",
  "constexpr bool is_non_positive(fraction<Rep, Ops> const& value) noexcept",
  "{",
  "  return is_non_positive(value.raw());",
  "}",
  "",
  "template <typename Rep, typename Ops>",
  "constexpr bool is_negative(fraction<Rep, Ops> const& value) noexcept",
  "{",
  "  return is_negative(value.raw());",
  "}",
  "",
  "template <typename Rep, typename Ops>",
  "constexpr bool is_integer(fraction<Rep, Ops> const& value) noexcept",
  "{",
  "  return is_integer(value.raw());",
  "}",
  "",
  "template <typename Rep, typename Ops>",
  "constexpr bool is_unit_fraction(fraction<Rep, Ops> const& value) noexcept",
  "{",
  "  return is_unit_fraction(value.raw());",
  "}",
  "",
  "template <typename Rep, typename Ops>",
  "constexpr bool is_reduced_ignore_signs(fraction<Rep, Ops> const& value) noexcept",
  "{",
  "  return is_reduced_ignore_signs(value.raw());",
  "}",
  "",
  "template <typename Rep, typename Ops>",
  "constexpr bool is_reduced(fraction<Rep, Ops> const& value) noexcept",
  "{",
  "  return is_reduced(value.raw());",
  "}",
  "",
  "template <typename Rep, typename Ops>",
  "constexpr bool is_proper(fraction<Rep, Ops> const& value) noexcept",
  "{",
  "  return is_proper(value.raw());",
  "}",
  "",
  "template <typename Rep, typename Ops>",
  "constexpr bool is_improper(fraction<Rep, Ops> const& value) noexcept",
  "{",
  "  return is_improper(value.raw());",
  "}",
  "",
  "template <typename Rep, typename LeftOps, typename RightOps>",
  "constexpr bool are_identical(const fraction<Rep, LeftOps>& left,",
  "                             const fraction<Rep, RightOps>& right) noexcept",
  "{",
  "  return are_identical(left.raw(), right.raw());",
  "}",
  "",
  "template <typename Rep, typename LeftOps, typename RightOps>",
  "constexpr bool are_different(const fraction<Rep, LeftOps>& left,",
  "                             const fraction<Rep, RightOps>& right) noexcept",
  "{",
  "  return are_different(left.raw(), right.raw());",
  "}",
  "",
  "",
  "}; // namespace ieme",
  "",
  "",
  "#endif"]

/-- `/repo/include/ieme/fraction_math.hpp:1-264` -/
def fractionMath : List String := [
  "#ifndef IEME_FRACTION_MATH_HPP",
  "#define IEME_FRACTION_MATH_HPP",
  "",
  "#include <ieme/fraction.hpp>",
  "#include <ieme/fraction_queries.hpp>",
  "#include <ieme/math_utilities.hpp>",
  "#include <ieme/numbers.hpp>",
  "#include <ieme/raw_fraction_math.hpp>",
  "#include <ieme/reduce_mode.hpp>",
  "",
  "",
  "namespace ieme {",
  "",
  "",
  "enum class round_mode { trunc, ceil, floor, round };",
  "",
  "",
  "template <typename Rep, typename Ops>",
  "constexpr fraction<Rep, Ops>",
  "reciprocal(fraction<Rep, Ops> const& value) noexcept;",
  "",
  "template <typename Rep, typename Ops>",
  "constexpr fraction<Rep, Ops>",
  "normalize_signs(fraction<Rep, Ops> const& value) noexcept;",
  "",
  "template <typename Rep, typename Ops>",
  "constexpr fraction<Rep, Ops> reduce(fraction<Rep, Ops> const& value,",
  "                                    reduce_mode mode",
  "                                    = reduce_mode::normalize_signs) noexcept;",
  "",
  "template <typename Rep, typename Ops>",
  "constexpr fraction<Rep, Ops>",
  "reduce_normalize_signs(fraction<Rep, Ops> const& value) noexcept;",
  "",
  "template <typename Rep, typename Ops>",
  "constexpr fraction<Rep, Ops>",
  "reduce_ignore_signs(fraction<Rep, Ops> const& value) noexcept;",
  "",
  "template <typename Rep, typename Ops>",
  "constexpr fraction<Rep, Ops> abs(fraction<Rep, Ops> const& value) noexcept;",
  "",
  "template <typename Rep, typename Ops>",
  "constexpr Rep to_whole(fraction<Rep, Ops> const& value,",
  "                       round_mode mode = round_mode::round) noexcept;",
  "",
  "template <typename Rep, typename Ops>",
  "constexpr Rep trunc(fraction<Rep, Ops> const& value) noexcept;",
  "",
  "template <typename Rep, typename Ops>",
  "constexpr Rep ceil(fraction<Rep, Ops> const& value) noexcept;",
  "",
  "template <typename Rep, typename Ops>",
  "constexpr Rep floor(fraction<Rep, Ops> const& value) noexcept;",
  "",
  "template <typename Rep, typename Ops>",
  "constexpr Rep round(fraction<Rep, Ops> const& value) noexcept;",
  "",
  "template <typename Rep, typename Ops>",
  "constexpr fraction<Rep, Ops> redenominate(fraction<Rep, Ops> const& value,",
  "                                          Rep const& new_denominator,",
  "                                          round_mode mode",
  "                                          = round_mode::round) noexcept;",
  "",
  "template <typename Rep, typename Ops>",
  "constexpr fraction<Rep, Ops>",
  "trunc_redenominate(fraction<Rep, Ops> const& value,",
  "                   Rep const& new_denominator) noexcept;",
  "",
  "template <typename Rep, typename Ops>",
  "constexpr fraction<Rep, Ops>",
  "ceil_redenominate(fraction<Rep, Ops> const& value,",
  "                  Rep const& new_denominator) noexcept;",
  "",
  "template <typename Rep, typename Ops>",
  "constexpr fraction<Rep, Ops>",
  "floor_redenominate(fraction<Rep, Ops> const& value,",
  "                   Rep const& new_denominator) noexcept;",
  "",
  "template <typename Rep, typename Ops>",
  "constexpr fraction<Rep, Ops>",
  "round_redenominate(fraction<Rep, Ops> const& value,",
  "                   Rep const& new_denominator) noexcept;",
  "",
  "template <typename Rep, typename Ops = ops::defaults>",
  "constexpr fraction<Rep, Ops> pow2(int exponent) noexcept;",
  "",
  "template <typename Rep, typename Ops = ops::defaults>",
  "constexpr fraction<Rep, Ops> pow(Rep const& base, int exponent) noexcept;",
  "",
  "",
  "// =============================================================================",
  "",
  "",
  "template <typename Rep, typename Ops>",
  "constexpr fraction<Rep, Ops>",
  "reciprocal(fraction<Rep, Ops> const& value) noexcept",
  "{",
  "  return reciprocal(value.raw());",
  "}",
  "",
  "template <typename Rep, typename Ops>",
  "constexpr fraction<Rep, Ops>",
  "normalize_signs(fraction<Rep, Ops> const& value) noexcept",
  "{",
  "  return normalize_signs(value.raw());",
  "}",
  "",
  "template <typename Rep, typename Ops>",
  "constexpr fraction<Rep, Ops> reduce(fraction<Rep, Ops> const& value,",
  "                                    reduce_mode const mode) noexcept",
  "{",
  "  return reduce(value.raw(), mode);",
  "}",
  "",
  "template <typename Rep, typename Ops>",
  "constexpr fraction<Rep, Ops>",
  "reduce_normalize_signs(fraction<Rep, Ops> const& value) noexcept",
  "{",
  "  return reduce_normalize_signs(value.raw());",
  "}",
  "",
  "template <typename Rep, typename Ops>",
  "constexpr fraction<Rep, Ops>",
  "reduce_ignore_signs(fraction<Rep, Ops> const& value) noexcept",
  "{",
  "  return reduce_ignore_signs(value.raw());",
  "}",
  "",
  "template <typename Rep, typename Ops>",
  "constexpr fraction<Rep, Ops> abs(fraction<Rep, Ops> const& value) noexcept",
  "{",
  "  return is_non_negative(value) ? value : -value;",
  "}",
  "",
  "template <typename Rep, typename Ops>",
  "constexpr Rep to_whole(fraction<Rep, Ops> const& value,",
  "                       round_mode const mode) noexcept",
  "{",
  "  switch (mode)",
  "  {",
  "    case round_mode::trunc:",
  "      return trunc(value);",
  "    case round_mode::ceil:",
  "      return ceil(value);",
  "    case round_mode::floor:",
  "      return floor(value);",
  "    case round_mode::round:",
  "      return round(value);",
  "  }",
  "",
  "  return to_whole(value);",
  "}",
  "",
  "template <typename Rep, typename Ops>",
  "constexpr Rep trunc(fraction<Rep, Ops> const& value) noexcept",
  "{",
  "  return value.numerator() / value.denominator();",
  "}",
  "",
  "template <typename Rep, typename Ops>",
  "constexpr Rep ceil(fraction<Rep, Ops> const& value) noexcept",
  "{",
  "  auto const truncated = trunc(value);",
  "",
  "  return (is_integer(value) || truncated < _0<Rep>) ? truncated",
  "                                                    : truncated + _1<Rep>;",
  "}",
  "",
  "template <typename Rep, typename Ops>",
  "constexpr Rep floor(fraction<Rep, Ops> const& value) noexcept",
  "{",
  "  auto const truncated = trunc(value);",
  "",
  "  return (is_integer(value) || truncated >= _0<Rep>) ? truncated",
  "                                                     : truncated - _1<Rep>;",
  "}",
  "",
  "template <typename Rep, typename Ops>",
  "constexpr Rep round(fraction<Rep, Ops> const& value) noexcept",
  "{",
  "  auto const floored = floor(value);",
  "",
  "  return (value - floored < fraction<Rep, Ops>(_1<Rep>, _2<Rep>))",
  "           ? floored",
  "           : floored + _1<Rep>;",
  "}",
  "",
  "template <typename Rep, typename Ops>",
  "constexpr fraction<Rep, Ops> redenominate(fraction<Rep, Ops> const& value,",
  "                                          Rep const& new_denominator,",
  "                                          round_mode const mode) noexcept",
  "{",
  "  switch (mode)",
  "  {",
  "    case round_mode::trunc:",
  "      return trunc_redenominate(value, new_denominator);",
  "    case round_mode::ceil:",
  "      return ceil_redenominate(value, new_denominator);",
  "    case round_mode::floor:",
  "      return floor_redenominate(value, new_denominator);",
  "    case round_mode::round:",
  "      return round_redenominate(value, new_denominator);",
  "  }",
  "",
  "  return redenominate(value, new_denominator);",
  "}",
  "",
  "template <typename Rep, typename Ops>",
  "constexpr fraction<Rep, Ops> trunc_redenominate(fraction<Rep, Ops> const& value,",
  "                                                Rep const& denominator) noexcept",
  "{",
  "  return {trunc(value * denominator), denominator};",
  "}",
  "",
  "template <typename Rep, typename Ops>",
  "constexpr fraction<Rep, Ops> ceil_redenominate(fraction<Rep, Ops> const& value,",
  "                                               Rep const& denominator) noexcept",
  "{",
  "  return {(denominator >= _0<Rep>) ? ceil(value * denominator)",
  "                                   : -ceil(value * -denominator),",
  "          denominator};",
  "}",
  "",
  "template <typename Rep, typename Ops>",
  "constexpr fraction<Rep, Ops> floor_redenominate(fraction<Rep, Ops> const& value,",
  "                                                Rep const& denominator) noexcept",
  "{",
  "  return {(denominator >= _0<Rep>) ? floor(value * denominator)",
  "                                   : -floor(value * -denominator),",
  "          denominator};",
  "}",
  "",
  "template <typename Rep, typename Ops>",
  "constexpr fraction<Rep, Ops> round_redenominate(fraction<Rep, Ops> const& value,",
  "                                                Rep const& denominator) noexcept",
  "{",
  "  return {round(value * denominator), denominator};",
  "}",
  "",
  "template <typename Rep, typename Ops>",
  "constexpr fraction<Rep, Ops> pow2(int const exponent) noexcept",
  "{",
  "  return (exponent >= 0)",
  "           ? fraction<Rep, Ops>(",
  "             math_utilities::pow2(static_cast<Rep>(exponent)))",
  "           : fraction<Rep, Ops>(",
  "             _1<Rep>, math_utilities::pow2(static_cast<Rep>(-exponent)));",
  "}",
  "",
  "template <typename Rep, typename Ops>",
  "constexpr fraction<Rep, Ops> pow(Rep const& base, int const exponent) noexcept",
  "{",
  "  return (exponent >= 0)",
  "           ? fraction<Rep, Ops>(",
  "             math_utilities::pow(base, static_cast<Rep>(exponent)))",
  "           : fraction<Rep, Ops>(",
  "             _1<Rep>, math_utilities::pow(base, static_cast<Rep>(-exponent)));",
  "}",
  "",
  "",
  "}; // namespace ieme",
  "",
  "",
  "#endif"]

/-- `/repo/include/ieme/mixed_number.hpp:1-255` -/
def mixedNumber : List String := [
  "#ifndef IEME_MIXED_NUMBER_HPP",
  "#define IEME_MIXED_NUMBER_HPP",
  "",
  "#include <ieme/fraction.hpp>",
  "#include <ieme/fraction_math.hpp>",
  "#include <ieme/fraction_queries.hpp>",
  "",
  "",
  "namespace ieme {",
  "",
  "",
  "template <typename WRep, typename FRep = WRep, typename Ops = ops::defaults>",
  "class mixed_number {",
  "",
  "public:",
  "  using whole_type = WRep;",
  "  using fractional_rep_type = FRep;",
  "  using ops_type = Ops;",
  "  using fractional_type = fraction<fractional_rep_type, ops_type>;",
  "  using common_rep_type = std::common_type_t<whole_type, fractional_rep_type>;",
  "",
  "  constexpr mixed_number() noexcept = default;",
  "",
  "  constexpr mixed_number(whole_type const& whole,",
  "                         fractional_type const& fractional = {}) noexcept;",
  "",
  "  template <typename OtherFRep>",
  "  constexpr mixed_number(fraction<OtherFRep, ops_type> const& value) noexcept;",
  "",
  "  template <typename OtherFRep, typename OtherOps>",
  "  explicit constexpr mixed_number(",
  "    fraction<OtherFRep, OtherOps> const& value) noexcept;",
  "",
  "  constexpr fraction<common_rep_type, ops_type> as_fraction() const noexcept;",
  "",
  "  constexpr operator fraction<common_rep_type, ops_type>() const noexcept;",
  "",
  "  constexpr whole_type const& whole() const noexcept;",
  "",
  "  constexpr fractional_type const& fractional() const noexcept;",
  "",
  "private:",
  "  constexpr void fix() noexcept;",
  "",
  "  whole_type whole_ = {};",
  "  fractional_type fractional_ = {};",
  "};",
  "",
  "template <typename WRep, typename FRep, typename Ops>",
  "constexpr mixed_number<WRep, FRep, Ops>",
  "operator+(mixed_number<WRep, FRep, Ops> const& value) noexcept;",
  "",
  "template <typename WRep, typename FRep, typename Ops>",
  "constexpr mixed_number<WRep, FRep, Ops>",
  "operator-(mixed_number<WRep, FRep, Ops> const& value) noexcept;",
  "",
  "template <typename WRep1,",
  "          typename FRep1,",
  "          typename WRep2,",
  "          typename FRep2,",
  "          typename Ops>",
  "constexpr mixed_number<std::common_type_t<WRep1, WRep2>,",
  "                       std::common_type_t<FRep1, FRep2>,",
  "                       Ops>",
  "operator+(mixed_number<WRep1, FRep1, Ops> const& left,",
  "          mixed_number<WRep2, FRep2, Ops> const& right) noexcept;",
  "",
  "template <typename WRep1, typename FRep1, typename FRep2, typename Ops>",
  "constexpr mixed_number<std::common_type_t<WRep1, FRep2>,",
  "                       std::common_type_t<FRep1, FRep2>,",
  "                       Ops>",
  "operator+(mixed_number<WRep1, FRep1, Ops> const& left,",
  "          fraction<FRep2, Ops> const& right) noexcept;",
  "",
  "template <typename WRep1, typename FRep1, typename FRep2, typename Ops>",
  "constexpr mixed_number<std::common_type_t<WRep1, FRep2>,",
  "                       std::common_type_t<FRep1, FRep2>,",
  "                       Ops>",
  "operator+(fraction<FRep2, Ops> const& left,",
  "          mixed_number<WRep1, FRep1, Ops> const& right) noexcept;",
  "",
  "template <typename WRep1, typename FRep, typename WRep2, typename Ops>",
  "constexpr mixed_number<std::common_type_t<WRep1, WRep2>, FRep, Ops>",
  "operator+(mixed_number<WRep1, FRep, Ops> const& left,",
  "          WRep2 const& right) noexcept;",
  "",
  "template <typename WRep1, typename WRep2, typename FRep, typename Ops>",
  "constexpr mixed_number<std::common_type_t<WRep1, WRep2>, FRep, Ops>",
  "operator+(WRep1 const& left,",
  "          mixed_number<WRep2, FRep, Ops> const& right) noexcept;",
  "",
  "",
  "// =============================================================================",
  "",
  "",
  "template <typename WRep, typename FRep, typename Ops>",
  "constexpr mixed_number<WRep, FRep, Ops>::mixed_number(",
  "  whole_type const& whole,",
  "  fractional_type const& fractional) noexcept :",
  "  whole_ {whole}, fractional_ {fractional}",
  "{",
  "  fix();",
  "}",
  "",
  "template <typename WRep, typename FRep, typename Ops>",
  "template <typename OtherFRep>",
  "constexpr mixed_number<WRep, FRep, Ops>::mixed_number(",
  "  fraction<OtherFRep, ops_type> const& value) noexcept :",
  "  whole_ {whole_type(trunc(value))},",
  "  fractional_ {fractional_type(value - static_cast<OtherFRep>(whole_))}",
  "{",
  "}",
  "",
  "template <typename WRep, typename FRep, typename Ops>",
  "template <typename OtherFRep, typename OtherOps>",
  "constexpr mixed_number<WRep, FRep, Ops>::mixed_number(",
  "  fraction<OtherFRep, OtherOps> const& value) noexcept :",
  "  mixed_number {fraction<OtherFRep, Ops>(value)}",
  "{",
  "}",
  "",
  "template <typename WRep, typename FRep, typename Ops>",
  "constexpr auto mixed_number<WRep, FRep, Ops>::as_fraction() const noexcept",
  "  -> fraction<common_rep_type, ops_type>",
  "{",
  "  return common_rep_type(whole_)",
  "         + fraction<common_rep_type, ops_type>(fractional_);",
  "}",
  "",
  "template <typename WRep, typename FRep, typename Ops>",
  "constexpr mixed_number<WRep, FRep, Ops>::operator fraction<common_rep_type,",
  "                                                           ops_type>()",
  "  const noexcept",
  "{",
  "  return as_fraction();",
  "}",
  "",
  "template <typename WRep, typename FRep, typename Ops>",
  "constexpr auto mixed_number<WRep, FRep, Ops>::whole() const noexcept",
  "  -> whole_type const&",
  "{",
  "  return whole_;",
  "}",
  "",
  "template <typename WRep, typename FRep, typename Ops>",
  "constexpr auto mixed_number<WRep, FRep, Ops>::fractional() const noexcept",
  "  -> fractional_type const&",
  "{",
  "  return fractional_;",
  "}",
  "",
  "template <typename WRep, typename FRep, typename Ops>",
  "constexpr void mixed_number<WRep, FRep, Ops>::fix() noexcept",
  "{",
  "  if (is_improper(fractional_))",
  "  {",
  "    auto const truncated_fractional = trunc(fractional_);",
  "",
  "    whole_ += static_cast<whole_type>(truncated_fractional);",
  "    fractional_ -= truncated_fractional;",
  "  }",
  "",
  "  if (whole_ > _0<whole_type> && is_negative(fractional_))",
  "  {",
  "    whole_ -= _1<whole_type>;",
  "    fractional_ = _1<fractional_rep_type> + fractional_;",
  "  }",
  "  else if (whole_ < _0<whole_type> && is_positive(fractional_))",
  "  {",
  "    whole_ += _1<whole_type>;",
  "    fractional_ = -_1<fractional_rep_type> + fractional_;",
  "  }",
  "}",
  "",
  "template <typename WRep, typename FRep, typename Ops>",
  "constexpr mixed_number<WRep, FRep, Ops>",
  "operator+(mixed_number<WRep, FRep, Ops> const& value) noexcept",
  "{",
  "  return value;",
  "}",
  "",
  "template <typename WRep, typename FRep, typename Ops>",
  "constexpr mixed_number<WRep, FRep, Ops>",
  "operator-(mixed_number<WRep, FRep, Ops> const& value) noexcept",
  "{",
  "  return {-value.whole(), -value.fractional()};",
  "}",
  "",
  "template <typename WRep1,",
  "          typename FRep1,",
  "          typename WRep2,",
  "          typename FRep2,",
  "          typename Ops>",
  "constexpr mixed_number<std::common_type_t<WRep1, WRep2>,",
  "                       std::common_type_t<FRep1, FRep2>,",
  "                       Ops>",
  "operator+(mixed_number<WRep1, FRep1, Ops> const& left,",
  "          mixed_number<WRep2, FRep2, Ops> const& right) noexcept",
  "{",
  "  using whole_type = std::common_type_t<WRep1, WRep2>;",
  "  using fractional_type = ieme::fraction<std::common_type_t<FRep1, FRep2>, Ops>;",
  "",
  "  auto const whole = static_cast<whole_type>(left.whole())",
  "                     + static_cast<whole_type>(right.whole());",
  "  auto const fractional = static_cast<fractional_type>(left.fractional())",
  "                          + static_cast<fractional_type>(right.fractional());",
  "",
  "  return {whole, fractional};",
  "}",
  "",
  "template <typename WRep, typename FRep1, typename FRep2, typename Ops>",
  "constexpr mixed_number<std::common_type_t<WRep, FRep2>,",
  "                       std::common_type_t<FRep1, FRep2>,",
  "                       Ops>",
  "operator+(mixed_number<WRep, FRep1, Ops> const& left,",
  "          fraction<FRep2, Ops> const& right) noexcept",
  "{",
  "  return left + mixed_number<FRep2, FRep2, Ops>(right);",
  "}",
  "",
  "template <typename WRep1, typename FRep1, typename FRep2, typename Ops>",
  "constexpr mixed_number<std::common_type_t<WRep1, FRep2>,",
  "                       std::common_type_t<FRep1, FRep2>,",
  "                       Ops>",
  "operator+(fraction<FRep2, Ops> const& left,",
  "          mixed_number<WRep1, FRep1, Ops> const& right) noexcept",
  "{",
  "  return right + left;",
  "}",
  "",
  "template <typename WRep1, typename FRep, typename WRep2, typename Ops>",
  "constexpr mixed_number<std::common_type_t<WRep1, WRep2>, FRep, Ops>",
  "operator+(mixed_number<WRep1, FRep, Ops> const& left,",
  "          WRep2 const& right) noexcept",
  "{",
  "  using whole_type = std::common_type_t<WRep1, WRep2>;",
  "",
  "  return {static_cast<whole_type>(left.whole())",
  "            + static_cast<whole_type>(right),",
  "          left.fractional()};",
  "}",
  "",
  "template <typename WRep1, typename WRep2, typename FRep, typename Ops>",
  "constexpr mixed_number<std::common_type_t<WRep1, WRep2>, FRep, Ops>",
  "operator+(WRep1 const& left,",
  "          mixed_number<WRep2, FRep, Ops> const& right) noexcept",
  "{",
  "  return right + left;",
  "}",
  "",
  "",
  "}; // namespace ieme",
  "",
  "",
  "#endif"]

end Ieme.Header.Text
