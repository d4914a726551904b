/-!
# The text of the parser

The lines of `/repo/include/ieme/parse_utilities.hpp`, of the definitions in
`/repo/include/ieme/floating_point.hpp`, and of `operator""_dec`, character by character.
`Verif/Model/ScanProgram.lean` and `Verif/Model/FloatProgram.lean` show what they parse to.
-/

namespace Ieme.Script.Text

/-- `/repo/include/ieme/parse_utilities.hpp:1-217` -/
def parseUtilities : List String := [
  "#ifndef IEME_PARSE_UTILITIES_HPP",
  "#define IEME_PARSE_UTILITIES_HPP",
  "",
  "#include <optional>",
  "#include <string_view>",
  "#include <utility>",
  "",
  "",
  "namespace ieme {",
  "namespace parse_utilities {",
  "",
  "",
  "enum class sign : bool {",
  "  negative,",
  "  positive,",
  "};",
  "",
  "",
  "struct floating_point_string_scan_results {",
  "  int base = 10;",
  "  std::string_view whole;",
  "  std::string_view fractional;",
  "  int fractional_precision = 0;",
  "  sign exponent_sign = sign::positive;",
  "  std::string_view exponent;",
  "};",
  "",
  "constexpr std::optional<floating_point_string_scan_results>",
  "scan_floating_point_string(std::string_view string) noexcept;",
  "",
  "constexpr bool is_valid_digit_sequence(std::string_view sequence,",
  "                                       int base) noexcept;",
  "",
  "template <typename Int>",
  "constexpr Int digit_sequence_to_int(std::string_view sequence,",
  "                                    Int base) noexcept;",
  "",
  "",
  "// =============================================================================",
  "",
  "",
  "constexpr std::optional<floating_point_string_scan_results>",
  "scan_floating_point_string(std::string_view const string) noexcept",
  "{",
  "  if (string.size() < 2)",
  "    return std::nullopt;",
  "",
  "  auto remaining_string = string;",
  "",
  "  auto const last_pos = [&]() { return remaining_string.size() - 1; };",
  "",
  "  floating_point_string_scan_results results;",
  "",
  "  if (remaining_string.size() > 2)",
  "  {",
  "    auto const first_two = remaining_string.substr(0, 2);",
  "",
  "    if (first_two == \"0x\" || first_two == \"0X\")",
  "    {",
  "      remaining_string.remove_prefix(2);",
  "      results.base = 16;",
  "    }",
  "  }",
  "",
  "  auto const radix_separator_pos = remaining_string.find('.');",
  "",
  "  results.whole = remaining_string.substr(0, radix_separator_pos);",
  "",
  "  auto const no_whole = results.whole.empty();",
  "",
  "  if (!(no_whole || is_valid_digit_sequence(results.whole, results.base)))",
  "    return std::nullopt;",
  "",
  "  if (radix_separator_pos == last_pos())",
  "  {",
  "    if (results.base == 10)",
  "      return results;",
  "",
  "    return std::nullopt;",
  "  }",
  "",
  "  auto const no_radix_separator = radix_separator_pos == std::string_view::npos;",
  "",
  "  if (!no_radix_separator)",
  "    remaining_string.remove_prefix(radix_separator_pos + 1);",
  "",
  "  auto const exponent_separator_pos = [&]() {",
  "    auto const [lower, upper] = (results.base == 10) ? std::make_pair('e', 'E')",
  "                                                     : std::make_pair('p', 'P');",
  "",
  "    if (auto const lower_pos = remaining_string.find(lower);",
  "        lower_pos != std::string_view::npos)",
  "      return lower_pos;",
  "",
  "    return remaining_string.find(upper);",
  "  }();",
  "",
  "  if (exponent_separator_pos == last_pos())",
  "    return std::nullopt;",
  "",
  "  auto const no_exponent_separator",
  "    = exponent_separator_pos == std::string_view::npos;",
  "",
  "  if (no_radix_separator && no_exponent_separator)",
  "    return std::nullopt;",
  "",
  "  if (results.base == 16 && no_exponent_separator)",
  "    return std::nullopt;",
  "",
  "  results.fractional = remaining_string.substr(0, exponent_separator_pos);",
  "",
  "  auto const no_fractional = results.fractional.empty();",
  "",
  "  if (no_whole && no_fractional)",
  "    return std::nullopt;",
  "",
  "  if (!(no_fractional",
  "        || is_valid_digit_sequence(results.fractional, results.base)))",
  "    return std::nullopt;",
  "",
  "  results.fractional_precision = [&]() {",
  "    auto result = 0U;",
  "",
  "    for (auto const digit : results.fractional)",
  "      if (digit != '\\'')",
  "        ++result;",
  "",
  "    return result;",
  "  }();",
  "",
  "  if (no_exponent_separator)",
  "    return results;",
  "",
  "  remaining_string.remove_prefix(exponent_separator_pos + 1);",
  "",
  "  switch (remaining_string.front())",
  "  {",
  "    case '-':",
  "      results.exponent_sign = sign::negative;",
  "      [[fallthrough]];",
  "    case '+':",
  "      remaining_string.remove_prefix(1);",
  "      break;",
  "    default:",
  "      break;",
  "  }",
  "",
  "  results.exponent = remaining_string;",
  "",
  "  if (!is_valid_digit_sequence(results.exponent, 10))",
  "    return std::nullopt;",
  "",
  "  return results;",
  "}",
  "",
  "constexpr bool is_valid_digit_sequence(std::string_view const sequence,",
  "                                       int const base) noexcept",
  "{",
  "  auto digit_preceeded = false;",
  "",
  "  for (auto const c : sequence)",
  "  {",
  "    if (c == '\\'')",
  "    {",
  "      if (!digit_preceeded)",
  "        return false;",
  "",
  "      digit_preceeded = false;",
  "    }",
  "    else",
  "    {",
  "      if ((c < '0' || c > '9')",
  "          && (((c < 'a' || c > 'f') && (c < 'A' || c > 'F')) || base != 16))",
  "        return false;",
  "",
  "      digit_preceeded = true;",
  "    }",
  "  }",
  "",
  "  return digit_preceeded;",
  "}",
  "",
  "template <typename Int>",
  "constexpr Int digit_sequence_to_int(std::string_view const sequence,",
  "                                    Int const base) noexcept",
  "{",
  "  auto result = _0<Int>;",
  "  auto base_power = _1<Int>;",
  "",
  "  for (auto it = sequence.rbegin(); it != sequence.rend(); ++it)",
  "  {",
  "    if (*it == '\\'')",
  "      continue;",
  "",
  "    auto const digit_as_int = [&]() {",
  "      if (*it >= 'A' && *it <= 'F')",
  "        return static_cast<Int>(*it - 'A' + 10);",
  "",
  "      if (*it >= 'a' && *it <= 'f')",
  "        return static_cast<Int>(*it - 'a' + 10);",
  "",
  "      return static_cast<Int>(*it - '0');",
  "    }();",
  "",
  "    result += digit_as_int * base_power;",
  "    base_power *= base;",
  "  }",
  "",
  "  return result;",
  "}",
  "",
  "",
  "}; // namespace parse_utilities",
  "}; // namespace ieme",
  "",
  "",
  "#endif"]

/-- `/repo/include/ieme/floating_point.hpp:91-129` -/
def stringToFraction : List String := [
  "template <typename Rep, typename Ops>",
  "constexpr fraction<Rep, Ops>",
  "floating_point_string_to_fraction(std::string_view const string) noexcept",
  "{",
  "  auto const maybe_scan_results",
  "    = parse_utilities::scan_floating_point_string(string);",
  "",
  "  if (!maybe_scan_results.has_value())",
  "    return limits<fraction<Rep, Ops>>::undefined();",
  "",
  "  auto const& scan_results = maybe_scan_results.value();",
  "",
  "  auto const base_as_rep = static_cast<Rep>(scan_results.base);",
  "",
  "  auto const whole",
  "    = parse_utilities::digit_sequence_to_int(scan_results.whole, base_as_rep);",
  "",
  "  auto const fractional_num = parse_utilities::digit_sequence_to_int(",
  "    scan_results.fractional, base_as_rep);",
  "  auto const fractional_den = math_utilities::pow(",
  "    base_as_rep, static_cast<Rep>(scan_results.fractional_precision));",
  "",
  "  auto const exponent_base = (scan_results.base == 10) ? _10<Rep> : _2<Rep>;",
  "  auto const exponent_sign_multiplier = [&] {",
  "    switch (scan_results.exponent_sign)",
  "    {",
  "      case parse_utilities::sign::negative:",
  "        return -1;",
  "      case parse_utilities::sign::positive:",
  "        return +1;",
  "    }",
  "  }();",
  "  auto const exponent",
  "    = exponent_sign_multiplier",
  "      * parse_utilities::digit_sequence_to_int(scan_results.exponent, 10);",
  "",
  "  return (whole + fraction<Rep, Ops>(fractional_num, fractional_den))",
  "         * pow<Rep, Ops>(exponent_base, exponent);",
  "}"]

/-- `/repo/include/ieme/fraction_literals.hpp:106-113` -/
def decLiteral : List String := [
  "constexpr fraction<std::intmax_t, ops::defaults>",
  "operator\"\"_dec(char const* const string)",
  "{",
  "  auto const result",
  "    = floating_point_string_to_fraction<std::intmax_t, ops::defaults>(string);",
  "",
  "  return is_defined(result) ? result : throw \"invalid floating point literal\";",
  "}"]

/-- `/repo/include/ieme/floating_point.hpp:57-89` -/
def floatNames : List String := [
  "template <typename Rep, typename Ops>",
  "fraction<Rep, Ops> to_fraction(float const value) noexcept",
  "{",
  "  static_assert(std::numeric_limits<float>::is_iec559, \"\");",
  "",
  "  return floating_point_to_fraction<Rep, Ops, float, uint32_t, 23, 8>(value);",
  "}",
  "",
  "template <typename Rep, typename Ops>",
  "fraction<Rep, Ops> to_fraction(double const value) noexcept",
  "{",
  "  static_assert(std::numeric_limits<double>::is_iec559, \"\");",
  "",
  "  return floating_point_to_fraction<Rep, Ops, double, uint64_t, 52, 11>(value);",
  "}",
  "",
  "template <typename Rep, typename Ops>",
  "constexpr float to_float(fraction<Rep, Ops> const& value) noexcept",
  "{",
  "  return fraction_to_floating_point<float>(value);",
  "}",
  "",
  "template <typename Rep, typename Ops>",
  "constexpr double to_double(fraction<Rep, Ops> const& value) noexcept",
  "{",
  "  return fraction_to_floating_point<double>(value);",
  "}",
  "",
  "template <typename Rep, typename Ops>",
  "constexpr long double to_long_double(fraction<Rep, Ops> const& value) noexcept",
  "{",
  "  return fraction_to_floating_point<long double>(value);",
  "}"]

/-- `/repo/include/ieme/floating_point.hpp:131-219` -/
def floatFields : List String := [
  "template <typename Rep,",
  "          typename Ops,",
  "          typename Float,",
  "          typename UintRep,",
  "          auto NumMantissaBits,",
  "          auto NumExponentBits>",
  "fraction<Rep, Ops> floating_point_to_fraction(Float const value) noexcept",
  "{",
  "  auto const make_repeating_1s",
  "    = [](UintRep const count) { return (_1<UintRep> << count) - _1<UintRep>; };",
  "",
  "  auto const [sign_part, exponent_part, mantissa_part] = [&]() {",
  "    auto const as_uint_rep = [&]() {",
  "      UintRep result {};",
  "      // TODO: use std::bit_cast when it's available so",
  "      // floating_point_to_fraction can be constexpr",
  "      std::memcpy(static_cast<void*>(&result),",
  "                  static_cast<void const*>(&value),",
  "                  sizeof(Float));",
  "      return result;",
  "    }();",
  "",
  "    auto const extract_bit_field",
  "      = [&](UintRep const offset, UintRep const size) -> UintRep {",
  "      return (as_uint_rep >> offset) & make_repeating_1s(size);",
  "    };",
  "",
  "    static constexpr auto num_sign_bits = _1<UintRep>;",
  "    static constexpr auto num_exponent_bits = number<NumExponentBits, UintRep>;",
  "    static constexpr auto num_mantissa_bits = number<NumMantissaBits, UintRep>;",
  "",
  "    struct bitfield_offsets {",
  "      UintRep sign_bit = {};",
  "      UintRep exponent_bits = {};",
  "      UintRep mantissa_bits = {};",
  "    };",
  "",
  "    static constexpr auto offsets = []() -> bitfield_offsets {",
  "      switch (std::endian::native)",
  "      {",
  "        case std::endian::little:",
  "          return {num_mantissa_bits + num_exponent_bits,",
  "                  num_mantissa_bits,",
  "                  _0<UintRep>};",
  "        case std::endian::big:",
  "          return {",
  "            _0<UintRep>, num_sign_bits, num_sign_bits + num_exponent_bits};",
  "      }",
  "    }();",
  "",
  "    return std::make_tuple(",
  "      extract_bit_field(offsets.sign_bit, num_sign_bits),",
  "      extract_bit_field(offsets.exponent_bits, num_exponent_bits),",
  "      extract_bit_field(offsets.mantissa_bits, num_mantissa_bits));",
  "  }();",
  "",
  "  if (auto const is_NaN = exponent_part == make_repeating_1s(NumExponentBits)",
  "                          && mantissa_part != _0<UintRep>;",
  "      is_NaN)",
  "    return limits<fraction<Rep, Ops>>::undefined();",
  "",
  "  auto const sign = (sign_part == _0<UintRep>) ? _1<Rep> : -_1<Rep>;",
  "",
  "  static constexpr auto exponent_bias",
  "    = math_utilities::pow2(number<NumExponentBits, int> - 1) - 1;",
  "",
  "  auto const exponent = static_cast<int>(exponent_part) - exponent_bias;",
  "",
  "  static constexpr auto mantissa_fraction_denominator",
  "    = math_utilities::pow2(number<NumMantissaBits, Rep>);",
  "",
  "  auto const mantissa_fraction_numerator = static_cast<Rep>(mantissa_part);",
  "",
  "  auto const mantissa_fraction = fraction<Rep, Ops>(",
  "    mantissa_fraction_numerator, mantissa_fraction_denominator);",
  "",
  "  auto const mantissa = _1<Rep> + mantissa_fraction;",
  "",
  "  return sign * mantissa * pow2<Rep, Ops>(exponent);",
  "}",
  "",
  "template <typename Float, typename Rep, typename Ops>",
  "constexpr Float",
  "fraction_to_floating_point(fraction<Rep, Ops> const& value) noexcept",
  "{",
  "  auto const reduced = reduce(value);",
  "",
  "  return static_cast<Float>(reduced.num()) / static_cast<Float>(reduced.den());",
  "}"]

end Ieme.Script.Text
