/-!
# The text of `hash.hpp`, `limits.hpp` and `fraction_literals.hpp`

The lines of the headers, character by character.  `Verif/Model/LeafProgram.lean` shows what they
parse to.
-/

namespace Ieme.Leaf.Text

/-- `/repo/include/ieme/hash.hpp:1-118` -/
def hash : List String := [
  "#ifndef IEME_HASH_HPP",
  "#define IEME_HASH_HPP",
  "",
  "#include <ieme/fraction.hpp>",
  "#include <ieme/mixed_number.hpp>",
  "#include <ieme/raw_fraction.hpp>",
  "",
  "#include <functional>",
  "",
  "",
  "namespace ieme {",
  "",
  "",
  "template <typename Rep>",
  "std::size_t hash(raw_fraction<Rep> const& value) noexcept;",
  "",
  "template <typename Rep, typename Ops>",
  "std::size_t hash(fraction<Rep, Ops> const& value) noexcept;",
  "",
  "template <typename WRep, typename FRep, typename Ops>",
  "std::size_t hash(mixed_number<WRep, FRep, Ops> const& value) noexcept;",
  "",
  "",
  "constexpr std::size_t hash_combine(std::size_t left,",
  "                                   std::size_t right) noexcept;",
  "",
  "",
  "}; // namespace ieme",
  "",
  "",
  "namespace std {",
  "",
  "",
  "template <typename Rep>",
  "struct hash<ieme::raw_fraction<Rep>> {",
  "  size_t operator()(ieme::raw_fraction<Rep> const& value) const noexcept;",
  "};",
  "",
  "template <typename Rep, typename Ops>",
  "struct hash<ieme::fraction<Rep, Ops>> {",
  "  size_t operator()(ieme::fraction<Rep, Ops> const& value) const noexcept;",
  "};",
  "",
  "template <typename WRep, typename FRep, typename Ops>",
  "struct hash<ieme::mixed_number<WRep, FRep, Ops>> {",
  "  size_t",
  "  operator()(ieme::mixed_number<WRep, FRep, Ops> const& value) const noexcept;",
  "};",
  "",
  "",
  "}; // namespace std",
  "",
  "",
  "// =============================================================================",
  "",
  "",
  "namespace ieme {",
  "",
  "",
  "template <typename Rep>",
  "std::size_t hash(raw_fraction<Rep> const& value) noexcept",
  "{",
  "  return hash_combine(std::hash<Rep>()(value.numerator),",
  "                      std::hash<Rep>()(value.denominator));",
  "}",
  "",
  "template <typename Rep, typename Ops>",
  "std::size_t hash(fraction<Rep, Ops> const& value) noexcept",
  "{",
  "  return hash(value.raw());",
  "}",
  "",
  "template <typename WRep, typename FRep, typename Ops>",
  "std::size_t hash(mixed_number<WRep, FRep, Ops> const& value) noexcept",
  "{",
  "  return hash_combine(std::hash<WRep>()(value.whole()),",
  "                      hash(value.fractional()));",
  "}",
  "",
  "constexpr std::size_t hash_combine(std::size_t const left,",
  "                                   std::size_t const right) noexcept",
  "{",
  "  return left ^ (right << 1);",
  "}",
  "",
  "",
  "}; // namespace ieme",
  "",
  "",
  "namespace std {",
  "",
  "",
  "template <typename Rep>",
  "size_t hash<ieme::raw_fraction<Rep>>::operator()(",
  "  ieme::raw_fraction<Rep> const& value) const noexcept",
  "{",
  "  return ieme::hash(value);",
  "}",
  "",
  "template <typename Rep, typename Ops>",
  "size_t hash<ieme::fraction<Rep, Ops>>::operator()(",
  "  ieme::fraction<Rep, Ops> const& value) const noexcept",
  "{",
  "  return ieme::hash(value);",
  "}",
  "",
  "template <typename WRep, typename FRep, typename Ops>",
  "size_t hash<ieme::mixed_number<WRep, FRep, Ops>>::operator()(",
  "  ieme::mixed_number<WRep, FRep, Ops> const& value) const noexcept",
  "{",
  "  return ieme::hash(value);",
  "}",
  "",
  "",
  "}; // namespace std",
  "",
  "",
  "#endif"]

/-- `/repo/include/ieme/limits.hpp:1-340` -/
def limits : List String := [
  "#ifndef IEME_LIMITS_HPP",
  "#define IEME_LIMITS_HPP",
  "",
  "#include <ieme/fraction.hpp>",
  "#include <ieme/mixed_number.hpp>",
  "#include <ieme/numbers.hpp>",
  "",
  "#include <limits>",
  "",
  "",
  "namespace ieme {",
  "",
  "",
  "template <typename T>",
  "class limits;",
  "",
  "",
  "template <typename Rep, typename Ops>",
  "class limits<fraction<Rep, Ops>> {",
  "",
  "public:",
  "  using rep_type = Rep;",
  "  using ops_type = Ops;",
  "  using fraction_type = fraction<Rep, Ops>;",
  "",
  "  static constexpr fraction_type min() noexcept;",
  "  static constexpr fraction_type max() noexcept;",
  "  static constexpr fraction_type smallest() noexcept;",
  "  static constexpr fraction_type undefined() noexcept;",
  "};",
  "",
  "template <typename Rep, typename Ops>",
  "class limits<mixed_number<Rep, Ops>> {",
  "",
  "public:",
  "  using rep_type = Rep;",
  "  using ops_type = Ops;",
  "  using mixed_number_type = mixed_number<Rep, Ops>;",
  "  using fraction_type = typename mixed_number_type::fraction_type;",
  "",
  "  static constexpr mixed_number_type min() noexcept;",
  "  static constexpr mixed_number_type max() noexcept;",
  "  static constexpr mixed_number_type smallest() noexcept;",
  "  static constexpr mixed_number_type undefined() noexcept;",
  "};",
  "",
  "",
  "}; // namespace ieme",
  "",
  "",
  "namespace std {",
  "",
  "",
  "template <typename Rep, typename Ops>",
  "class numeric_limits<ieme::fraction<Rep, Ops>> {",
  "",
  "public:",
  "  using fraction_type = ieme::fraction<Rep, Ops>;",
  "  using rep_limits_type = numeric_limits<Rep>;",
  "",
  "  static constexpr bool is_specialized = true;",
  "  static constexpr bool is_signed = rep_limits_type::is_signed;",
  "  static constexpr bool is_integer = false;",
  "  static constexpr bool is_exact = true;",
  "  static constexpr bool has_infinity = false;",
  "  static constexpr bool has_quiet_NaN = true;",
  "  static constexpr bool has_signaling_NaN = false;",
  "  static constexpr float_denorm_style has_denorm = denorm_indeterminate;",
  "  static constexpr bool has_denorm_loss = false;",
  "  static constexpr float_round_style round_style = round_indeterminate;",
  "  static constexpr bool is_iec559 = false;",
  "  static constexpr bool is_bounded = rep_limits_type::is_bounded;",
  "  static constexpr bool is_modulo = rep_limits_type::is_modulo;",
  "  static constexpr int digits = rep_limits_type::digits;",
  "  static constexpr int digits10 = rep_limits_type::digits10;",
  "  static constexpr int max_digits10 = rep_limits_type::max_digits10;",
  "  static constexpr int radix = rep_limits_type::radix;",
  "  static constexpr int min_exponent = rep_limits_type::min_exponent;",
  "  static constexpr int min_exponent10 = rep_limits_type::min_exponent10;",
  "  static constexpr int max_exponent = rep_limits_type::max_exponent;",
  "  static constexpr int max_exponent10 = rep_limits_type::max_exponent10;",
  "  static constexpr bool traps = false;",
  "  static constexpr bool tinyness_before = rep_limits_type::tinyness_before;",
  "",
  "  static constexpr fraction_type min() noexcept;",
  "  static constexpr fraction_type lowest() noexcept;",
  "  static constexpr fraction_type max() noexcept;",
  "  static constexpr fraction_type epsilon() noexcept;",
  "  static constexpr fraction_type round_error() noexcept;",
  "  static constexpr fraction_type infinity() noexcept;",
  "  static constexpr fraction_type quiet_NaN() noexcept;",
  "  static constexpr fraction_type signaling_NaN() noexcept;",
  "  static constexpr fraction_type denorm_min() noexcept;",
  "};",
  "",
  "template <typename Rep, typename Ops>",
  "class numeric_limits<ieme::mixed_number<Rep, Ops>> {",
  "",
  "public:",
  "  using mixed_number_type = ieme::mixed_number<Rep, Ops>;",
  "  using fraction_type = typename mixed_number_type::fraction_type;",
  "  using fraction_limits_type = numeric_limits<fraction_type>;",
  "",
  "  static constexpr bool is_specialized = fraction_limits_type::is_specialized;",
  "  static constexpr bool is_signed = fraction_limits_type::is_signed;",
  "  static constexpr bool is_integer = fraction_limits_type::is_integer;",
  "  static constexpr bool is_exact = fraction_limits_type::is_exact;",
  "  static constexpr bool has_infinity = fraction_limits_type::has_infinity;",
  "  static constexpr bool has_quiet_ = fraction_limits_type::has_quiet_;",
  "  static constexpr bool has_signaling_ = fraction_limits_type::has_signaling_;",
  "  static constexpr float_denorm_style has_denorm",
  "    = fraction_limits_type::has_denorm;",
  "  static constexpr bool has_denorm_loss = fraction_limits_type::has_denorm_loss;",
  "  static constexpr float_round_style round_style",
  "    = fraction_limits_type::round_style;",
  "  static constexpr bool is_iec559 = fraction_limits_type::is_iec559;",
  "  static constexpr bool is_bounded = fraction_limits_type::is_bounded;",
  "  static constexpr bool is_modulo = fraction_limits_type::is_modulo;",
  "  static constexpr int digits = fraction_limits_type::digits;",
  "  static constexpr int digits10 = fraction_limits_type::digits10;",
  "  static constexpr int max_digits10 = fraction_limits_type::max_digits10;",
  "  static constexpr int radix = fraction_limits_type::radix;",
  "  static constexpr int min_exponent = fraction_limits_type::min_exponent;",
  "  static constexpr int min_exponent10 = fraction_limits_type::min_exponent10;",
  "  static constexpr int max_exponent = fraction_limits_type::max_exponent;",
  "  static constexpr int max_exponent10 = fraction_limits_type::max_exponent10;",
  "  static constexpr bool traps = fraction_limits_type::traps;",
  "  static constexpr bool tinyness_before = fraction_limits_type::tinyness_before;",
  "",
  "  static constexpr mixed_number_type min() noexcept;",
  "  static constexpr mixed_number_type lowest() noexcept;",
  "  static constexpr mixed_number_type max() noexcept;",
  "  static constexpr mixed_number_type epsilon() noexcept;",
  "  static constexpr mixed_number_type round_error() noexcept;",
  "  static constexpr mixed_number_type infinity() noexcept;",
  "  static constexpr mixed_number_type quiet_NaN() noexcept;",
  "  static constexpr mixed_number_type signaling_NaN() noexcept;",
  "  static constexpr mixed_number_type denorm_min() noexcept;",
  "};",
  "",
  "",
  "}; // namespace std",
  "",
  "",
  "// =============================================================================",
  "",
  "",
  "namespace ieme {",
  "",
  "",
  "template <typename Rep, typename Ops>",
  "constexpr auto limits<fraction<Rep, Ops>>::max() noexcept -> fraction_type",
  "{",
  "  return std::numeric_limits<Rep>::max();",
  "}",
  "",
  "template <typename Rep, typename Ops>",
  "constexpr auto limits<fraction<Rep, Ops>>::min() noexcept -> fraction_type",
  "{",
  "  return std::numeric_limits<Rep>::min();",
  "}",
  "",
  "template <typename Rep, typename Ops>",
  "constexpr auto limits<fraction<Rep, Ops>>::smallest() noexcept -> fraction_type",
  "{",
  "  return {_1<Rep>, std::numeric_limits<Rep>::max()};",
  "}",
  "",
  "template <typename Rep, typename Ops>",
  "constexpr auto limits<fraction<Rep, Ops>>::undefined() noexcept -> fraction_type",
  "{",
  "  return {_0<Rep>, _0<Rep>};",
  "}",
  "",
  "template <typename Rep, typename Ops>",
  "constexpr auto limits<mixed_number<Rep, Ops>>::max() noexcept",
  "  -> mixed_number_type",
  "{",
  "  return limits<fraction_type>::max();",
  "}",
  "",
  "template <typename Rep, typename Ops>",
  "constexpr auto limits<mixed_number<Rep, Ops>>::min() noexcept",
  "  -> mixed_number_type",
  "{",
  "  return limits<fraction_type>::min();",
  "}",
  "",
  "template <typename Rep, typename Ops>",
  "constexpr auto limits<mixed_number<Rep, Ops>>::smallest() noexcept",
  "  -> mixed_number_type",
  "{",
  "  return limits<fraction_type>::smallest();",
  "}",
  "",
  "template <typename Rep, typename Ops>",
  "constexpr auto limits<mixed_number<Rep, Ops>>::undefined() noexcept",
  "  -> mixed_number_type",
  "{",
  "  return limits<fraction_type>::undefined();",
  "}",
  "",
  "",
  "}; // namespace ieme",
  "",
  "",
  "namespace std {",
  "",
  "",
  "template <typename Rep, typename Ops>",
  "constexpr ieme::fraction<Rep, Ops>",
  "numeric_limits<ieme::fraction<Rep, Ops>>::min() noexcept",
  "{",
  "  return ieme::limits<ieme::fraction<Rep, Ops>>::min();",
  "}",
  "",
  "template <typename Rep, typename Ops>",
  "constexpr ieme::fraction<Rep, Ops>",
  "numeric_limits<ieme::fraction<Rep, Ops>>::lowest() noexcept",
  "{",
  "  return ieme::limits<ieme::fraction<Rep, Ops>>::min();",
  "}",
  "",
  "template <typename Rep, typename Ops>",
  "constexpr ieme::fraction<Rep, Ops>",
  "numeric_limits<ieme::fraction<Rep, Ops>>::max() noexcept",
  "{",
  "  return ieme::limits<ieme::fraction<Rep, Ops>>::max();",
  "}",
  "",
  "template <typename Rep, typename Ops>",
  "constexpr ieme::fraction<Rep, Ops>",
  "numeric_limits<ieme::fraction<Rep, Ops>>::epsilon() noexcept",
  "{",
  "  return ieme::limits<ieme::fraction<Rep, Ops>>::smallest();",
  "}",
  "",
  "template <typename Rep, typename Ops>",
  "constexpr ieme::fraction<Rep, Ops>",
  "numeric_limits<ieme::fraction<Rep, Ops>>::round_error() noexcept",
  "{",
  "  return rep_limits_type::round_error();",
  "}",
  "",
  "template <typename Rep, typename Ops>",
  "constexpr ieme::fraction<Rep, Ops>",
  "numeric_limits<ieme::fraction<Rep, Ops>>::infinity() noexcept",
  "{",
  "  return rep_limits_type::infinity();",
  "}",
  "",
  "template <typename Rep, typename Ops>",
  "constexpr ieme::fraction<Rep, Ops>",
  "numeric_limits<ieme::fraction<Rep, Ops>>::quiet_NaN() noexcept",
  "{",
  "  return ieme::limits<ieme::fraction<Rep, Ops>>::undefined();",
  "}",
  "",
  "template <typename Rep, typename Ops>",
  "constexpr ieme::fraction<Rep, Ops>",
  "numeric_limits<ieme::fraction<Rep, Ops>>::signaling_NaN() noexcept",
  "{",
  "  return rep_limits_type::signaling_NaN();",
  "}",
  "",
  "template <typename Rep, typename Ops>",
  "constexpr ieme::fraction<Rep, Ops>",
  "numeric_limits<ieme::fraction<Rep, Ops>>::denorm_min() noexcept",
  "{",
  "  return rep_limits_type::denorm_min();",
  "}",
  "",
  "template <typename Rep, typename Ops>",
  "constexpr ieme::mixed_number<Rep, Ops>",
  "numeric_limits<ieme::mixed_number<Rep, Ops>>::min() noexcept",
  "{",
  "  return ieme::limits<ieme::mixed_number<Rep, Ops>>::min();",
  "}",
  "",
  "template <typename Rep, typename Ops>",
  "constexpr ieme::mixed_number<Rep, Ops>",
  "numeric_limits<ieme::mixed_number<Rep, Ops>>::lowest() noexcept",
  "{",
  "  return ieme::limits<ieme::mixed_number<Rep, Ops>>::min();",
  "}",
  "",
  "template <typename Rep, typename Ops>",
  "constexpr ieme::mixed_number<Rep, Ops>",
  "numeric_limits<ieme::mixed_number<Rep, Ops>>::max() noexcept",
  "{",
  "  return ieme::limits<ieme::mixed_number<Rep, Ops>>::max();",
  "}",
  "",
  "template <typename Rep, typename Ops>",
  "constexpr ieme::mixed_number<Rep, Ops>",
  "numeric_limits<ieme::mixed_number<Rep, Ops>>::epsilon() noexcept",
  "{",
  "  return ieme::limits<ieme::mixed_number<Rep, Ops>>::smallest();",
  "}",
  "",
  "template <typename Rep, typename Ops>",
  "constexpr ieme::mixed_number<Rep, Ops>",
  "numeric_limits<ieme::mixed_number<Rep, Ops>>::round_error() noexcept",
  "{",
  "  return fraction_limits_type::round_error();",
  "}",
  "",
  "template <typename Rep, typename Ops>",
  "constexpr ieme::mixed_number<Rep, Ops>",
  "numeric_limits<ieme::mixed_number<Rep, Ops>>::infinity() noexcept",
  "{",
  "  return fraction_limits_type::infinity();",
  "}",
  "",
  "template <typename Rep, typename Ops>",
  "constexpr ieme::mixed_number<Rep, Ops>",
  "numeric_limits<ieme::mixed_number<Rep, Ops>>::quiet_NaN() noexcept",
  "{",
  "  return ieme::limits<ieme::mixed_number<Rep, Ops>>::undefined();",
  "}",
  "",
  "template <typename Rep, typename Ops>",
  "constexpr ieme::mixed_number<Rep, Ops>",
  "numeric_limits<ieme::mixed_number<Rep, Ops>>::signaling_NaN() noexcept",
  "{",
  "  return fraction_limits_type::signaling_NaN();",
  "}",
  "",
  "template <typename Rep, typename Ops>",
  "constexpr ieme::mixed_number<Rep, Ops>",
  "numeric_limits<ieme::mixed_number<Rep, Ops>>::denorm_min() noexcept",
  "{",
  "  return fraction_limits_type::denorm_min();",
  "}",
  "",
  "",
  "}; // namespace std",
  "",
  "",
  "#endif"]

/-- `/repo/include/ieme/fraction_literals.hpp:16-53` -/
def literalNames : List String := [
  "template <bool IsSigned, typename Ops = ops::defaults>",
  "class denominator_literal final {",
  "",
  "public:",
  "  static constexpr bool is_signed = IsSigned;",
  "",
  "  using value_type",
  "    = std::conditional_t<IsSigned, long long int, unsigned long long int>;",
  "  using ops_type = Ops;",
  "",
  "  constexpr denominator_literal(value_type value) noexcept;",
  "",
  "  constexpr value_type value() const noexcept { return value_; }",
  "",
  "private:",
  "  value_type value_;",
  "};",
  "",
  "constexpr denominator_literal<false>",
  "operator\"\"_fr(unsigned long long int value) noexcept;",
  "",
  "template <bool IsSigned, typename Ops>",
  "constexpr denominator_literal<IsSigned, Ops>",
  "operator+(denominator_literal<IsSigned, Ops> const& value) noexcept;",
  "",
  "template <bool IsSigned, typename Ops>",
  "constexpr denominator_literal<true, Ops>",
  "operator-(denominator_literal<IsSigned, Ops> const& value) noexcept;",
  "",
  "template <bool IsSigned, typename Rep, typename Ops>",
  "constexpr fraction<Rep, Ops>",
  "operator/(fraction<Rep, Ops> const& left,",
  "          denominator_literal<IsSigned, Ops> const& right) noexcept;",
  "",
  "template <bool IsSigned, typename Rep, typename Ops>",
  "constexpr fraction<Rep, Ops>",
  "operator/(Rep const& left,",
  "          denominator_literal<IsSigned, Ops> const& right) noexcept;"]

/-- `/repo/include/ieme/fraction_literals.hpp:63-104` -/
def literals : List String := [
  "template <bool IsSigned, typename Ops>",
  "constexpr denominator_literal<IsSigned, Ops>::denominator_literal(",
  "  value_type const value) noexcept :",
  "  value_ {value}",
  "{",
  "}",
  "",
  "constexpr denominator_literal<false>",
  "operator\"\"_fr(unsigned long long int const value) noexcept",
  "{",
  "  return value;",
  "}",
  "",
  "template <bool IsSigned, typename Ops>",
  "constexpr denominator_literal<IsSigned, Ops>",
  "operator+(denominator_literal<IsSigned, Ops> const& value) noexcept",
  "{",
  "  return value;",
  "}",
  "",
  "template <bool IsSigned, typename Ops>",
  "constexpr denominator_literal<true, Ops>",
  "operator-(denominator_literal<IsSigned, Ops> const& value) noexcept",
  "{",
  "  return -typename denominator_literal<true, Ops>::value_type(value.value());",
  "}",
  "",
  "template <bool IsSigned, typename Rep, typename Ops>",
  "constexpr fraction<Rep, Ops>",
  "operator/(fraction<Rep, Ops> const& left,",
  "          denominator_literal<IsSigned, Ops> const& right) noexcept",
  "{",
  "  return left / static_cast<Rep>(right.value());",
  "}",
  "",
  "template <bool IsSigned, typename Rep, typename Ops>",
  "constexpr fraction<Rep, Ops>",
  "operator/(Rep const& left,",
  "          denominator_literal<IsSigned, Ops> const& right) noexcept",
  "{",
  "  return {left, static_cast<Rep>(right.value())};",
  "}"]

end Ieme.Leaf.Text
