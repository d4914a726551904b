import Verif.Model.HeaderEval
import Verif.Model.HeaderProgram
import Verif.Lemmas.HeaderAttr

/-!
# Looking up the functions of the headers

For every name of the library the functions it may mean, and for every function its parts.
-/

namespace Ieme.Header

set_option maxRecDepth 4000

attribute [exec_header] N.«Denominator» N.«FRep» N.«FRep1» N.«FRep2» N.«Int» N.«Left» N.«LeftOps»
  N.«LeftRep» N.«Mode» N.«Numerator» N.«Ops» N.«OtherFRep» N.«OtherOps» N.«OtherRep» N.«Rep»
  N.«Right» N.«RightOps» N.«RightRep» N.«T» N.«V» N.«WRep» N.«WRep1» N.«WRep2» N.«_0» N.«_1»
  N.«_10» N.«_2» N.«abs» N.«are_different» N.«are_identical» N.«as_fraction» N.«auto» N.«base»
  N.«bool» N.«case» N.«ceil» N.«ceil_redenominate» N.«class» N.«common_raw_type»
  N.«common_rep_type» N.«common_type_t» N.«const» N.«constexpr» N.«default» N.«defaults» N.«define»
  N.«delete» N.«den» N.«denominator» N.«divides» N.«else» N.«enable_if_t» N.«enum» N.«equal_to»
  N.«explicit» N.«exponent» N.«false» N.«fast» N.«fast_reduced_i» N.«fast_reduced_io»
  N.«fast_reduced_o» N.«final» N.«fix» N.«floor» N.«floor_redenominate» N.«floored» N.«fraction»
  N.«fractional» N.«fractional_» N.«fractional_rep_type» N.«fractional_type» N.«friend»
  N.«function» N.«gcd» N.«greater» N.«greater_equal» N.«ieme» N.«if» N.«ignore» N.«ignore_signs»
  N.«init_denominator» N.«init_numerator» N.«int» N.«intmax_t» N.«is_convertible_v» N.«is_defined»
  N.«is_improper» N.«is_integer» N.«is_negative» N.«is_non_negative» N.«is_non_positive»
  N.«is_positive» N.«is_proper» N.«is_reduced» N.«is_reduced_ignore_signs» N.«is_same_v»
  N.«is_undefined» N.«is_unit_fraction» N.«is_zero» N.«istream» N.«lcm» N.«left» N.«less»
  N.«less_equal» N.«long» N.«make_unsigned_t» N.«math_utilities» N.«max» N.«minus» N.«mixed_number»
  N.«mode» N.«modulus» N.«multiplies» N.«namespace» N.«negate» N.«new_denominator» N.«noexcept»
  N.«normalize_signs» N.«not_equal_to» N.«num» N.«number» N.«numerator» N.«numeric_limits»
  N.«operator» N.«operator!=» N.«operator%» N.«operator%=» N.«operator*» N.«operator*=»
  N.«operator+» N.«operator+=» N.«operator-» N.«operator-=» N.«operator/» N.«operator/=»
  N.«operator<» N.«operator<<» N.«operator<=» N.«operator==» N.«operator>» N.«operator>=» N.«ops»
  N.«ops_type» N.«ostream» N.«other» N.«plus» N.«pow» N.«pow2» N.«private» N.«public» N.«ratio»
  N.«raw» N.«raw_» N.«raw_fraction» N.«raw_fraction_type» N.«reciprocal» N.«redenominate»
  N.«reduce» N.«reduce_ignore_signs» N.«reduce_mode» N.«reduce_normalize_signs» N.«reduced_input»
  N.«reduced_output» N.«rep_type» N.«return» N.«right» N.«round» N.«round_mode»
  N.«round_redenominate» N.«safe» N.«safe_reduced_i» N.«safe_reduced_io» N.«safe_reduced_o»
  N.«signs_are_normalized» N.«squareRoot» N.«static» N.«static_cast» N.«std» N.«std::common_type_t»
  N.«std::intmax_t» N.«std::istream» N.«std::make_unsigned_t» N.«std::ostream» N.«stream»
  N.«streamsize» N.«struct» N.«switch» N.«symbol» N.«template» N.«to_whole» N.«true» N.«trunc»
  N.«trunc_redenominate» N.«truncated» N.«truncated_fractional» N.«typename» N.«unsigned»
  N.«unsigned_type» N.«using» N.«value» N.«void» N.«whole» N.«whole_» N.«whole_type»

@[pick, exec_header] theorem find_1 : library.find 0 N.«_0» = [F.num0_1] :=
  by decide +kernel
@[pick, exec_header] theorem find_2 : library.find 0 N.«_1» = [F.num1_1] :=
  by decide +kernel
@[pick, exec_header] theorem find_3 : library.find 0 N.«_10» = [F.num10_1] :=
  by decide +kernel
@[pick, exec_header] theorem find_4 : library.find 0 N.«_2» = [F.num2_1] :=
  by decide +kernel
@[pick, exec_header] theorem find_5 : library.find 0 N.«abs» = [F.abs_1] :=
  by decide +kernel
@[pick, exec_header] theorem find_6 : library.find 0 N.«are_different» = [F.are_different_1,
  F.are_different_2] :=
  by decide +kernel
@[pick, exec_header] theorem find_7 : library.find 0 N.«are_identical» = [F.are_identical_1,
  F.are_identical_2] :=
  by decide +kernel
@[pick, exec_header] theorem find_8 : library.find 0 N.«ceil» = [F.ceil_1] :=
  by decide +kernel
@[pick, exec_header] theorem find_9 : library.find 0 N.«ceil_redenominate» =
  [F.ceil_redenominate_1] :=
  by decide +kernel
@[pick, exec_header] theorem find_10 : library.find 0 N.«floor» = [F.floor_1] :=
  by decide +kernel
@[pick, exec_header] theorem find_11 : library.find 0 N.«floor_redenominate» =
  [F.floor_redenominate_1] :=
  by decide +kernel
@[pick, exec_header] theorem find_12 : library.find 0 N.«is_defined» = [F.is_defined_1,
  F.is_defined_2] :=
  by decide +kernel
@[pick, exec_header] theorem find_13 : library.find 0 N.«is_improper» = [F.is_improper_1,
  F.is_improper_2] :=
  by decide +kernel
@[pick, exec_header] theorem find_14 : library.find 0 N.«is_integer» = [F.is_integer_1,
  F.is_integer_2] :=
  by decide +kernel
@[pick, exec_header] theorem find_15 : library.find 0 N.«is_negative» = [F.is_negative_1,
  F.is_negative_2] :=
  by decide +kernel
@[pick, exec_header] theorem find_16 : library.find 0 N.«is_non_negative» = [F.is_non_negative_1,
  F.is_non_negative_2] :=
  by decide +kernel
@[pick, exec_header] theorem find_17 : library.find 0 N.«is_non_positive» = [F.is_non_positive_1,
  F.is_non_positive_2] :=
  by decide +kernel
@[pick, exec_header] theorem find_18 : library.find 0 N.«is_positive» = [F.is_positive_1,
  F.is_positive_2] :=
  by decide +kernel
@[pick, exec_header] theorem find_19 : library.find 0 N.«is_proper» = [F.is_proper_1,
  F.is_proper_2] :=
  by decide +kernel
@[pick, exec_header] theorem find_20 : library.find 0 N.«is_reduced» = [F.is_reduced_1,
  F.is_reduced_2] :=
  by decide +kernel
@[pick, exec_header] theorem find_21 : library.find 0 N.«is_reduced_ignore_signs» =
  [F.is_reduced_ignore_signs_1, F.is_reduced_ignore_signs_2] :=
  by decide +kernel
@[pick, exec_header] theorem find_22 : library.find 0 N.«is_undefined» = [F.is_undefined_1,
  F.is_undefined_2] :=
  by decide +kernel
@[pick, exec_header] theorem find_23 : library.find 0 N.«is_unit_fraction» = [F.is_unit_fraction_1,
  F.is_unit_fraction_2] :=
  by decide +kernel
@[pick, exec_header] theorem find_24 : library.find 0 N.«is_zero» = [F.is_zero_1, F.is_zero_2] :=
  by decide +kernel
@[pick, exec_header] theorem find_25 : library.find 0 N.«normalize_signs» = [F.normalize_signs_1,
  F.normalize_signs_2] :=
  by decide +kernel
@[pick, exec_header] theorem find_26 : library.find 0 N.«number» = [F.number_1] :=
  by decide +kernel
@[pick, exec_header] theorem find_27 : library.find 0 N.«operator!=» = [F.op_ne_1, F.op_ne_2,
  F.op_ne_3] :=
  by decide +kernel
@[pick, exec_header] theorem find_28 : library.find 0 N.«operator%» = [F.op_mod_1, F.op_mod_2,
  F.op_mod_3] :=
  by decide +kernel
@[pick, exec_header] theorem find_29 : library.find 0 N.«operator%=» = [F.op_modEq_1, F.op_modEq_2]
  :=
  by decide +kernel
@[pick, exec_header] theorem find_30 : library.find 0 N.«operator*» = [F.op_mul_1, F.op_mul_2,
  F.op_mul_3] :=
  by decide +kernel
@[pick, exec_header] theorem find_31 : library.find 0 N.«operator*=» = [F.op_mulEq_1, F.op_mulEq_2]
  :=
  by decide +kernel
@[pick, exec_header] theorem find_32 : library.find 0 N.«operator+» = [F.op_add_1, F.op_add_2,
  F.op_add_3, F.op_add_4, F.op_add_5, F.op_add_6, F.op_add_7, F.op_add_8, F.op_add_9, F.op_add_10]
  :=
  by decide +kernel
@[pick, exec_header] theorem find_33 : library.find 0 N.«operator+=» = [F.op_addEq_1, F.op_addEq_2]
  :=
  by decide +kernel
@[pick, exec_header] theorem find_34 : library.find 0 N.«operator-» = [F.op_sub_1, F.op_sub_2,
  F.op_sub_3, F.op_sub_4, F.op_sub_5] :=
  by decide +kernel
@[pick, exec_header] theorem find_35 : library.find 0 N.«operator-=» = [F.op_subEq_1, F.op_subEq_2]
  :=
  by decide +kernel
@[pick, exec_header] theorem find_36 : library.find 0 N.«operator/» = [F.op_div_1, F.op_div_2,
  F.op_div_3] :=
  by decide +kernel
@[pick, exec_header] theorem find_37 : library.find 0 N.«operator/=» = [F.op_divEq_1, F.op_divEq_2]
  :=
  by decide +kernel
@[pick, exec_header] theorem find_38 : library.find 0 N.«operator<» = [F.op_lt_1, F.op_lt_2,
  F.op_lt_3] :=
  by decide +kernel
@[pick, exec_header] theorem find_39 : library.find 0 N.«operator<<» = [F.op_shl_1] :=
  by decide +kernel
@[pick, exec_header] theorem find_40 : library.find 0 N.«operator<=» = [F.op_le_1, F.op_le_2,
  F.op_le_3] :=
  by decide +kernel
@[pick, exec_header] theorem find_41 : library.find 0 N.«operator==» = [F.op_eq_1, F.op_eq_2,
  F.op_eq_3] :=
  by decide +kernel
@[pick, exec_header] theorem find_42 : library.find 0 N.«operator>» = [F.op_gt_1, F.op_gt_2,
  F.op_gt_3] :=
  by decide +kernel
@[pick, exec_header] theorem find_43 : library.find 0 N.«operator>=» = [F.op_ge_1, F.op_ge_2,
  F.op_ge_3] :=
  by decide +kernel
@[pick, exec_header] theorem find_44 : library.find 0 N.«pow» = [F.pow_1] :=
  by decide +kernel
@[pick, exec_header] theorem find_45 : library.find 0 N.«pow2» = [F.pow2_1] :=
  by decide +kernel
@[pick, exec_header] theorem find_46 : library.find 0 N.«reciprocal» = [F.reciprocal_1,
  F.reciprocal_2] :=
  by decide +kernel
@[pick, exec_header] theorem find_47 : library.find 0 N.«redenominate» = [F.redenominate_1] :=
  by decide +kernel
@[pick, exec_header] theorem find_48 : library.find 0 N.«reduce» = [F.reduce_1, F.reduce_2] :=
  by decide +kernel
@[pick, exec_header] theorem find_49 : library.find 0 N.«reduce_ignore_signs» =
  [F.reduce_ignore_signs_1, F.reduce_ignore_signs_2] :=
  by decide +kernel
@[pick, exec_header] theorem find_50 : library.find 0 N.«reduce_normalize_signs» =
  [F.reduce_normalize_signs_1, F.reduce_normalize_signs_2] :=
  by decide +kernel
@[pick, exec_header] theorem find_51 : library.find 0 N.«round» = [F.round_1] :=
  by decide +kernel
@[pick, exec_header] theorem find_52 : library.find 0 N.«round_redenominate» =
  [F.round_redenominate_1] :=
  by decide +kernel
@[pick, exec_header] theorem find_53 : library.find 0 N.«to_whole» = [F.to_whole_1] :=
  by decide +kernel
@[pick, exec_header] theorem find_54 : library.find 0 N.«trunc» = [F.trunc_1] :=
  by decide +kernel
@[pick, exec_header] theorem find_55 : library.find 0 N.«trunc_redenominate» =
  [F.trunc_redenominate_1] :=
  by decide +kernel
@[pick, exec_header] theorem find_56 : library.find N.«fast» N.«divides» = [F.fast_divides_1,
  F.fast_divides_2, F.fast_divides_3] :=
  by decide +kernel
@[pick, exec_header] theorem find_57 : library.find N.«fast» N.«equal_to» = [F.fast_equal_to_1,
  F.fast_equal_to_2, F.fast_equal_to_3] :=
  by decide +kernel
@[pick, exec_header] theorem find_58 : library.find N.«fast» N.«greater» = [F.fast_greater_1,
  F.fast_greater_2, F.fast_greater_3] :=
  by decide +kernel
@[pick, exec_header] theorem find_59 : library.find N.«fast» N.«greater_equal» =
  [F.fast_greater_equal_1, F.fast_greater_equal_2, F.fast_greater_equal_3] :=
  by decide +kernel
@[pick, exec_header] theorem find_60 : library.find N.«fast» N.«is_defined» = [] :=
  by decide +kernel
@[pick, exec_header] theorem find_61 : library.find N.«fast» N.«less» = [F.fast_less_1,
  F.fast_less_2, F.fast_less_3] :=
  by decide +kernel
@[pick, exec_header] theorem find_62 : library.find N.«fast» N.«less_equal» = [F.fast_less_equal_1,
  F.fast_less_equal_2, F.fast_less_equal_3] :=
  by decide +kernel
@[pick, exec_header] theorem find_63 : library.find N.«fast» N.«minus» = [F.fast_minus_1,
  F.fast_minus_2, F.fast_minus_3] :=
  by decide +kernel
@[pick, exec_header] theorem find_64 : library.find N.«fast» N.«modulus» = [F.fast_modulus_1,
  F.fast_modulus_2, F.fast_modulus_3] :=
  by decide +kernel
@[pick, exec_header] theorem find_65 : library.find N.«fast» N.«multiplies» = [F.fast_multiplies_1,
  F.fast_multiplies_2, F.fast_multiplies_3] :=
  by decide +kernel
@[pick, exec_header] theorem find_66 : library.find N.«fast» N.«negate» = [F.fast_negate_1] :=
  by decide +kernel
@[pick, exec_header] theorem find_67 : library.find N.«fast» N.«not_equal_to» =
  [F.fast_not_equal_to_1, F.fast_not_equal_to_2, F.fast_not_equal_to_3] :=
  by decide +kernel
@[pick, exec_header] theorem find_68 : library.find N.«fast» N.«plus» = [F.fast_plus_1,
  F.fast_plus_2, F.fast_plus_3] :=
  by decide +kernel
@[pick, exec_header] theorem find_69 : library.find N.«fraction» N.«_0» = [] :=
  by decide +kernel
@[pick, exec_header] theorem find_70 : library.find N.«fraction» N.«_1» = [] :=
  by decide +kernel
@[pick, exec_header] theorem find_71 : library.find N.«fraction» N.«den» = [F.fraction_den_1,
  F.fraction_den_2] :=
  by decide +kernel
@[pick, exec_header] theorem find_72 : library.find N.«fraction» N.«denominator» =
  [F.fraction_denominator_1, F.fraction_denominator_2] :=
  by decide +kernel
@[pick, exec_header] theorem find_73 : library.find N.«fraction» N.«fraction» =
  [F.fraction_fraction_1, F.fraction_fraction_2, F.fraction_fraction_3, F.fraction_fraction_4] :=
  by decide +kernel
@[pick, exec_header] theorem find_74 : library.find N.«fraction» N.«num» = [F.fraction_num_1,
  F.fraction_num_2] :=
  by decide +kernel
@[pick, exec_header] theorem find_75 : library.find N.«fraction» N.«numerator» =
  [F.fraction_numerator_1, F.fraction_numerator_2] :=
  by decide +kernel
@[pick, exec_header] theorem find_76 : library.find N.«fraction» N.«raw» = [F.fraction_raw_1,
  F.fraction_raw_2] :=
  by decide +kernel
@[pick, exec_header] theorem find_77 : library.find N.«math_utilities» N.«_0» = [] :=
  by decide +kernel
@[pick, exec_header] theorem find_78 : library.find N.«math_utilities» N.«_1» = [] :=
  by decide +kernel
@[pick, exec_header] theorem find_79 : library.find N.«math_utilities» N.«_2» = [] :=
  by decide +kernel
@[pick, exec_header] theorem find_80 : library.find N.«math_utilities» N.«abs» =
  [F.math_utilities_abs_1] :=
  by decide +kernel
@[pick, exec_header] theorem find_81 : library.find N.«math_utilities» N.«pow» =
  [F.math_utilities_pow_1] :=
  by decide +kernel
@[pick, exec_header] theorem find_82 : library.find N.«math_utilities» N.«pow2» =
  [F.math_utilities_pow2_1] :=
  by decide +kernel
@[pick, exec_header] theorem find_83 : library.find N.«math_utilities» N.«unsigned_type» = [] :=
  by decide +kernel
@[pick, exec_header] theorem find_84 : library.find N.«mixed_number» N.«_0» = [] :=
  by decide +kernel
@[pick, exec_header] theorem find_85 : library.find N.«mixed_number» N.«_1» = [] :=
  by decide +kernel
@[pick, exec_header] theorem find_86 : library.find N.«mixed_number» N.«as_fraction» =
  [F.mixed_number_as_fraction_1] :=
  by decide +kernel
@[pick, exec_header] theorem find_87 : library.find N.«mixed_number» N.«common_rep_type» = [] :=
  by decide +kernel
@[pick, exec_header] theorem find_88 : library.find N.«mixed_number» N.«fix» =
  [F.mixed_number_fix_1] :=
  by decide +kernel
@[pick, exec_header] theorem find_89 : library.find N.«mixed_number» N.«fraction» = [] :=
  by decide +kernel
@[pick, exec_header] theorem find_90 : library.find N.«mixed_number» N.«fractional» =
  [F.mixed_number_fractional_1] :=
  by decide +kernel
@[pick, exec_header] theorem find_91 : library.find N.«mixed_number» N.«fractional_type» = [] :=
  by decide +kernel
@[pick, exec_header] theorem find_92 : library.find N.«mixed_number» N.«is_improper» = [] :=
  by decide +kernel
@[pick, exec_header] theorem find_93 : library.find N.«mixed_number» N.«is_negative» = [] :=
  by decide +kernel
@[pick, exec_header] theorem find_94 : library.find N.«mixed_number» N.«is_positive» = [] :=
  by decide +kernel
@[pick, exec_header] theorem find_95 : library.find N.«mixed_number» N.«mixed_number» =
  [F.mixed_number_mixed_number_1, F.mixed_number_mixed_number_2, F.mixed_number_mixed_number_3] :=
  by decide +kernel
@[pick, exec_header] theorem find_96 : library.find N.«mixed_number» N.«operator» =
  [F.mixed_number_conversion_1] :=
  by decide +kernel
@[pick, exec_header] theorem find_97 : library.find N.«mixed_number» N.«trunc» = [] :=
  by decide +kernel
@[pick, exec_header] theorem find_98 : library.find N.«mixed_number» N.«whole» =
  [F.mixed_number_whole_1] :=
  by decide +kernel
@[pick, exec_header] theorem find_99 : library.find N.«mixed_number» N.«whole_type» = [] :=
  by decide +kernel
@[pick, exec_header] theorem find_100 : library.find N.«raw_fraction» N.«raw_fraction» =
  [F.raw_fraction_raw_fraction_1, F.raw_fraction_raw_fraction_2] :=
  by decide +kernel
@[pick, exec_header] theorem find_101 : library.find N.«reduced_input» N.«divides» =
  [F.reduced_input_divides_1, F.reduced_input_divides_2, F.reduced_input_divides_3] :=
  by decide +kernel
@[pick, exec_header] theorem find_102 : library.find N.«reduced_input» N.«equal_to» =
  [F.reduced_input_equal_to_1, F.reduced_input_equal_to_2, F.reduced_input_equal_to_3] :=
  by decide +kernel
@[pick, exec_header] theorem find_103 : library.find N.«reduced_input» N.«greater» =
  [F.reduced_input_greater_1, F.reduced_input_greater_2, F.reduced_input_greater_3] :=
  by decide +kernel
@[pick, exec_header] theorem find_104 : library.find N.«reduced_input» N.«greater_equal» =
  [F.reduced_input_greater_equal_1, F.reduced_input_greater_equal_2,
  F.reduced_input_greater_equal_3] :=
  by decide +kernel
@[pick, exec_header] theorem find_105 : library.find N.«reduced_input» N.«less» =
  [F.reduced_input_less_1, F.reduced_input_less_2, F.reduced_input_less_3] :=
  by decide +kernel
@[pick, exec_header] theorem find_106 : library.find N.«reduced_input» N.«less_equal» =
  [F.reduced_input_less_equal_1, F.reduced_input_less_equal_2, F.reduced_input_less_equal_3] :=
  by decide +kernel
@[pick, exec_header] theorem find_107 : library.find N.«reduced_input» N.«minus» =
  [F.reduced_input_minus_1, F.reduced_input_minus_2, F.reduced_input_minus_3] :=
  by decide +kernel
@[pick, exec_header] theorem find_108 : library.find N.«reduced_input» N.«modulus» =
  [F.reduced_input_modulus_1, F.reduced_input_modulus_2, F.reduced_input_modulus_3] :=
  by decide +kernel
@[pick, exec_header] theorem find_109 : library.find N.«reduced_input» N.«multiplies» =
  [F.reduced_input_multiplies_1, F.reduced_input_multiplies_2, F.reduced_input_multiplies_3] :=
  by decide +kernel
@[pick, exec_header] theorem find_110 : library.find N.«reduced_input» N.«negate» =
  [F.reduced_input_negate_1] :=
  by decide +kernel
@[pick, exec_header] theorem find_111 : library.find N.«reduced_input» N.«not_equal_to» =
  [F.reduced_input_not_equal_to_1, F.reduced_input_not_equal_to_2, F.reduced_input_not_equal_to_3]
  :=
  by decide +kernel
@[pick, exec_header] theorem find_112 : library.find N.«reduced_input» N.«plus» =
  [F.reduced_input_plus_1, F.reduced_input_plus_2, F.reduced_input_plus_3] :=
  by decide +kernel
@[pick, exec_header] theorem find_113 : library.find N.«reduced_input» N.«reduce» = [] :=
  by decide +kernel
@[pick, exec_header] theorem find_114 : library.find N.«reduced_output» N.«divides» =
  [F.reduced_output_divides_1] :=
  by decide +kernel
@[pick, exec_header] theorem find_115 : library.find N.«reduced_output» N.«equal_to» =
  [F.reduced_output_equal_to_1] :=
  by decide +kernel
@[pick, exec_header] theorem find_116 : library.find N.«reduced_output» N.«greater» =
  [F.reduced_output_greater_1] :=
  by decide +kernel
@[pick, exec_header] theorem find_117 : library.find N.«reduced_output» N.«greater_equal» =
  [F.reduced_output_greater_equal_1] :=
  by decide +kernel
@[pick, exec_header] theorem find_118 : library.find N.«reduced_output» N.«less» =
  [F.reduced_output_less_1] :=
  by decide +kernel
@[pick, exec_header] theorem find_119 : library.find N.«reduced_output» N.«less_equal» =
  [F.reduced_output_less_equal_1] :=
  by decide +kernel
@[pick, exec_header] theorem find_120 : library.find N.«reduced_output» N.«minus» =
  [F.reduced_output_minus_1] :=
  by decide +kernel
@[pick, exec_header] theorem find_121 : library.find N.«reduced_output» N.«modulus» =
  [F.reduced_output_modulus_1] :=
  by decide +kernel
@[pick, exec_header] theorem find_122 : library.find N.«reduced_output» N.«multiplies» =
  [F.reduced_output_multiplies_1] :=
  by decide +kernel
@[pick, exec_header] theorem find_123 : library.find N.«reduced_output» N.«negate» =
  [F.reduced_output_negate_1] :=
  by decide +kernel
@[pick, exec_header] theorem find_124 : library.find N.«reduced_output» N.«not_equal_to» =
  [F.reduced_output_not_equal_to_1] :=
  by decide +kernel
@[pick, exec_header] theorem find_125 : library.find N.«reduced_output» N.«plus» =
  [F.reduced_output_plus_1] :=
  by decide +kernel
@[pick, exec_header] theorem find_126 : library.find N.«reduced_output» N.«reduce» = [] :=
  by decide +kernel
@[pick, exec_header] theorem find_127 : library.find N.«safe» N.«divides» = [F.safe_divides_1,
  F.safe_divides_2, F.safe_divides_3] :=
  by decide +kernel
@[pick, exec_header] theorem find_128 : library.find N.«safe» N.«equal_to» = [F.safe_equal_to_1,
  F.safe_equal_to_2, F.safe_equal_to_3] :=
  by decide +kernel
@[pick, exec_header] theorem find_129 : library.find N.«safe» N.«greater» = [F.safe_greater_1,
  F.safe_greater_2, F.safe_greater_3] :=
  by decide +kernel
@[pick, exec_header] theorem find_130 : library.find N.«safe» N.«greater_equal» =
  [F.safe_greater_equal_1, F.safe_greater_equal_2, F.safe_greater_equal_3] :=
  by decide +kernel
@[pick, exec_header] theorem find_131 : library.find N.«safe» N.«is_defined» = [] :=
  by decide +kernel
@[pick, exec_header] theorem find_132 : library.find N.«safe» N.«is_undefined» = [] :=
  by decide +kernel
@[pick, exec_header] theorem find_133 : library.find N.«safe» N.«less» = [F.safe_less_1,
  F.safe_less_2, F.safe_less_3] :=
  by decide +kernel
@[pick, exec_header] theorem find_134 : library.find N.«safe» N.«less_equal» =
  [F.safe_less_equal_1, F.safe_less_equal_2, F.safe_less_equal_3] :=
  by decide +kernel
@[pick, exec_header] theorem find_135 : library.find N.«safe» N.«minus» = [F.safe_minus_1,
  F.safe_minus_2, F.safe_minus_3] :=
  by decide +kernel
@[pick, exec_header] theorem find_136 : library.find N.«safe» N.«modulus» = [F.safe_modulus_1,
  F.safe_modulus_2, F.safe_modulus_3] :=
  by decide +kernel
@[pick, exec_header] theorem find_137 : library.find N.«safe» N.«multiplies» =
  [F.safe_multiplies_1, F.safe_multiplies_2, F.safe_multiplies_3] :=
  by decide +kernel
@[pick, exec_header] theorem find_138 : library.find N.«safe» N.«negate» = [F.safe_negate_1] :=
  by decide +kernel
@[pick, exec_header] theorem find_139 : library.find N.«safe» N.«not_equal_to» =
  [F.safe_not_equal_to_1, F.safe_not_equal_to_2, F.safe_not_equal_to_3] :=
  by decide +kernel
@[pick, exec_header] theorem find_140 : library.find N.«safe» N.«plus» = [F.safe_plus_1,
  F.safe_plus_2, F.safe_plus_3] :=
  by decide +kernel
@[pick, exec_header] theorem cls_0 : library.cls? 0 = none := by decide +kernel
@[pick, exec_header] theorem cls_math_utilities : library.cls? N.«math_utilities» = none := by decide +kernel
@[pick, exec_header] theorem cls_safe : library.cls? N.«safe» = some Cls.safe := by decide +kernel
@[pick, exec_header] theorem cls_fast : library.cls? N.«fast» = some Cls.fast := by decide +kernel
@[pick, exec_header] theorem cls_reduced_input : library.cls? N.«reduced_input» = some Cls.reduced_input := by decide +kernel
@[pick, exec_header] theorem cls_reduced_output : library.cls? N.«reduced_output» = some Cls.reduced_output := by decide +kernel
@[pick, exec_header] theorem cls_raw_fraction : library.cls? N.«raw_fraction» = some Cls.raw_fraction := by decide +kernel
@[pick, exec_header] theorem cls_fraction : library.cls? N.«fraction» = some Cls.fraction := by decide +kernel
@[pick, exec_header] theorem cls_mixed_number : library.cls? N.«mixed_number» = some Cls.mixed_number := by decide +kernel

@[pick, exec_header] theorem Cls_raw_fraction_tparams : Cls.raw_fraction.tparams = [N.«Rep»] := rfl
@[pick, exec_header] theorem Cls_raw_fraction_aliases : Cls.raw_fraction.aliases = [(N.«rep_type»,
  (.name N.«Rep»))] := rfl
@[pick, exec_header] theorem Cls_raw_fraction_consts : Cls.raw_fraction.consts = [] := rfl
@[pick, exec_header] theorem Cls_raw_fraction_fields : Cls.raw_fraction.fields = [⟨(.name N.«Rep»),
  N.«numerator», .nil⟩, ⟨(.name N.«Rep»), N.«denominator», .nil⟩] := rfl
@[pick, exec_header] theorem Cls_safe_tparams : Cls.safe.tparams = [] := rfl
@[pick, exec_header] theorem Cls_safe_aliases : Cls.safe.aliases = [] := rfl
@[pick, exec_header] theorem Cls_safe_consts : Cls.safe.consts = [] := rfl
@[pick, exec_header] theorem Cls_safe_fields : Cls.safe.fields = [] := rfl
@[pick, exec_header] theorem Cls_fast_tparams : Cls.fast.tparams = [] := rfl
@[pick, exec_header] theorem Cls_fast_aliases : Cls.fast.aliases = [] := rfl
@[pick, exec_header] theorem Cls_fast_consts : Cls.fast.consts = [] := rfl
@[pick, exec_header] theorem Cls_fast_fields : Cls.fast.fields = [] := rfl
@[pick, exec_header] theorem Cls_reduced_input_tparams : Cls.reduced_input.tparams = [N.«Ops»,
  N.«Mode»] := rfl
@[pick, exec_header] theorem Cls_reduced_input_aliases : Cls.reduced_input.aliases =
  [(N.«ops_type», (.name N.«Ops»))] := rfl
@[pick, exec_header] theorem Cls_reduced_input_consts : Cls.reduced_input.consts = [(N.«mode»,
  N.«Mode»)] := rfl
@[pick, exec_header] theorem Cls_reduced_input_fields : Cls.reduced_input.fields = [] := rfl
@[pick, exec_header] theorem Cls_reduced_output_tparams : Cls.reduced_output.tparams = [N.«Ops»,
  N.«Mode»] := rfl
@[pick, exec_header] theorem Cls_reduced_output_aliases : Cls.reduced_output.aliases =
  [(N.«ops_type», (.name N.«Ops»))] := rfl
@[pick, exec_header] theorem Cls_reduced_output_consts : Cls.reduced_output.consts = [(N.«mode»,
  N.«Mode»)] := rfl
@[pick, exec_header] theorem Cls_reduced_output_fields : Cls.reduced_output.fields = [] := rfl
@[pick, exec_header] theorem Cls_fraction_tparams : Cls.fraction.tparams = [N.«Rep», N.«Ops»] :=
  rfl
@[pick, exec_header] theorem Cls_fraction_aliases : Cls.fraction.aliases = [(N.«raw_fraction_type»,
  (.app1 N.«raw_fraction» (.name N.«Rep»))), (N.«rep_type», (.member N.«raw_fraction_type»
  N.«rep_type»)), (N.«ops_type», (.name N.«Ops»))] := rfl
@[pick, exec_header] theorem Cls_fraction_consts : Cls.fraction.consts = [] := rfl
@[pick, exec_header] theorem Cls_fraction_fields : Cls.fraction.fields = [⟨(.name
  N.«raw_fraction_type»), N.«raw_», (.cons (.call 0 N.«_0» [(.name N.«rep_type»)] .nil) (.cons
  (.call 0 N.«_1» [(.name N.«rep_type»)] .nil) .nil))⟩] := rfl
@[pick, exec_header] theorem Cls_mixed_number_tparams : Cls.mixed_number.tparams = [N.«WRep»,
  N.«FRep», N.«Ops»] := rfl
@[pick, exec_header] theorem Cls_mixed_number_aliases : Cls.mixed_number.aliases =
  [(N.«whole_type», (.name N.«WRep»)), (N.«fractional_rep_type», (.name N.«FRep»)), (N.«ops_type»,
  (.name N.«Ops»)), (N.«fractional_type», (.app2 N.«fraction» (.name N.«fractional_rep_type»)
  (.name N.«ops_type»))), (N.«common_rep_type», (.app2 N.«std::common_type_t» (.name
  N.«whole_type») (.name N.«fractional_rep_type»)))] := rfl
@[pick, exec_header] theorem Cls_mixed_number_consts : Cls.mixed_number.consts = [] := rfl
@[pick, exec_header] theorem Cls_mixed_number_fields : Cls.mixed_number.fields = [⟨(.name
  N.«whole_type»), N.«whole_», .nil⟩, ⟨(.name N.«fractional_type»), N.«fractional_», .nil⟩] := rfl
@[pick] theorem number_1_tparams : F.number_1.tparams = [N.«V», N.«T»] := rfl
@[pick, exec_header] theorem number_1_params : F.number_1.params = [] := rfl
@[pick] theorem number_1_isConst : F.number_1.isConst = true := rfl
@[exec_header] theorem number_1_ret : F.number_1.ret = (.name N.«auto») := rfl
@[exec_header] theorem number_1_body : F.number_1.body = (some (.ret (.cast (.name N.«T») (.var 0
  N.«V»)) .nil)) := rfl
@[pick] theorem number_1_score : F.number_1.score = 2 := rfl
@[exec_header] theorem number_1_isCtor : F.number_1.isCtor = false := rfl
@[pick] theorem num0_1_tparams : F.num0_1.tparams = [N.«T»] := rfl
@[pick, exec_header] theorem num0_1_params : F.num0_1.params = [] := rfl
@[pick] theorem num0_1_isConst : F.num0_1.isConst = true := rfl
@[exec_header] theorem num0_1_ret : F.num0_1.ret = (.name N.«auto») := rfl
@[exec_header] theorem num0_1_body : F.num0_1.body = (some (.ret (.call 0 N.«number» [(.lit 0),
  (.name N.«T»)] .nil) .nil)) := rfl
@[pick] theorem num0_1_score : F.num0_1.score = 1 := rfl
@[exec_header] theorem num0_1_isCtor : F.num0_1.isCtor = false := rfl
@[pick] theorem num1_1_tparams : F.num1_1.tparams = [N.«T»] := rfl
@[pick, exec_header] theorem num1_1_params : F.num1_1.params = [] := rfl
@[pick] theorem num1_1_isConst : F.num1_1.isConst = true := rfl
@[exec_header] theorem num1_1_ret : F.num1_1.ret = (.name N.«auto») := rfl
@[exec_header] theorem num1_1_body : F.num1_1.body = (some (.ret (.call 0 N.«number» [(.lit 1),
  (.name N.«T»)] .nil) .nil)) := rfl
@[pick] theorem num1_1_score : F.num1_1.score = 1 := rfl
@[exec_header] theorem num1_1_isCtor : F.num1_1.isCtor = false := rfl
@[pick] theorem num2_1_tparams : F.num2_1.tparams = [N.«T»] := rfl
@[pick, exec_header] theorem num2_1_params : F.num2_1.params = [] := rfl
@[pick] theorem num2_1_isConst : F.num2_1.isConst = true := rfl
@[exec_header] theorem num2_1_ret : F.num2_1.ret = (.name N.«auto») := rfl
@[exec_header] theorem num2_1_body : F.num2_1.body = (some (.ret (.call 0 N.«number» [(.lit 2),
  (.name N.«T»)] .nil) .nil)) := rfl
@[pick] theorem num2_1_score : F.num2_1.score = 1 := rfl
@[exec_header] theorem num2_1_isCtor : F.num2_1.isCtor = false := rfl
@[pick] theorem num10_1_tparams : F.num10_1.tparams = [N.«T»] := rfl
@[pick, exec_header] theorem num10_1_params : F.num10_1.params = [] := rfl
@[pick] theorem num10_1_isConst : F.num10_1.isConst = true := rfl
@[exec_header] theorem num10_1_ret : F.num10_1.ret = (.name N.«auto») := rfl
@[exec_header] theorem num10_1_body : F.num10_1.body = (some (.ret (.call 0 N.«number» [(.lit 10),
  (.name N.«T»)] .nil) .nil)) := rfl
@[pick] theorem num10_1_score : F.num10_1.score = 1 := rfl
@[exec_header] theorem num10_1_isCtor : F.num10_1.isCtor = false := rfl
@[pick] theorem math_utilities_abs_1_tparams : F.math_utilities_abs_1.tparams = [N.«Int»] := rfl
@[pick, exec_header] theorem math_utilities_abs_1_params : F.math_utilities_abs_1.params = [⟨(.name
  N.«Int»), N.«value», none⟩] := rfl
@[pick] theorem math_utilities_abs_1_isConst : F.math_utilities_abs_1.isConst = false := rfl
@[exec_header] theorem math_utilities_abs_1_ret : F.math_utilities_abs_1.ret = (.name N.«Int») :=
  rfl
@[exec_header] theorem math_utilities_abs_1_body : F.math_utilities_abs_1.body = (some (.ret (.cond
  (.bin .ge (.var 0 N.«value») (.call 0 N.«_0» [(.name N.«Int»)] .nil)) (.var 0 N.«value») (.un
  .neg (.var 0 N.«value»))) .nil)) := rfl
@[pick] theorem math_utilities_abs_1_score : F.math_utilities_abs_1.score = 101 := rfl
@[exec_header] theorem math_utilities_abs_1_isCtor : F.math_utilities_abs_1.isCtor = false := rfl
@[pick] theorem math_utilities_pow2_1_tparams : F.math_utilities_pow2_1.tparams = [N.«Int»] := rfl
@[pick, exec_header] theorem math_utilities_pow2_1_params : F.math_utilities_pow2_1.params =
  [⟨(.name N.«Int»), N.«exponent», none⟩] := rfl
@[pick] theorem math_utilities_pow2_1_isConst : F.math_utilities_pow2_1.isConst = false := rfl
@[exec_header] theorem math_utilities_pow2_1_ret : F.math_utilities_pow2_1.ret = (.name N.«Int») :=
  rfl
@[exec_header] theorem math_utilities_pow2_1_body : F.math_utilities_pow2_1.body = (some (.using
  N.«unsigned_type» (.app1 N.«std::make_unsigned_t» (.name N.«Int»)) (.ret (.cast (.name N.«Int»)
  (.bin .shl (.call 0 N.«_1» [(.name N.«unsigned_type»)] .nil) (.call 0 N.«unsigned_type» [] (.cons
  (.var 0 N.«exponent») .nil)))) .nil))) := rfl
@[pick] theorem math_utilities_pow2_1_score : F.math_utilities_pow2_1.score = 101 := rfl
@[exec_header] theorem math_utilities_pow2_1_isCtor : F.math_utilities_pow2_1.isCtor = false := rfl
@[pick] theorem math_utilities_pow_1_tparams : F.math_utilities_pow_1.tparams = [N.«Int»] := rfl
@[pick, exec_header] theorem math_utilities_pow_1_params : F.math_utilities_pow_1.params = [⟨(.name
  N.«Int»), N.«base», none⟩, ⟨(.name N.«Int»), N.«exponent», none⟩] := rfl
@[pick] theorem math_utilities_pow_1_isConst : F.math_utilities_pow_1.isConst = false := rfl
@[exec_header] theorem math_utilities_pow_1_ret : F.math_utilities_pow_1.ret = (.name N.«Int») :=
  rfl
@[exec_header] theorem math_utilities_pow_1_body : F.math_utilities_pow_1.body = (some (.ite (.bin
  .eq (.var 0 N.«exponent») (.call 0 N.«_0» [(.name N.«Int»)] .nil)) (.ret (.call 0 N.«_1» [(.name
  N.«Int»)] .nil) .nil) .nil (.ite (.bin .eq (.bin .mod (.var 0 N.«exponent») (.call 0 N.«_2»
  [(.name N.«Int»)] .nil)) (.call 0 N.«_1» [(.name N.«Int»)] .nil)) (.ret (.bin .mul (.var 0
  N.«base») (.call 0 N.«pow» [] (.cons (.var 0 N.«base») (.cons (.bin .sub (.var 0 N.«exponent»)
  (.call 0 N.«_1» [(.name N.«Int»)] .nil)) .nil)))) .nil) .nil (.decl N.«squareRoot» (.call 0
  N.«pow» [] (.cons (.var 0 N.«base») (.cons (.bin .div (.var 0 N.«exponent») (.call 0 N.«_2»
  [(.name N.«Int»)] .nil)) .nil))) (.ret (.bin .mul (.var 0 N.«squareRoot») (.var 0
  N.«squareRoot»)) .nil))))) := rfl
@[pick] theorem math_utilities_pow_1_score : F.math_utilities_pow_1.score = 201 := rfl
@[exec_header] theorem math_utilities_pow_1_isCtor : F.math_utilities_pow_1.isCtor = false := rfl
@[pick] theorem raw_fraction_raw_fraction_1_tparams : F.raw_fraction_raw_fraction_1.tparams =
  [N.«Rep»] := rfl
@[pick, exec_header] theorem raw_fraction_raw_fraction_1_params :
  F.raw_fraction_raw_fraction_1.params = [⟨(.name N.«Rep»), N.«init_numerator», none⟩, ⟨(.name
  N.«Rep»), N.«init_denominator», none⟩] := rfl
@[pick] theorem raw_fraction_raw_fraction_1_isConst : F.raw_fraction_raw_fraction_1.isConst = false := rfl
@[exec_header] theorem raw_fraction_raw_fraction_1_ret : F.raw_fraction_raw_fraction_1.ret = (.name
  N.«void») := rfl
@[exec_header] theorem raw_fraction_raw_fraction_1_body : F.raw_fraction_raw_fraction_1.body =
  (some (.init N.«numerator» (.cons (.var 0 N.«init_numerator») .nil) (.init N.«denominator» (.cons
  (.var 0 N.«init_denominator») .nil) .nil))) := rfl
@[pick] theorem raw_fraction_raw_fraction_1_score : F.raw_fraction_raw_fraction_1.score = 201 := rfl
@[exec_header] theorem raw_fraction_raw_fraction_1_isCtor : F.raw_fraction_raw_fraction_1.isCtor = true := rfl
@[pick] theorem raw_fraction_raw_fraction_2_tparams : F.raw_fraction_raw_fraction_2.tparams =
  [N.«Rep», N.«OtherRep»] := rfl
@[pick, exec_header] theorem raw_fraction_raw_fraction_2_params :
  F.raw_fraction_raw_fraction_2.params = [⟨(.app1 N.«raw_fraction» (.name N.«OtherRep»)),
  N.«other», none⟩] := rfl
@[pick] theorem raw_fraction_raw_fraction_2_isConst : F.raw_fraction_raw_fraction_2.isConst = false := rfl
@[exec_header] theorem raw_fraction_raw_fraction_2_ret : F.raw_fraction_raw_fraction_2.ret = (.name
  N.«void») := rfl
@[exec_header] theorem raw_fraction_raw_fraction_2_body : F.raw_fraction_raw_fraction_2.body =
  (some (.init N.«raw_fraction» (.cons (.cast (.name N.«Rep») (.mem (.var 0 N.«other»)
  N.«numerator»)) (.cons (.cast (.name N.«Rep») (.mem (.var 0 N.«other») N.«denominator»)) .nil))
  .nil)) := rfl
@[pick] theorem raw_fraction_raw_fraction_2_score : F.raw_fraction_raw_fraction_2.score = 2 := rfl
@[exec_header] theorem raw_fraction_raw_fraction_2_isCtor : F.raw_fraction_raw_fraction_2.isCtor = true := rfl
@[pick] theorem is_defined_1_tparams : F.is_defined_1.tparams = [N.«Rep»] := rfl
@[pick, exec_header] theorem is_defined_1_params : F.is_defined_1.params = [⟨(.app1
  N.«raw_fraction» (.name N.«Rep»)), N.«value», none⟩] := rfl
@[pick] theorem is_defined_1_isConst : F.is_defined_1.isConst = false := rfl
@[exec_header] theorem is_defined_1_ret : F.is_defined_1.ret = (.name N.«bool») := rfl
@[exec_header] theorem is_defined_1_body : F.is_defined_1.body = (some (.ret (.bin .ne (.mem (.var
  0 N.«value») N.«denominator») (.call 0 N.«_0» [(.name N.«Rep»)] .nil)) .nil)) := rfl
@[pick] theorem is_defined_1_score : F.is_defined_1.score = 1 := rfl
@[exec_header] theorem is_defined_1_isCtor : F.is_defined_1.isCtor = false := rfl
@[pick] theorem is_undefined_1_tparams : F.is_undefined_1.tparams = [N.«Rep»] := rfl
@[pick, exec_header] theorem is_undefined_1_params : F.is_undefined_1.params = [⟨(.app1
  N.«raw_fraction» (.name N.«Rep»)), N.«value», none⟩] := rfl
@[pick] theorem is_undefined_1_isConst : F.is_undefined_1.isConst = false := rfl
@[exec_header] theorem is_undefined_1_ret : F.is_undefined_1.ret = (.name N.«bool») := rfl
@[exec_header] theorem is_undefined_1_body : F.is_undefined_1.body = (some (.ret (.un .not (.call 0
  N.«is_defined» [] (.cons (.var 0 N.«value») .nil))) .nil)) := rfl
@[pick] theorem is_undefined_1_score : F.is_undefined_1.score = 1 := rfl
@[exec_header] theorem is_undefined_1_isCtor : F.is_undefined_1.isCtor = false := rfl
@[pick] theorem is_positive_1_tparams : F.is_positive_1.tparams = [N.«Rep»] := rfl
@[pick, exec_header] theorem is_positive_1_params : F.is_positive_1.params = [⟨(.app1
  N.«raw_fraction» (.name N.«Rep»)), N.«value», none⟩] := rfl
@[pick] theorem is_positive_1_isConst : F.is_positive_1.isConst = false := rfl
@[exec_header] theorem is_positive_1_ret : F.is_positive_1.ret = (.name N.«bool») := rfl
@[exec_header] theorem is_positive_1_body : F.is_positive_1.body = (some (.ret (.bin .or (.bin .and
  (.bin .gt (.mem (.var 0 N.«value») N.«numerator») (.call 0 N.«_0» [(.name N.«Rep»)] .nil)) (.bin
  .gt (.mem (.var 0 N.«value») N.«denominator») (.call 0 N.«_0» [(.name N.«Rep»)] .nil))) (.bin
  .and (.bin .lt (.mem (.var 0 N.«value») N.«numerator») (.call 0 N.«_0» [(.name N.«Rep»)] .nil))
  (.bin .lt (.mem (.var 0 N.«value») N.«denominator») (.call 0 N.«_0» [(.name N.«Rep»)] .nil))))
  .nil)) := rfl
@[pick] theorem is_positive_1_score : F.is_positive_1.score = 1 := rfl
@[exec_header] theorem is_positive_1_isCtor : F.is_positive_1.isCtor = false := rfl
@[pick] theorem is_non_negative_1_tparams : F.is_non_negative_1.tparams = [N.«Rep»] := rfl
@[pick, exec_header] theorem is_non_negative_1_params : F.is_non_negative_1.params = [⟨(.app1
  N.«raw_fraction» (.name N.«Rep»)), N.«value», none⟩] := rfl
@[pick] theorem is_non_negative_1_isConst : F.is_non_negative_1.isConst = false := rfl
@[exec_header] theorem is_non_negative_1_ret : F.is_non_negative_1.ret = (.name N.«bool») := rfl
@[exec_header] theorem is_non_negative_1_body : F.is_non_negative_1.body = (some (.ret (.bin .or
  (.bin .and (.bin .ge (.mem (.var 0 N.«value») N.«numerator») (.call 0 N.«_0» [(.name N.«Rep»)]
  .nil)) (.bin .gt (.mem (.var 0 N.«value») N.«denominator») (.call 0 N.«_0» [(.name N.«Rep»)]
  .nil))) (.bin .and (.bin .le (.mem (.var 0 N.«value») N.«numerator») (.call 0 N.«_0» [(.name
  N.«Rep»)] .nil)) (.bin .lt (.mem (.var 0 N.«value») N.«denominator») (.call 0 N.«_0» [(.name
  N.«Rep»)] .nil)))) .nil)) := rfl
@[pick] theorem is_non_negative_1_score : F.is_non_negative_1.score = 1 := rfl
@[exec_header] theorem is_non_negative_1_isCtor : F.is_non_negative_1.isCtor = false := rfl
@[pick] theorem is_zero_1_tparams : F.is_zero_1.tparams = [N.«Rep»] := rfl
@[pick, exec_header] theorem is_zero_1_params : F.is_zero_1.params = [⟨(.app1 N.«raw_fraction»
  (.name N.«Rep»)), N.«value», none⟩] := rfl
@[pick] theorem is_zero_1_isConst : F.is_zero_1.isConst = false := rfl
@[exec_header] theorem is_zero_1_ret : F.is_zero_1.ret = (.name N.«bool») := rfl
@[exec_header] theorem is_zero_1_body : F.is_zero_1.body = (some (.ret (.bin .and (.call 0
  N.«is_defined» [] (.cons (.var 0 N.«value») .nil)) (.bin .eq (.mem (.var 0 N.«value»)
  N.«numerator») (.call 0 N.«_0» [(.name N.«Rep»)] .nil))) .nil)) := rfl
@[pick] theorem is_zero_1_score : F.is_zero_1.score = 1 := rfl
@[exec_header] theorem is_zero_1_isCtor : F.is_zero_1.isCtor = false := rfl
@[pick] theorem is_non_positive_1_tparams : F.is_non_positive_1.tparams = [N.«Rep»] := rfl
@[pick, exec_header] theorem is_non_positive_1_params : F.is_non_positive_1.params = [⟨(.app1
  N.«raw_fraction» (.name N.«Rep»)), N.«value», none⟩] := rfl
@[pick] theorem is_non_positive_1_isConst : F.is_non_positive_1.isConst = false := rfl
@[exec_header] theorem is_non_positive_1_ret : F.is_non_positive_1.ret = (.name N.«bool») := rfl
@[exec_header] theorem is_non_positive_1_body : F.is_non_positive_1.body = (some (.ret (.bin .or
  (.bin .and (.bin .ge (.mem (.var 0 N.«value») N.«numerator») (.call 0 N.«_0» [(.name N.«Rep»)]
  .nil)) (.bin .lt (.mem (.var 0 N.«value») N.«denominator») (.call 0 N.«_0» [(.name N.«Rep»)]
  .nil))) (.bin .and (.bin .le (.mem (.var 0 N.«value») N.«numerator») (.call 0 N.«_0» [(.name
  N.«Rep»)] .nil)) (.bin .gt (.mem (.var 0 N.«value») N.«denominator») (.call 0 N.«_0» [(.name
  N.«Rep»)] .nil)))) .nil)) := rfl
@[pick] theorem is_non_positive_1_score : F.is_non_positive_1.score = 1 := rfl
@[exec_header] theorem is_non_positive_1_isCtor : F.is_non_positive_1.isCtor = false := rfl
@[pick] theorem is_negative_1_tparams : F.is_negative_1.tparams = [N.«Rep»] := rfl
@[pick, exec_header] theorem is_negative_1_params : F.is_negative_1.params = [⟨(.app1
  N.«raw_fraction» (.name N.«Rep»)), N.«value», none⟩] := rfl
@[pick] theorem is_negative_1_isConst : F.is_negative_1.isConst = false := rfl
@[exec_header] theorem is_negative_1_ret : F.is_negative_1.ret = (.name N.«bool») := rfl
@[exec_header] theorem is_negative_1_body : F.is_negative_1.body = (some (.ret (.bin .or (.bin .and
  (.bin .gt (.mem (.var 0 N.«value») N.«numerator») (.call 0 N.«_0» [(.name N.«Rep»)] .nil)) (.bin
  .lt (.mem (.var 0 N.«value») N.«denominator») (.call 0 N.«_0» [(.name N.«Rep»)] .nil))) (.bin
  .and (.bin .lt (.mem (.var 0 N.«value») N.«numerator») (.call 0 N.«_0» [(.name N.«Rep»)] .nil))
  (.bin .gt (.mem (.var 0 N.«value») N.«denominator») (.call 0 N.«_0» [(.name N.«Rep»)] .nil))))
  .nil)) := rfl
@[pick] theorem is_negative_1_score : F.is_negative_1.score = 1 := rfl
@[exec_header] theorem is_negative_1_isCtor : F.is_negative_1.isCtor = false := rfl
@[pick] theorem is_integer_1_tparams : F.is_integer_1.tparams = [N.«Rep»] := rfl
@[pick, exec_header] theorem is_integer_1_params : F.is_integer_1.params = [⟨(.app1
  N.«raw_fraction» (.name N.«Rep»)), N.«value», none⟩] := rfl
@[pick] theorem is_integer_1_isConst : F.is_integer_1.isConst = false := rfl
@[exec_header] theorem is_integer_1_ret : F.is_integer_1.ret = (.name N.«bool») := rfl
@[exec_header] theorem is_integer_1_body : F.is_integer_1.body = (some (.ret (.bin .and (.call 0
  N.«is_defined» [] (.cons (.var 0 N.«value») .nil)) (.bin .eq (.bin .mod (.mem (.var 0 N.«value»)
  N.«numerator») (.mem (.var 0 N.«value») N.«denominator»)) (.call 0 N.«_0» [(.name N.«Rep»)]
  .nil))) .nil)) := rfl
@[pick] theorem is_integer_1_score : F.is_integer_1.score = 1 := rfl
@[exec_header] theorem is_integer_1_isCtor : F.is_integer_1.isCtor = false := rfl
@[pick] theorem is_unit_fraction_1_tparams : F.is_unit_fraction_1.tparams = [N.«Rep»] := rfl
@[pick, exec_header] theorem is_unit_fraction_1_params : F.is_unit_fraction_1.params = [⟨(.app1
  N.«raw_fraction» (.name N.«Rep»)), N.«value», none⟩] := rfl
@[pick] theorem is_unit_fraction_1_isConst : F.is_unit_fraction_1.isConst = false := rfl
@[exec_header] theorem is_unit_fraction_1_ret : F.is_unit_fraction_1.ret = (.name N.«bool») := rfl
@[exec_header] theorem is_unit_fraction_1_body : F.is_unit_fraction_1.body = (some (.ret (.bin .and
  (.bin .and (.call 0 N.«is_defined» [] (.cons (.var 0 N.«value») .nil)) (.bin .ne (.mem (.var 0
  N.«value») N.«numerator») (.call 0 N.«_0» [(.name N.«Rep»)] .nil))) (.bin .eq (.bin .mod (.mem
  (.var 0 N.«value») N.«denominator») (.mem (.var 0 N.«value») N.«numerator»)) (.call 0 N.«_0»
  [(.name N.«Rep»)] .nil))) .nil)) := rfl
@[pick] theorem is_unit_fraction_1_score : F.is_unit_fraction_1.score = 1 := rfl
@[exec_header] theorem is_unit_fraction_1_isCtor : F.is_unit_fraction_1.isCtor = false := rfl
@[pick] theorem is_reduced_ignore_signs_1_tparams : F.is_reduced_ignore_signs_1.tparams = [N.«Rep»]
  := rfl
@[pick, exec_header] theorem is_reduced_ignore_signs_1_params : F.is_reduced_ignore_signs_1.params
  = [⟨(.app1 N.«raw_fraction» (.name N.«Rep»)), N.«value», none⟩] := rfl
@[pick] theorem is_reduced_ignore_signs_1_isConst : F.is_reduced_ignore_signs_1.isConst = false := rfl
@[exec_header] theorem is_reduced_ignore_signs_1_ret : F.is_reduced_ignore_signs_1.ret = (.name
  N.«bool») := rfl
@[exec_header] theorem is_reduced_ignore_signs_1_body : F.is_reduced_ignore_signs_1.body = (some
  (.ret (.bin .and (.call 0 N.«is_defined» [] (.cons (.var 0 N.«value») .nil)) (.bin .eq (.call
  N.«std» N.«gcd» [] (.cons (.mem (.var 0 N.«value») N.«numerator») (.cons (.mem (.var 0 N.«value»)
  N.«denominator») .nil))) (.call 0 N.«_1» [(.name N.«Rep»)] .nil))) .nil)) := rfl
@[pick] theorem is_reduced_ignore_signs_1_score : F.is_reduced_ignore_signs_1.score = 1 := rfl
@[exec_header] theorem is_reduced_ignore_signs_1_isCtor : F.is_reduced_ignore_signs_1.isCtor = false := rfl
@[pick] theorem is_reduced_1_tparams : F.is_reduced_1.tparams = [N.«Rep»] := rfl
@[pick, exec_header] theorem is_reduced_1_params : F.is_reduced_1.params = [⟨(.app1
  N.«raw_fraction» (.name N.«Rep»)), N.«value», none⟩] := rfl
@[pick] theorem is_reduced_1_isConst : F.is_reduced_1.isConst = false := rfl
@[exec_header] theorem is_reduced_1_ret : F.is_reduced_1.ret = (.name N.«bool») := rfl
@[exec_header] theorem is_reduced_1_body : F.is_reduced_1.body = (some (.decl
  N.«signs_are_normalized» (.bin .or (.bin .gt (.mem (.var 0 N.«value») N.«numerator») (.call 0
  N.«_0» [(.name N.«Rep»)] .nil)) (.bin .gt (.mem (.var 0 N.«value») N.«denominator») (.call 0
  N.«_0» [(.name N.«Rep»)] .nil))) (.ret (.bin .and (.var 0 N.«signs_are_normalized») (.call 0
  N.«is_reduced_ignore_signs» [] (.cons (.var 0 N.«value») .nil))) .nil))) := rfl
@[pick] theorem is_reduced_1_score : F.is_reduced_1.score = 1 := rfl
@[exec_header] theorem is_reduced_1_isCtor : F.is_reduced_1.isCtor = false := rfl
@[pick] theorem is_proper_1_tparams : F.is_proper_1.tparams = [N.«Rep»] := rfl
@[pick, exec_header] theorem is_proper_1_params : F.is_proper_1.params = [⟨(.app1 N.«raw_fraction»
  (.name N.«Rep»)), N.«value», none⟩] := rfl
@[pick] theorem is_proper_1_isConst : F.is_proper_1.isConst = false := rfl
@[exec_header] theorem is_proper_1_ret : F.is_proper_1.ret = (.name N.«bool») := rfl
@[exec_header] theorem is_proper_1_body : F.is_proper_1.body = (some (.ret (.bin .lt (.call
  N.«math_utilities» N.«abs» [] (.cons (.mem (.var 0 N.«value») N.«numerator») .nil)) (.call
  N.«math_utilities» N.«abs» [] (.cons (.mem (.var 0 N.«value») N.«denominator») .nil))) .nil)) :=
  rfl
@[pick] theorem is_proper_1_score : F.is_proper_1.score = 1 := rfl
@[exec_header] theorem is_proper_1_isCtor : F.is_proper_1.isCtor = false := rfl
@[pick] theorem is_improper_1_tparams : F.is_improper_1.tparams = [N.«Rep»] := rfl
@[pick, exec_header] theorem is_improper_1_params : F.is_improper_1.params = [⟨(.app1
  N.«raw_fraction» (.name N.«Rep»)), N.«value», none⟩] := rfl
@[pick] theorem is_improper_1_isConst : F.is_improper_1.isConst = false := rfl
@[exec_header] theorem is_improper_1_ret : F.is_improper_1.ret = (.name N.«bool») := rfl
@[exec_header] theorem is_improper_1_body : F.is_improper_1.body = (some (.ret (.un .not (.call 0
  N.«is_proper» [] (.cons (.var 0 N.«value») .nil))) .nil)) := rfl
@[pick] theorem is_improper_1_score : F.is_improper_1.score = 1 := rfl
@[exec_header] theorem is_improper_1_isCtor : F.is_improper_1.isCtor = false := rfl
@[pick] theorem are_identical_1_tparams : F.are_identical_1.tparams = [N.«Rep»] := rfl
@[pick, exec_header] theorem are_identical_1_params : F.are_identical_1.params = [⟨(.app1
  N.«raw_fraction» (.name N.«Rep»)), N.«left», none⟩, ⟨(.app1 N.«raw_fraction» (.name N.«Rep»)),
  N.«right», none⟩] := rfl
@[pick] theorem are_identical_1_isConst : F.are_identical_1.isConst = false := rfl
@[exec_header] theorem are_identical_1_ret : F.are_identical_1.ret = (.name N.«bool») := rfl
@[exec_header] theorem are_identical_1_body : F.are_identical_1.body = (some (.ret (.bin .and (.bin
  .eq (.mem (.var 0 N.«left») N.«numerator») (.mem (.var 0 N.«right») N.«numerator»)) (.bin .eq
  (.mem (.var 0 N.«left») N.«denominator») (.mem (.var 0 N.«right») N.«denominator»))) .nil)) :=
  rfl
@[pick] theorem are_identical_1_score : F.are_identical_1.score = 1 := rfl
@[exec_header] theorem are_identical_1_isCtor : F.are_identical_1.isCtor = false := rfl
@[pick] theorem are_different_1_tparams : F.are_different_1.tparams = [N.«Rep»] := rfl
@[pick, exec_header] theorem are_different_1_params : F.are_different_1.params = [⟨(.app1
  N.«raw_fraction» (.name N.«Rep»)), N.«left», none⟩, ⟨(.app1 N.«raw_fraction» (.name N.«Rep»)),
  N.«right», none⟩] := rfl
@[pick] theorem are_different_1_isConst : F.are_different_1.isConst = false := rfl
@[exec_header] theorem are_different_1_ret : F.are_different_1.ret = (.name N.«bool») := rfl
@[exec_header] theorem are_different_1_body : F.are_different_1.body = (some (.ret (.un .not (.call
  0 N.«are_identical» [] (.cons (.var 0 N.«left») (.cons (.var 0 N.«right») .nil)))) .nil)) := rfl
@[pick] theorem are_different_1_score : F.are_different_1.score = 1 := rfl
@[exec_header] theorem are_different_1_isCtor : F.are_different_1.isCtor = false := rfl
@[pick] theorem reciprocal_1_tparams : F.reciprocal_1.tparams = [N.«Rep»] := rfl
@[pick, exec_header] theorem reciprocal_1_params : F.reciprocal_1.params = [⟨(.app1
  N.«raw_fraction» (.name N.«Rep»)), N.«value», none⟩] := rfl
@[pick] theorem reciprocal_1_isConst : F.reciprocal_1.isConst = false := rfl
@[exec_header] theorem reciprocal_1_ret : F.reciprocal_1.ret = (.app1 N.«raw_fraction» (.name
  N.«Rep»)) := rfl
@[exec_header] theorem reciprocal_1_body : F.reciprocal_1.body = (some (.retBrace (.cons (.mem
  (.var 0 N.«value») N.«denominator») (.cons (.mem (.var 0 N.«value») N.«numerator») .nil)) .nil))
  := rfl
@[pick] theorem reciprocal_1_score : F.reciprocal_1.score = 1 := rfl
@[exec_header] theorem reciprocal_1_isCtor : F.reciprocal_1.isCtor = false := rfl
@[pick] theorem normalize_signs_1_tparams : F.normalize_signs_1.tparams = [N.«Rep»] := rfl
@[pick, exec_header] theorem normalize_signs_1_params : F.normalize_signs_1.params = [⟨(.app1
  N.«raw_fraction» (.name N.«Rep»)), N.«value», none⟩] := rfl
@[pick] theorem normalize_signs_1_isConst : F.normalize_signs_1.isConst = false := rfl
@[exec_header] theorem normalize_signs_1_ret : F.normalize_signs_1.ret = (.app1 N.«raw_fraction»
  (.name N.«Rep»)) := rfl
@[exec_header] theorem normalize_signs_1_body : F.normalize_signs_1.body = (some (.ret (.cond (.bin
  .gt (.mem (.var 0 N.«value») N.«denominator») (.call 0 N.«_0» [(.name N.«Rep»)] .nil)) (.var 0
  N.«value») (.call 0 N.«raw_fraction» [(.name N.«Rep»)] (.cons (.un .neg (.mem (.var 0 N.«value»)
  N.«numerator»)) (.cons (.un .neg (.mem (.var 0 N.«value») N.«denominator»)) .nil)))) .nil)) :=
  rfl
@[pick] theorem normalize_signs_1_score : F.normalize_signs_1.score = 1 := rfl
@[exec_header] theorem normalize_signs_1_isCtor : F.normalize_signs_1.isCtor = false := rfl
@[pick] theorem reduce_1_tparams : F.reduce_1.tparams = [N.«Rep»] := rfl
@[pick, exec_header] theorem reduce_1_params : F.reduce_1.params = [⟨(.app1 N.«raw_fraction» (.name
  N.«Rep»)), N.«value», none⟩, ⟨(.name N.«reduce_mode»), N.«mode», (some (.var N.«reduce_mode»
  N.«normalize_signs»))⟩] := rfl
@[pick] theorem reduce_1_isConst : F.reduce_1.isConst = false := rfl
@[exec_header] theorem reduce_1_ret : F.reduce_1.ret = (.app1 N.«raw_fraction» (.name N.«Rep»)) :=
  rfl
@[exec_header] theorem reduce_1_body : F.reduce_1.body = (some (.switch (.var 0 N.«mode») (.case
  (.var N.«reduce_mode» N.«normalize_signs») (.ret (.call 0 N.«reduce_normalize_signs» [] (.cons
  (.var 0 N.«value») .nil)) (.case (.var N.«reduce_mode» N.«ignore_signs») (.ret (.call 0
  N.«reduce_ignore_signs» [] (.cons (.var 0 N.«value») .nil)) .nil)))) (.retBrace (.cons (.call 0
  N.«_0» [(.name N.«Rep»)] .nil) (.cons (.call 0 N.«_0» [(.name N.«Rep»)] .nil) .nil)) .nil))) :=
  rfl
@[pick] theorem reduce_1_score : F.reduce_1.score = 1 := rfl
@[exec_header] theorem reduce_1_isCtor : F.reduce_1.isCtor = false := rfl
@[pick] theorem reduce_normalize_signs_1_tparams : F.reduce_normalize_signs_1.tparams = [N.«Rep»]
  := rfl
@[pick, exec_header] theorem reduce_normalize_signs_1_params : F.reduce_normalize_signs_1.params =
  [⟨(.app1 N.«raw_fraction» (.name N.«Rep»)), N.«value», none⟩] := rfl
@[pick] theorem reduce_normalize_signs_1_isConst : F.reduce_normalize_signs_1.isConst = false := rfl
@[exec_header] theorem reduce_normalize_signs_1_ret : F.reduce_normalize_signs_1.ret = (.app1
  N.«raw_fraction» (.name N.«Rep»)) := rfl
@[exec_header] theorem reduce_normalize_signs_1_body : F.reduce_normalize_signs_1.body = (some
  (.ret (.call 0 N.«normalize_signs» [] (.cons (.call 0 N.«reduce_ignore_signs» [] (.cons (.var 0
  N.«value») .nil)) .nil)) .nil)) := rfl
@[pick] theorem reduce_normalize_signs_1_score : F.reduce_normalize_signs_1.score = 1 := rfl
@[exec_header] theorem reduce_normalize_signs_1_isCtor : F.reduce_normalize_signs_1.isCtor = false := rfl
@[pick] theorem reduce_ignore_signs_1_tparams : F.reduce_ignore_signs_1.tparams = [N.«Rep»] := rfl
@[pick, exec_header] theorem reduce_ignore_signs_1_params : F.reduce_ignore_signs_1.params =
  [⟨(.app1 N.«raw_fraction» (.name N.«Rep»)), N.«value», none⟩] := rfl
@[pick] theorem reduce_ignore_signs_1_isConst : F.reduce_ignore_signs_1.isConst = false := rfl
@[exec_header] theorem reduce_ignore_signs_1_ret : F.reduce_ignore_signs_1.ret = (.app1
  N.«raw_fraction» (.name N.«Rep»)) := rfl
@[exec_header] theorem reduce_ignore_signs_1_body : F.reduce_ignore_signs_1.body = (some (.ite
  (.call 0 N.«is_undefined» [] (.cons (.var 0 N.«value») .nil)) (.retBrace (.cons (.call 0 N.«_0»
  [(.name N.«Rep»)] .nil) (.cons (.call 0 N.«_0» [(.name N.«Rep»)] .nil) .nil)) .nil) .nil (.decl
  N.«gcd» (.call N.«std» N.«gcd» [] (.cons (.mem (.var 0 N.«value») N.«numerator») (.cons (.mem
  (.var 0 N.«value») N.«denominator») .nil))) (.retBrace (.cons (.bin .div (.mem (.var 0 N.«value»)
  N.«numerator») (.var 0 N.«gcd»)) (.cons (.bin .div (.mem (.var 0 N.«value») N.«denominator»)
  (.var 0 N.«gcd»)) .nil)) .nil)))) := rfl
@[pick] theorem reduce_ignore_signs_1_score : F.reduce_ignore_signs_1.score = 1 := rfl
@[exec_header] theorem reduce_ignore_signs_1_isCtor : F.reduce_ignore_signs_1.isCtor = false := rfl
@[pick] theorem safe_negate_1_tparams : F.safe_negate_1.tparams = [N.«Rep»] := rfl
@[pick, exec_header] theorem safe_negate_1_params : F.safe_negate_1.params = [⟨(.app1
  N.«raw_fraction» (.name N.«Rep»)), N.«value», none⟩] := rfl
@[pick] theorem safe_negate_1_isConst : F.safe_negate_1.isConst = false := rfl
@[exec_header] theorem safe_negate_1_ret : F.safe_negate_1.ret = (.app1 N.«raw_fraction» (.name
  N.«Rep»)) := rfl
@[exec_header] theorem safe_negate_1_body : F.safe_negate_1.body = (some (.retBrace (.cons (.un
  .neg (.mem (.var 0 N.«value») N.«numerator»)) (.cons (.mem (.var 0 N.«value») N.«denominator»)
  .nil)) .nil)) := rfl
@[pick] theorem safe_negate_1_score : F.safe_negate_1.score = 1 := rfl
@[exec_header] theorem safe_negate_1_isCtor : F.safe_negate_1.isCtor = false := rfl
@[pick] theorem safe_plus_1_tparams : F.safe_plus_1.tparams = [N.«Rep»] := rfl
@[pick, exec_header] theorem safe_plus_1_params : F.safe_plus_1.params = [⟨(.app1 N.«raw_fraction»
  (.name N.«Rep»)), N.«left», none⟩, ⟨(.app1 N.«raw_fraction» (.name N.«Rep»)), N.«right», none⟩]
  := rfl
@[pick] theorem safe_plus_1_isConst : F.safe_plus_1.isConst = false := rfl
@[exec_header] theorem safe_plus_1_ret : F.safe_plus_1.ret = (.app1 N.«raw_fraction» (.name
  N.«Rep»)) := rfl
@[exec_header] theorem safe_plus_1_body : F.safe_plus_1.body = (some (.decl N.«lcm» (.call N.«std»
  N.«lcm» [] (.cons (.mem (.var 0 N.«left») N.«denominator») (.cons (.mem (.var 0 N.«right»)
  N.«denominator») .nil))) (.retBrace (.cons (.bin .add (.bin .mul (.bin .div (.var 0 N.«lcm»)
  (.mem (.var 0 N.«left») N.«denominator»)) (.mem (.var 0 N.«left») N.«numerator»)) (.bin .mul
  (.bin .div (.var 0 N.«lcm») (.mem (.var 0 N.«right») N.«denominator»)) (.mem (.var 0 N.«right»)
  N.«numerator»))) (.cons (.var 0 N.«lcm») .nil)) .nil))) := rfl
@[pick] theorem safe_plus_1_score : F.safe_plus_1.score = 1 := rfl
@[exec_header] theorem safe_plus_1_isCtor : F.safe_plus_1.isCtor = false := rfl
@[pick] theorem safe_plus_2_tparams : F.safe_plus_2.tparams = [N.«Rep»] := rfl
@[pick, exec_header] theorem safe_plus_2_params : F.safe_plus_2.params = [⟨(.app1 N.«raw_fraction»
  (.name N.«Rep»)), N.«left», none⟩, ⟨(.name N.«Rep»), N.«right», none⟩] := rfl
@[pick] theorem safe_plus_2_isConst : F.safe_plus_2.isConst = false := rfl
@[exec_header] theorem safe_plus_2_ret : F.safe_plus_2.ret = (.app1 N.«raw_fraction» (.name
  N.«Rep»)) := rfl
@[exec_header] theorem safe_plus_2_body : F.safe_plus_2.body = (some (.retBrace (.cons (.bin .add
  (.mem (.var 0 N.«left») N.«numerator») (.bin .mul (.var 0 N.«right») (.mem (.var 0 N.«left»)
  N.«denominator»))) (.cons (.mem (.var 0 N.«left») N.«denominator») .nil)) .nil)) := rfl
@[pick] theorem safe_plus_2_score : F.safe_plus_2.score = 101 := rfl
@[exec_header] theorem safe_plus_2_isCtor : F.safe_plus_2.isCtor = false := rfl
@[pick] theorem safe_plus_3_tparams : F.safe_plus_3.tparams = [N.«Rep»] := rfl
@[pick, exec_header] theorem safe_plus_3_params : F.safe_plus_3.params = [⟨(.name N.«Rep»),
  N.«left», none⟩, ⟨(.app1 N.«raw_fraction» (.name N.«Rep»)), N.«right», none⟩] := rfl
@[pick] theorem safe_plus_3_isConst : F.safe_plus_3.isConst = false := rfl
@[exec_header] theorem safe_plus_3_ret : F.safe_plus_3.ret = (.app1 N.«raw_fraction» (.name
  N.«Rep»)) := rfl
@[exec_header] theorem safe_plus_3_body : F.safe_plus_3.body = (some (.ret (.call 0 N.«plus» []
  (.cons (.var 0 N.«right») (.cons (.var 0 N.«left») .nil))) .nil)) := rfl
@[pick] theorem safe_plus_3_score : F.safe_plus_3.score = 101 := rfl
@[exec_header] theorem safe_plus_3_isCtor : F.safe_plus_3.isCtor = false := rfl
@[pick] theorem safe_minus_1_tparams : F.safe_minus_1.tparams = [N.«Rep»] := rfl
@[pick, exec_header] theorem safe_minus_1_params : F.safe_minus_1.params = [⟨(.app1
  N.«raw_fraction» (.name N.«Rep»)), N.«left», none⟩, ⟨(.app1 N.«raw_fraction» (.name N.«Rep»)),
  N.«right», none⟩] := rfl
@[pick] theorem safe_minus_1_isConst : F.safe_minus_1.isConst = false := rfl
@[exec_header] theorem safe_minus_1_ret : F.safe_minus_1.ret = (.app1 N.«raw_fraction» (.name
  N.«Rep»)) := rfl
@[exec_header] theorem safe_minus_1_body : F.safe_minus_1.body = (some (.decl N.«lcm» (.call
  N.«std» N.«lcm» [] (.cons (.mem (.var 0 N.«left») N.«denominator») (.cons (.mem (.var 0
  N.«right») N.«denominator») .nil))) (.retBrace (.cons (.bin .sub (.bin .mul (.bin .div (.var 0
  N.«lcm») (.mem (.var 0 N.«left») N.«denominator»)) (.mem (.var 0 N.«left») N.«numerator»)) (.bin
  .mul (.bin .div (.var 0 N.«lcm») (.mem (.var 0 N.«right») N.«denominator»)) (.mem (.var 0
  N.«right») N.«numerator»))) (.cons (.var 0 N.«lcm») .nil)) .nil))) := rfl
@[pick] theorem safe_minus_1_score : F.safe_minus_1.score = 1 := rfl
@[exec_header] theorem safe_minus_1_isCtor : F.safe_minus_1.isCtor = false := rfl
@[pick] theorem safe_minus_2_tparams : F.safe_minus_2.tparams = [N.«Rep»] := rfl
@[pick, exec_header] theorem safe_minus_2_params : F.safe_minus_2.params = [⟨(.app1
  N.«raw_fraction» (.name N.«Rep»)), N.«left», none⟩, ⟨(.name N.«Rep»), N.«right», none⟩] := rfl
@[pick] theorem safe_minus_2_isConst : F.safe_minus_2.isConst = false := rfl
@[exec_header] theorem safe_minus_2_ret : F.safe_minus_2.ret = (.app1 N.«raw_fraction» (.name
  N.«Rep»)) := rfl
@[exec_header] theorem safe_minus_2_body : F.safe_minus_2.body = (some (.retBrace (.cons (.bin .sub
  (.mem (.var 0 N.«left») N.«numerator») (.bin .mul (.var 0 N.«right») (.mem (.var 0 N.«left»)
  N.«denominator»))) (.cons (.mem (.var 0 N.«left») N.«denominator») .nil)) .nil)) := rfl
@[pick] theorem safe_minus_2_score : F.safe_minus_2.score = 101 := rfl
@[exec_header] theorem safe_minus_2_isCtor : F.safe_minus_2.isCtor = false := rfl
@[pick] theorem safe_minus_3_tparams : F.safe_minus_3.tparams = [N.«Rep»] := rfl
@[pick, exec_header] theorem safe_minus_3_params : F.safe_minus_3.params = [⟨(.name N.«Rep»),
  N.«left», none⟩, ⟨(.app1 N.«raw_fraction» (.name N.«Rep»)), N.«right», none⟩] := rfl
@[pick] theorem safe_minus_3_isConst : F.safe_minus_3.isConst = false := rfl
@[exec_header] theorem safe_minus_3_ret : F.safe_minus_3.ret = (.app1 N.«raw_fraction» (.name
  N.«Rep»)) := rfl
@[exec_header] theorem safe_minus_3_body : F.safe_minus_3.body = (some (.retBrace (.cons (.bin .sub
  (.bin .mul (.var 0 N.«left») (.mem (.var 0 N.«right») N.«denominator»)) (.mem (.var 0 N.«right»)
  N.«numerator»)) (.cons (.mem (.var 0 N.«right») N.«denominator») .nil)) .nil)) := rfl
@[pick] theorem safe_minus_3_score : F.safe_minus_3.score = 101 := rfl
@[exec_header] theorem safe_minus_3_isCtor : F.safe_minus_3.isCtor = false := rfl
@[pick] theorem safe_multiplies_1_tparams : F.safe_multiplies_1.tparams = [N.«Rep»] := rfl
@[pick, exec_header] theorem safe_multiplies_1_params : F.safe_multiplies_1.params = [⟨(.app1
  N.«raw_fraction» (.name N.«Rep»)), N.«left», none⟩, ⟨(.app1 N.«raw_fraction» (.name N.«Rep»)),
  N.«right», none⟩] := rfl
@[pick] theorem safe_multiplies_1_isConst : F.safe_multiplies_1.isConst = false := rfl
@[exec_header] theorem safe_multiplies_1_ret : F.safe_multiplies_1.ret = (.app1 N.«raw_fraction»
  (.name N.«Rep»)) := rfl
@[exec_header] theorem safe_multiplies_1_body : F.safe_multiplies_1.body = (some (.retBrace (.cons
  (.bin .mul (.mem (.var 0 N.«left») N.«numerator») (.mem (.var 0 N.«right») N.«numerator»)) (.cons
  (.bin .mul (.mem (.var 0 N.«left») N.«denominator») (.mem (.var 0 N.«right») N.«denominator»))
  .nil)) .nil)) := rfl
@[pick] theorem safe_multiplies_1_score : F.safe_multiplies_1.score = 1 := rfl
@[exec_header] theorem safe_multiplies_1_isCtor : F.safe_multiplies_1.isCtor = false := rfl
@[pick] theorem safe_multiplies_2_tparams : F.safe_multiplies_2.tparams = [N.«Rep»] := rfl
@[pick, exec_header] theorem safe_multiplies_2_params : F.safe_multiplies_2.params = [⟨(.app1
  N.«raw_fraction» (.name N.«Rep»)), N.«left», none⟩, ⟨(.name N.«Rep»), N.«right», none⟩] := rfl
@[pick] theorem safe_multiplies_2_isConst : F.safe_multiplies_2.isConst = false := rfl
@[exec_header] theorem safe_multiplies_2_ret : F.safe_multiplies_2.ret = (.app1 N.«raw_fraction»
  (.name N.«Rep»)) := rfl
@[exec_header] theorem safe_multiplies_2_body : F.safe_multiplies_2.body = (some (.retBrace (.cons
  (.bin .mul (.mem (.var 0 N.«left») N.«numerator») (.var 0 N.«right»)) (.cons (.mem (.var 0
  N.«left») N.«denominator») .nil)) .nil)) := rfl
@[pick] theorem safe_multiplies_2_score : F.safe_multiplies_2.score = 101 := rfl
@[exec_header] theorem safe_multiplies_2_isCtor : F.safe_multiplies_2.isCtor = false := rfl
@[pick] theorem safe_multiplies_3_tparams : F.safe_multiplies_3.tparams = [N.«Rep»] := rfl
@[pick, exec_header] theorem safe_multiplies_3_params : F.safe_multiplies_3.params = [⟨(.name
  N.«Rep»), N.«left», none⟩, ⟨(.app1 N.«raw_fraction» (.name N.«Rep»)), N.«right», none⟩] := rfl
@[pick] theorem safe_multiplies_3_isConst : F.safe_multiplies_3.isConst = false := rfl
@[exec_header] theorem safe_multiplies_3_ret : F.safe_multiplies_3.ret = (.app1 N.«raw_fraction»
  (.name N.«Rep»)) := rfl
@[exec_header] theorem safe_multiplies_3_body : F.safe_multiplies_3.body = (some (.ret (.call 0
  N.«multiplies» [] (.cons (.var 0 N.«right») (.cons (.var 0 N.«left») .nil))) .nil)) := rfl
@[pick] theorem safe_multiplies_3_score : F.safe_multiplies_3.score = 101 := rfl
@[exec_header] theorem safe_multiplies_3_isCtor : F.safe_multiplies_3.isCtor = false := rfl
@[pick] theorem safe_divides_1_tparams : F.safe_divides_1.tparams = [N.«Rep»] := rfl
@[pick, exec_header] theorem safe_divides_1_params : F.safe_divides_1.params = [⟨(.app1
  N.«raw_fraction» (.name N.«Rep»)), N.«left», none⟩, ⟨(.app1 N.«raw_fraction» (.name N.«Rep»)),
  N.«right», none⟩] := rfl
@[pick] theorem safe_divides_1_isConst : F.safe_divides_1.isConst = false := rfl
@[exec_header] theorem safe_divides_1_ret : F.safe_divides_1.ret = (.app1 N.«raw_fraction» (.name
  N.«Rep»)) := rfl
@[exec_header] theorem safe_divides_1_body : F.safe_divides_1.body = (some (.retBrace (.cons (.bin
  .mul (.mem (.var 0 N.«left») N.«numerator») (.mem (.var 0 N.«right») N.«denominator»)) (.cons
  (.bin .mul (.mem (.var 0 N.«left») N.«denominator») (.mem (.var 0 N.«right») N.«numerator»))
  .nil)) .nil)) := rfl
@[pick] theorem safe_divides_1_score : F.safe_divides_1.score = 1 := rfl
@[exec_header] theorem safe_divides_1_isCtor : F.safe_divides_1.isCtor = false := rfl
@[pick] theorem safe_divides_2_tparams : F.safe_divides_2.tparams = [N.«Rep»] := rfl
@[pick, exec_header] theorem safe_divides_2_params : F.safe_divides_2.params = [⟨(.app1
  N.«raw_fraction» (.name N.«Rep»)), N.«left», none⟩, ⟨(.name N.«Rep»), N.«right», none⟩] := rfl
@[pick] theorem safe_divides_2_isConst : F.safe_divides_2.isConst = false := rfl
@[exec_header] theorem safe_divides_2_ret : F.safe_divides_2.ret = (.app1 N.«raw_fraction» (.name
  N.«Rep»)) := rfl
@[exec_header] theorem safe_divides_2_body : F.safe_divides_2.body = (some (.retBrace (.cons (.mem
  (.var 0 N.«left») N.«numerator») (.cons (.bin .mul (.mem (.var 0 N.«left») N.«denominator») (.var
  0 N.«right»)) .nil)) .nil)) := rfl
@[pick] theorem safe_divides_2_score : F.safe_divides_2.score = 101 := rfl
@[exec_header] theorem safe_divides_2_isCtor : F.safe_divides_2.isCtor = false := rfl
@[pick] theorem safe_divides_3_tparams : F.safe_divides_3.tparams = [N.«Rep»] := rfl
@[pick, exec_header] theorem safe_divides_3_params : F.safe_divides_3.params = [⟨(.name N.«Rep»),
  N.«left», none⟩, ⟨(.app1 N.«raw_fraction» (.name N.«Rep»)), N.«right», none⟩] := rfl
@[pick] theorem safe_divides_3_isConst : F.safe_divides_3.isConst = false := rfl
@[exec_header] theorem safe_divides_3_ret : F.safe_divides_3.ret = (.app1 N.«raw_fraction» (.name
  N.«Rep»)) := rfl
@[exec_header] theorem safe_divides_3_body : F.safe_divides_3.body = (some (.retBrace (.cons (.bin
  .mul (.var 0 N.«left») (.mem (.var 0 N.«right») N.«denominator»)) (.cons (.mem (.var 0 N.«right»)
  N.«numerator») .nil)) .nil)) := rfl
@[pick] theorem safe_divides_3_score : F.safe_divides_3.score = 101 := rfl
@[exec_header] theorem safe_divides_3_isCtor : F.safe_divides_3.isCtor = false := rfl
@[pick] theorem safe_modulus_1_tparams : F.safe_modulus_1.tparams = [N.«Rep»] := rfl
@[pick, exec_header] theorem safe_modulus_1_params : F.safe_modulus_1.params = [⟨(.app1
  N.«raw_fraction» (.name N.«Rep»)), N.«left», none⟩, ⟨(.app1 N.«raw_fraction» (.name N.«Rep»)),
  N.«right», none⟩] := rfl
@[pick] theorem safe_modulus_1_isConst : F.safe_modulus_1.isConst = false := rfl
@[exec_header] theorem safe_modulus_1_ret : F.safe_modulus_1.ret = (.app1 N.«raw_fraction» (.name
  N.«Rep»)) := rfl
@[exec_header] theorem safe_modulus_1_body : F.safe_modulus_1.body = (some (.decl N.«lcm» (.call
  N.«std» N.«lcm» [] (.cons (.mem (.var 0 N.«left») N.«denominator») (.cons (.mem (.var 0
  N.«right») N.«denominator») .nil))) (.retBrace (.cons (.bin .mod (.bin .mul (.bin .div (.var 0
  N.«lcm») (.mem (.var 0 N.«left») N.«denominator»)) (.mem (.var 0 N.«left») N.«numerator»)) (.bin
  .mul (.bin .div (.var 0 N.«lcm») (.mem (.var 0 N.«right») N.«denominator»)) (.mem (.var 0
  N.«right») N.«numerator»))) (.cons (.var 0 N.«lcm») .nil)) .nil))) := rfl
@[pick] theorem safe_modulus_1_score : F.safe_modulus_1.score = 1 := rfl
@[exec_header] theorem safe_modulus_1_isCtor : F.safe_modulus_1.isCtor = false := rfl
@[pick] theorem safe_modulus_2_tparams : F.safe_modulus_2.tparams = [N.«Rep»] := rfl
@[pick, exec_header] theorem safe_modulus_2_params : F.safe_modulus_2.params = [⟨(.app1
  N.«raw_fraction» (.name N.«Rep»)), N.«left», none⟩, ⟨(.name N.«Rep»), N.«right», none⟩] := rfl
@[pick] theorem safe_modulus_2_isConst : F.safe_modulus_2.isConst = false := rfl
@[exec_header] theorem safe_modulus_2_ret : F.safe_modulus_2.ret = (.app1 N.«raw_fraction» (.name
  N.«Rep»)) := rfl
@[exec_header] theorem safe_modulus_2_body : F.safe_modulus_2.body = (some (.retBrace (.cons (.bin
  .mod (.mem (.var 0 N.«left») N.«numerator») (.bin .mul (.mem (.var 0 N.«left») N.«denominator»)
  (.var 0 N.«right»))) (.cons (.mem (.var 0 N.«left») N.«denominator») .nil)) .nil)) := rfl
@[pick] theorem safe_modulus_2_score : F.safe_modulus_2.score = 101 := rfl
@[exec_header] theorem safe_modulus_2_isCtor : F.safe_modulus_2.isCtor = false := rfl
@[pick] theorem safe_modulus_3_tparams : F.safe_modulus_3.tparams = [N.«Rep»] := rfl
@[pick, exec_header] theorem safe_modulus_3_params : F.safe_modulus_3.params = [⟨(.name N.«Rep»),
  N.«left», none⟩, ⟨(.app1 N.«raw_fraction» (.name N.«Rep»)), N.«right», none⟩] := rfl
@[pick] theorem safe_modulus_3_isConst : F.safe_modulus_3.isConst = false := rfl
@[exec_header] theorem safe_modulus_3_ret : F.safe_modulus_3.ret = (.app1 N.«raw_fraction» (.name
  N.«Rep»)) := rfl
@[exec_header] theorem safe_modulus_3_body : F.safe_modulus_3.body = (some (.retBrace (.cons (.bin
  .mod (.bin .mul (.mem (.var 0 N.«right») N.«denominator») (.var 0 N.«left»)) (.mem (.var 0
  N.«right») N.«numerator»)) (.cons (.mem (.var 0 N.«right») N.«denominator») .nil)) .nil)) := rfl
@[pick] theorem safe_modulus_3_score : F.safe_modulus_3.score = 101 := rfl
@[exec_header] theorem safe_modulus_3_isCtor : F.safe_modulus_3.isCtor = false := rfl
@[pick] theorem safe_equal_to_1_tparams : F.safe_equal_to_1.tparams = [N.«Rep»] := rfl
@[pick, exec_header] theorem safe_equal_to_1_params : F.safe_equal_to_1.params = [⟨(.app1
  N.«raw_fraction» (.name N.«Rep»)), N.«left», none⟩, ⟨(.app1 N.«raw_fraction» (.name N.«Rep»)),
  N.«right», none⟩] := rfl
@[pick] theorem safe_equal_to_1_isConst : F.safe_equal_to_1.isConst = false := rfl
@[exec_header] theorem safe_equal_to_1_ret : F.safe_equal_to_1.ret = (.name N.«bool») := rfl
@[exec_header] theorem safe_equal_to_1_body : F.safe_equal_to_1.body = (some (.ite (.bin .or (.call
  0 N.«is_undefined» [] (.cons (.var 0 N.«left») .nil)) (.call 0 N.«is_undefined» [] (.cons (.var 0
  N.«right») .nil))) (.ret (.var 0 N.«false») .nil) .nil (.decl N.«lcm» (.call N.«std» N.«lcm» []
  (.cons (.mem (.var 0 N.«left») N.«denominator») (.cons (.mem (.var 0 N.«right») N.«denominator»)
  .nil))) (.ret (.bin .eq (.bin .mul (.bin .div (.var 0 N.«lcm») (.mem (.var 0 N.«left»)
  N.«denominator»)) (.mem (.var 0 N.«left») N.«numerator»)) (.bin .mul (.bin .div (.var 0 N.«lcm»)
  (.mem (.var 0 N.«right») N.«denominator»)) (.mem (.var 0 N.«right») N.«numerator»))) .nil)))) :=
  rfl
@[pick] theorem safe_equal_to_1_score : F.safe_equal_to_1.score = 1 := rfl
@[exec_header] theorem safe_equal_to_1_isCtor : F.safe_equal_to_1.isCtor = false := rfl
@[pick] theorem safe_equal_to_2_tparams : F.safe_equal_to_2.tparams = [N.«Rep»] := rfl
@[pick, exec_header] theorem safe_equal_to_2_params : F.safe_equal_to_2.params = [⟨(.app1
  N.«raw_fraction» (.name N.«Rep»)), N.«left», none⟩, ⟨(.name N.«Rep»), N.«right», none⟩] := rfl
@[pick] theorem safe_equal_to_2_isConst : F.safe_equal_to_2.isConst = false := rfl
@[exec_header] theorem safe_equal_to_2_ret : F.safe_equal_to_2.ret = (.name N.«bool») := rfl
@[exec_header] theorem safe_equal_to_2_body : F.safe_equal_to_2.body = (some (.ret (.bin .and (.bin
  .eq (.mem (.var 0 N.«left») N.«numerator») (.bin .mul (.var 0 N.«right») (.mem (.var 0 N.«left»)
  N.«denominator»))) (.call 0 N.«is_defined» [] (.cons (.var 0 N.«left») .nil))) .nil)) := rfl
@[pick] theorem safe_equal_to_2_score : F.safe_equal_to_2.score = 101 := rfl
@[exec_header] theorem safe_equal_to_2_isCtor : F.safe_equal_to_2.isCtor = false := rfl
@[pick] theorem safe_equal_to_3_tparams : F.safe_equal_to_3.tparams = [N.«Rep»] := rfl
@[pick, exec_header] theorem safe_equal_to_3_params : F.safe_equal_to_3.params = [⟨(.name N.«Rep»),
  N.«left», none⟩, ⟨(.app1 N.«raw_fraction» (.name N.«Rep»)), N.«right», none⟩] := rfl
@[pick] theorem safe_equal_to_3_isConst : F.safe_equal_to_3.isConst = false := rfl
@[exec_header] theorem safe_equal_to_3_ret : F.safe_equal_to_3.ret = (.name N.«bool») := rfl
@[exec_header] theorem safe_equal_to_3_body : F.safe_equal_to_3.body = (some (.ret (.call 0
  N.«equal_to» [] (.cons (.var 0 N.«right») (.cons (.var 0 N.«left») .nil))) .nil)) := rfl
@[pick] theorem safe_equal_to_3_score : F.safe_equal_to_3.score = 101 := rfl
@[exec_header] theorem safe_equal_to_3_isCtor : F.safe_equal_to_3.isCtor = false := rfl
@[pick] theorem safe_not_equal_to_1_tparams : F.safe_not_equal_to_1.tparams = [N.«Rep»] := rfl
@[pick, exec_header] theorem safe_not_equal_to_1_params : F.safe_not_equal_to_1.params = [⟨(.app1
  N.«raw_fraction» (.name N.«Rep»)), N.«left», none⟩, ⟨(.app1 N.«raw_fraction» (.name N.«Rep»)),
  N.«right», none⟩] := rfl
@[pick] theorem safe_not_equal_to_1_isConst : F.safe_not_equal_to_1.isConst = false := rfl
@[exec_header] theorem safe_not_equal_to_1_ret : F.safe_not_equal_to_1.ret = (.name N.«bool») :=
  rfl
@[exec_header] theorem safe_not_equal_to_1_body : F.safe_not_equal_to_1.body = (some (.ret (.un
  .not (.call 0 N.«equal_to» [] (.cons (.var 0 N.«left») (.cons (.var 0 N.«right») .nil)))) .nil))
  := rfl
@[pick] theorem safe_not_equal_to_1_score : F.safe_not_equal_to_1.score = 1 := rfl
@[exec_header] theorem safe_not_equal_to_1_isCtor : F.safe_not_equal_to_1.isCtor = false := rfl
@[pick] theorem safe_not_equal_to_2_tparams : F.safe_not_equal_to_2.tparams = [N.«Rep»] := rfl
@[pick, exec_header] theorem safe_not_equal_to_2_params : F.safe_not_equal_to_2.params = [⟨(.app1
  N.«raw_fraction» (.name N.«Rep»)), N.«left», none⟩, ⟨(.name N.«Rep»), N.«right», none⟩] := rfl
@[pick] theorem safe_not_equal_to_2_isConst : F.safe_not_equal_to_2.isConst = false := rfl
@[exec_header] theorem safe_not_equal_to_2_ret : F.safe_not_equal_to_2.ret = (.name N.«bool») :=
  rfl
@[exec_header] theorem safe_not_equal_to_2_body : F.safe_not_equal_to_2.body = (some (.ret (.un
  .not (.call 0 N.«equal_to» [] (.cons (.var 0 N.«left») (.cons (.var 0 N.«right») .nil)))) .nil))
  := rfl
@[pick] theorem safe_not_equal_to_2_score : F.safe_not_equal_to_2.score = 101 := rfl
@[exec_header] theorem safe_not_equal_to_2_isCtor : F.safe_not_equal_to_2.isCtor = false := rfl
@[pick] theorem safe_not_equal_to_3_tparams : F.safe_not_equal_to_3.tparams = [N.«Rep»] := rfl
@[pick, exec_header] theorem safe_not_equal_to_3_params : F.safe_not_equal_to_3.params = [⟨(.name
  N.«Rep»), N.«left», none⟩, ⟨(.app1 N.«raw_fraction» (.name N.«Rep»)), N.«right», none⟩] := rfl
@[pick] theorem safe_not_equal_to_3_isConst : F.safe_not_equal_to_3.isConst = false := rfl
@[exec_header] theorem safe_not_equal_to_3_ret : F.safe_not_equal_to_3.ret = (.name N.«bool») :=
  rfl
@[exec_header] theorem safe_not_equal_to_3_body : F.safe_not_equal_to_3.body = (some (.ret (.call 0
  N.«not_equal_to» [] (.cons (.var 0 N.«right») (.cons (.var 0 N.«left») .nil))) .nil)) := rfl
@[pick] theorem safe_not_equal_to_3_score : F.safe_not_equal_to_3.score = 101 := rfl
@[exec_header] theorem safe_not_equal_to_3_isCtor : F.safe_not_equal_to_3.isCtor = false := rfl
@[pick] theorem safe_less_1_tparams : F.safe_less_1.tparams = [N.«Rep»] := rfl
@[pick, exec_header] theorem safe_less_1_params : F.safe_less_1.params = [⟨(.app1 N.«raw_fraction»
  (.name N.«Rep»)), N.«left», none⟩, ⟨(.app1 N.«raw_fraction» (.name N.«Rep»)), N.«right», none⟩]
  := rfl
@[pick] theorem safe_less_1_isConst : F.safe_less_1.isConst = false := rfl
@[exec_header] theorem safe_less_1_ret : F.safe_less_1.ret = (.name N.«bool») := rfl
@[exec_header] theorem safe_less_1_body : F.safe_less_1.body = (some (.ite (.bin .or (.call 0
  N.«is_undefined» [] (.cons (.var 0 N.«left») .nil)) (.call 0 N.«is_undefined» [] (.cons (.var 0
  N.«right») .nil))) (.ret (.var 0 N.«false») .nil) .nil (.decl N.«lcm» (.call N.«std» N.«lcm» []
  (.cons (.mem (.var 0 N.«left») N.«denominator») (.cons (.mem (.var 0 N.«right») N.«denominator»)
  .nil))) (.ret (.bin .lt (.bin .mul (.bin .div (.var 0 N.«lcm») (.mem (.var 0 N.«left»)
  N.«denominator»)) (.mem (.var 0 N.«left») N.«numerator»)) (.bin .mul (.bin .div (.var 0 N.«lcm»)
  (.mem (.var 0 N.«right») N.«denominator»)) (.mem (.var 0 N.«right») N.«numerator»))) .nil)))) :=
  rfl
@[pick] theorem safe_less_1_score : F.safe_less_1.score = 1 := rfl
@[exec_header] theorem safe_less_1_isCtor : F.safe_less_1.isCtor = false := rfl
@[pick] theorem safe_less_2_tparams : F.safe_less_2.tparams = [N.«Rep»] := rfl
@[pick, exec_header] theorem safe_less_2_params : F.safe_less_2.params = [⟨(.app1 N.«raw_fraction»
  (.name N.«Rep»)), N.«left», none⟩, ⟨(.name N.«Rep»), N.«right», none⟩] := rfl
@[pick] theorem safe_less_2_isConst : F.safe_less_2.isConst = false := rfl
@[exec_header] theorem safe_less_2_ret : F.safe_less_2.ret = (.name N.«bool») := rfl
@[exec_header] theorem safe_less_2_body : F.safe_less_2.body = (some (.ret (.bin .and (.bin .lt
  (.mem (.var 0 N.«left») N.«numerator») (.bin .mul (.var 0 N.«right») (.mem (.var 0 N.«left»)
  N.«denominator»))) (.call 0 N.«is_defined» [] (.cons (.var 0 N.«left») .nil))) .nil)) := rfl
@[pick] theorem safe_less_2_score : F.safe_less_2.score = 101 := rfl
@[exec_header] theorem safe_less_2_isCtor : F.safe_less_2.isCtor = false := rfl
@[pick] theorem safe_less_3_tparams : F.safe_less_3.tparams = [N.«Rep»] := rfl
@[pick, exec_header] theorem safe_less_3_params : F.safe_less_3.params = [⟨(.name N.«Rep»),
  N.«left», none⟩, ⟨(.app1 N.«raw_fraction» (.name N.«Rep»)), N.«right», none⟩] := rfl
@[pick] theorem safe_less_3_isConst : F.safe_less_3.isConst = false := rfl
@[exec_header] theorem safe_less_3_ret : F.safe_less_3.ret = (.name N.«bool») := rfl
@[exec_header] theorem safe_less_3_body : F.safe_less_3.body = (some (.ret (.bin .and (.bin .lt
  (.bin .mul (.var 0 N.«left») (.mem (.var 0 N.«right») N.«denominator»)) (.mem (.var 0 N.«right»)
  N.«numerator»)) (.call 0 N.«is_defined» [] (.cons (.var 0 N.«right») .nil))) .nil)) := rfl
@[pick] theorem safe_less_3_score : F.safe_less_3.score = 101 := rfl
@[exec_header] theorem safe_less_3_isCtor : F.safe_less_3.isCtor = false := rfl
@[pick] theorem safe_less_equal_1_tparams : F.safe_less_equal_1.tparams = [N.«Rep»] := rfl
@[pick, exec_header] theorem safe_less_equal_1_params : F.safe_less_equal_1.params = [⟨(.app1
  N.«raw_fraction» (.name N.«Rep»)), N.«left», none⟩, ⟨(.app1 N.«raw_fraction» (.name N.«Rep»)),
  N.«right», none⟩] := rfl
@[pick] theorem safe_less_equal_1_isConst : F.safe_less_equal_1.isConst = false := rfl
@[exec_header] theorem safe_less_equal_1_ret : F.safe_less_equal_1.ret = (.name N.«bool») := rfl
@[exec_header] theorem safe_less_equal_1_body : F.safe_less_equal_1.body = (some (.ite (.bin .or
  (.call 0 N.«is_undefined» [] (.cons (.var 0 N.«left») .nil)) (.call 0 N.«is_undefined» [] (.cons
  (.var 0 N.«right») .nil))) (.ret (.var 0 N.«false») .nil) .nil (.decl N.«lcm» (.call N.«std»
  N.«lcm» [] (.cons (.mem (.var 0 N.«left») N.«denominator») (.cons (.mem (.var 0 N.«right»)
  N.«denominator») .nil))) (.ret (.bin .le (.bin .mul (.bin .div (.var 0 N.«lcm») (.mem (.var 0
  N.«left») N.«denominator»)) (.mem (.var 0 N.«left») N.«numerator»)) (.bin .mul (.bin .div (.var 0
  N.«lcm») (.mem (.var 0 N.«right») N.«denominator»)) (.mem (.var 0 N.«right») N.«numerator»)))
  .nil)))) := rfl
@[pick] theorem safe_less_equal_1_score : F.safe_less_equal_1.score = 1 := rfl
@[exec_header] theorem safe_less_equal_1_isCtor : F.safe_less_equal_1.isCtor = false := rfl
@[pick] theorem safe_less_equal_2_tparams : F.safe_less_equal_2.tparams = [N.«Rep»] := rfl
@[pick, exec_header] theorem safe_less_equal_2_params : F.safe_less_equal_2.params = [⟨(.app1
  N.«raw_fraction» (.name N.«Rep»)), N.«left», none⟩, ⟨(.name N.«Rep»), N.«right», none⟩] := rfl
@[pick] theorem safe_less_equal_2_isConst : F.safe_less_equal_2.isConst = false := rfl
@[exec_header] theorem safe_less_equal_2_ret : F.safe_less_equal_2.ret = (.name N.«bool») := rfl
@[exec_header] theorem safe_less_equal_2_body : F.safe_less_equal_2.body = (some (.ret (.bin .and
  (.bin .le (.mem (.var 0 N.«left») N.«numerator») (.bin .mul (.var 0 N.«right») (.mem (.var 0
  N.«left») N.«denominator»))) (.call 0 N.«is_defined» [] (.cons (.var 0 N.«left») .nil))) .nil))
  := rfl
@[pick] theorem safe_less_equal_2_score : F.safe_less_equal_2.score = 101 := rfl
@[exec_header] theorem safe_less_equal_2_isCtor : F.safe_less_equal_2.isCtor = false := rfl
@[pick] theorem safe_less_equal_3_tparams : F.safe_less_equal_3.tparams = [N.«Rep»] := rfl
@[pick, exec_header] theorem safe_less_equal_3_params : F.safe_less_equal_3.params = [⟨(.name
  N.«Rep»), N.«left», none⟩, ⟨(.app1 N.«raw_fraction» (.name N.«Rep»)), N.«right», none⟩] := rfl
@[pick] theorem safe_less_equal_3_isConst : F.safe_less_equal_3.isConst = false := rfl
@[exec_header] theorem safe_less_equal_3_ret : F.safe_less_equal_3.ret = (.name N.«bool») := rfl
@[exec_header] theorem safe_less_equal_3_body : F.safe_less_equal_3.body = (some (.ret (.bin .and
  (.bin .le (.bin .mul (.var 0 N.«left») (.mem (.var 0 N.«right») N.«denominator»)) (.mem (.var 0
  N.«right») N.«numerator»)) (.call 0 N.«is_defined» [] (.cons (.var 0 N.«right») .nil))) .nil)) :=
  rfl
@[pick] theorem safe_less_equal_3_score : F.safe_less_equal_3.score = 101 := rfl
@[exec_header] theorem safe_less_equal_3_isCtor : F.safe_less_equal_3.isCtor = false := rfl
@[pick] theorem safe_greater_1_tparams : F.safe_greater_1.tparams = [N.«Rep»] := rfl
@[pick, exec_header] theorem safe_greater_1_params : F.safe_greater_1.params = [⟨(.app1
  N.«raw_fraction» (.name N.«Rep»)), N.«left», none⟩, ⟨(.app1 N.«raw_fraction» (.name N.«Rep»)),
  N.«right», none⟩] := rfl
@[pick] theorem safe_greater_1_isConst : F.safe_greater_1.isConst = false := rfl
@[exec_header] theorem safe_greater_1_ret : F.safe_greater_1.ret = (.name N.«bool») := rfl
@[exec_header] theorem safe_greater_1_body : F.safe_greater_1.body = (some (.ret (.call 0 N.«less»
  [] (.cons (.var 0 N.«right») (.cons (.var 0 N.«left») .nil))) .nil)) := rfl
@[pick] theorem safe_greater_1_score : F.safe_greater_1.score = 1 := rfl
@[exec_header] theorem safe_greater_1_isCtor : F.safe_greater_1.isCtor = false := rfl
@[pick] theorem safe_greater_2_tparams : F.safe_greater_2.tparams = [N.«Rep»] := rfl
@[pick, exec_header] theorem safe_greater_2_params : F.safe_greater_2.params = [⟨(.app1
  N.«raw_fraction» (.name N.«Rep»)), N.«left», none⟩, ⟨(.name N.«Rep»), N.«right», none⟩] := rfl
@[pick] theorem safe_greater_2_isConst : F.safe_greater_2.isConst = false := rfl
@[exec_header] theorem safe_greater_2_ret : F.safe_greater_2.ret = (.name N.«bool») := rfl
@[exec_header] theorem safe_greater_2_body : F.safe_greater_2.body = (some (.ret (.call 0 N.«less»
  [] (.cons (.var 0 N.«right») (.cons (.var 0 N.«left») .nil))) .nil)) := rfl
@[pick] theorem safe_greater_2_score : F.safe_greater_2.score = 101 := rfl
@[exec_header] theorem safe_greater_2_isCtor : F.safe_greater_2.isCtor = false := rfl
@[pick] theorem safe_greater_3_tparams : F.safe_greater_3.tparams = [N.«Rep»] := rfl
@[pick, exec_header] theorem safe_greater_3_params : F.safe_greater_3.params = [⟨(.name N.«Rep»),
  N.«left», none⟩, ⟨(.app1 N.«raw_fraction» (.name N.«Rep»)), N.«right», none⟩] := rfl
@[pick] theorem safe_greater_3_isConst : F.safe_greater_3.isConst = false := rfl
@[exec_header] theorem safe_greater_3_ret : F.safe_greater_3.ret = (.name N.«bool») := rfl
@[exec_header] theorem safe_greater_3_body : F.safe_greater_3.body = (some (.ret (.call 0 N.«less»
  [] (.cons (.var 0 N.«right») (.cons (.var 0 N.«left») .nil))) .nil)) := rfl
@[pick] theorem safe_greater_3_score : F.safe_greater_3.score = 101 := rfl
@[exec_header] theorem safe_greater_3_isCtor : F.safe_greater_3.isCtor = false := rfl
@[pick] theorem safe_greater_equal_1_tparams : F.safe_greater_equal_1.tparams = [N.«Rep»] := rfl
@[pick, exec_header] theorem safe_greater_equal_1_params : F.safe_greater_equal_1.params = [⟨(.app1
  N.«raw_fraction» (.name N.«Rep»)), N.«left», none⟩, ⟨(.app1 N.«raw_fraction» (.name N.«Rep»)),
  N.«right», none⟩] := rfl
@[pick] theorem safe_greater_equal_1_isConst : F.safe_greater_equal_1.isConst = false := rfl
@[exec_header] theorem safe_greater_equal_1_ret : F.safe_greater_equal_1.ret = (.name N.«bool») :=
  rfl
@[exec_header] theorem safe_greater_equal_1_body : F.safe_greater_equal_1.body = (some (.ret (.call
  0 N.«less_equal» [] (.cons (.var 0 N.«right») (.cons (.var 0 N.«left») .nil))) .nil)) := rfl
@[pick] theorem safe_greater_equal_1_score : F.safe_greater_equal_1.score = 1 := rfl
@[exec_header] theorem safe_greater_equal_1_isCtor : F.safe_greater_equal_1.isCtor = false := rfl
@[pick] theorem safe_greater_equal_2_tparams : F.safe_greater_equal_2.tparams = [N.«Rep»] := rfl
@[pick, exec_header] theorem safe_greater_equal_2_params : F.safe_greater_equal_2.params = [⟨(.app1
  N.«raw_fraction» (.name N.«Rep»)), N.«left», none⟩, ⟨(.name N.«Rep»), N.«right», none⟩] := rfl
@[pick] theorem safe_greater_equal_2_isConst : F.safe_greater_equal_2.isConst = false := rfl
@[exec_header] theorem safe_greater_equal_2_ret : F.safe_greater_equal_2.ret = (.name N.«bool») :=
  rfl
@[exec_header] theorem safe_greater_equal_2_body : F.safe_greater_equal_2.body = (some (.ret (.call
  0 N.«less_equal» [] (.cons (.var 0 N.«right») (.cons (.var 0 N.«left») .nil))) .nil)) := rfl
@[pick] theorem safe_greater_equal_2_score : F.safe_greater_equal_2.score = 101 := rfl
@[exec_header] theorem safe_greater_equal_2_isCtor : F.safe_greater_equal_2.isCtor = false := rfl
@[pick] theorem safe_greater_equal_3_tparams : F.safe_greater_equal_3.tparams = [N.«Rep»] := rfl
@[pick, exec_header] theorem safe_greater_equal_3_params : F.safe_greater_equal_3.params = [⟨(.name
  N.«Rep»), N.«left», none⟩, ⟨(.app1 N.«raw_fraction» (.name N.«Rep»)), N.«right», none⟩] := rfl
@[pick] theorem safe_greater_equal_3_isConst : F.safe_greater_equal_3.isConst = false := rfl
@[exec_header] theorem safe_greater_equal_3_ret : F.safe_greater_equal_3.ret = (.name N.«bool») :=
  rfl
@[exec_header] theorem safe_greater_equal_3_body : F.safe_greater_equal_3.body = (some (.ret (.call
  0 N.«less_equal» [] (.cons (.var 0 N.«right») (.cons (.var 0 N.«left») .nil))) .nil)) := rfl
@[pick] theorem safe_greater_equal_3_score : F.safe_greater_equal_3.score = 101 := rfl
@[exec_header] theorem safe_greater_equal_3_isCtor : F.safe_greater_equal_3.isCtor = false := rfl
@[pick] theorem fast_negate_1_tparams : F.fast_negate_1.tparams = [N.«Rep»] := rfl
@[pick, exec_header] theorem fast_negate_1_params : F.fast_negate_1.params = [⟨(.app1
  N.«raw_fraction» (.name N.«Rep»)), N.«value», none⟩] := rfl
@[pick] theorem fast_negate_1_isConst : F.fast_negate_1.isConst = false := rfl
@[exec_header] theorem fast_negate_1_ret : F.fast_negate_1.ret = (.app1 N.«raw_fraction» (.name
  N.«Rep»)) := rfl
@[exec_header] theorem fast_negate_1_body : F.fast_negate_1.body = (some (.retBrace (.cons (.un
  .neg (.mem (.var 0 N.«value») N.«numerator»)) (.cons (.mem (.var 0 N.«value») N.«denominator»)
  .nil)) .nil)) := rfl
@[pick] theorem fast_negate_1_score : F.fast_negate_1.score = 1 := rfl
@[exec_header] theorem fast_negate_1_isCtor : F.fast_negate_1.isCtor = false := rfl
@[pick] theorem fast_plus_1_tparams : F.fast_plus_1.tparams = [N.«Rep»] := rfl
@[pick, exec_header] theorem fast_plus_1_params : F.fast_plus_1.params = [⟨(.app1 N.«raw_fraction»
  (.name N.«Rep»)), N.«left», none⟩, ⟨(.app1 N.«raw_fraction» (.name N.«Rep»)), N.«right», none⟩]
  := rfl
@[pick] theorem fast_plus_1_isConst : F.fast_plus_1.isConst = false := rfl
@[exec_header] theorem fast_plus_1_ret : F.fast_plus_1.ret = (.app1 N.«raw_fraction» (.name
  N.«Rep»)) := rfl
@[exec_header] theorem fast_plus_1_body : F.fast_plus_1.body = (some (.retBrace (.cons (.bin .add
  (.bin .mul (.mem (.var 0 N.«left») N.«numerator») (.mem (.var 0 N.«right») N.«denominator»))
  (.bin .mul (.mem (.var 0 N.«right») N.«numerator») (.mem (.var 0 N.«left») N.«denominator»)))
  (.cons (.bin .mul (.mem (.var 0 N.«left») N.«denominator») (.mem (.var 0 N.«right»)
  N.«denominator»)) .nil)) .nil)) := rfl
@[pick] theorem fast_plus_1_score : F.fast_plus_1.score = 1 := rfl
@[exec_header] theorem fast_plus_1_isCtor : F.fast_plus_1.isCtor = false := rfl
@[pick] theorem fast_plus_2_tparams : F.fast_plus_2.tparams = [N.«Rep»] := rfl
@[pick, exec_header] theorem fast_plus_2_params : F.fast_plus_2.params = [⟨(.app1 N.«raw_fraction»
  (.name N.«Rep»)), N.«left», none⟩, ⟨(.name N.«Rep»), N.«right», none⟩] := rfl
@[pick] theorem fast_plus_2_isConst : F.fast_plus_2.isConst = false := rfl
@[exec_header] theorem fast_plus_2_ret : F.fast_plus_2.ret = (.app1 N.«raw_fraction» (.name
  N.«Rep»)) := rfl
@[exec_header] theorem fast_plus_2_body : F.fast_plus_2.body = (some (.retBrace (.cons (.bin .add
  (.mem (.var 0 N.«left») N.«numerator») (.bin .mul (.var 0 N.«right») (.mem (.var 0 N.«left»)
  N.«denominator»))) (.cons (.mem (.var 0 N.«left») N.«denominator») .nil)) .nil)) := rfl
@[pick] theorem fast_plus_2_score : F.fast_plus_2.score = 101 := rfl
@[exec_header] theorem fast_plus_2_isCtor : F.fast_plus_2.isCtor = false := rfl
@[pick] theorem fast_plus_3_tparams : F.fast_plus_3.tparams = [N.«Rep»] := rfl
@[pick, exec_header] theorem fast_plus_3_params : F.fast_plus_3.params = [⟨(.name N.«Rep»),
  N.«left», none⟩, ⟨(.app1 N.«raw_fraction» (.name N.«Rep»)), N.«right», none⟩] := rfl
@[pick] theorem fast_plus_3_isConst : F.fast_plus_3.isConst = false := rfl
@[exec_header] theorem fast_plus_3_ret : F.fast_plus_3.ret = (.app1 N.«raw_fraction» (.name
  N.«Rep»)) := rfl
@[exec_header] theorem fast_plus_3_body : F.fast_plus_3.body = (some (.ret (.call 0 N.«plus» []
  (.cons (.var 0 N.«right») (.cons (.var 0 N.«left») .nil))) .nil)) := rfl
@[pick] theorem fast_plus_3_score : F.fast_plus_3.score = 101 := rfl
@[exec_header] theorem fast_plus_3_isCtor : F.fast_plus_3.isCtor = false := rfl
@[pick] theorem fast_minus_1_tparams : F.fast_minus_1.tparams = [N.«Rep»] := rfl
@[pick, exec_header] theorem fast_minus_1_params : F.fast_minus_1.params = [⟨(.app1
  N.«raw_fraction» (.name N.«Rep»)), N.«left», none⟩, ⟨(.app1 N.«raw_fraction» (.name N.«Rep»)),
  N.«right», none⟩] := rfl
@[pick] theorem fast_minus_1_isConst : F.fast_minus_1.isConst = false := rfl
@[exec_header] theorem fast_minus_1_ret : F.fast_minus_1.ret = (.app1 N.«raw_fraction» (.name
  N.«Rep»)) := rfl
@[exec_header] theorem fast_minus_1_body : F.fast_minus_1.body = (some (.retBrace (.cons (.bin .sub
  (.bin .mul (.mem (.var 0 N.«left») N.«numerator») (.mem (.var 0 N.«right») N.«denominator»))
  (.bin .mul (.mem (.var 0 N.«right») N.«numerator») (.mem (.var 0 N.«left») N.«denominator»)))
  (.cons (.bin .mul (.mem (.var 0 N.«left») N.«denominator») (.mem (.var 0 N.«right»)
  N.«denominator»)) .nil)) .nil)) := rfl
@[pick] theorem fast_minus_1_score : F.fast_minus_1.score = 1 := rfl
@[exec_header] theorem fast_minus_1_isCtor : F.fast_minus_1.isCtor = false := rfl
@[pick] theorem fast_minus_2_tparams : F.fast_minus_2.tparams = [N.«Rep»] := rfl
@[pick, exec_header] theorem fast_minus_2_params : F.fast_minus_2.params = [⟨(.app1
  N.«raw_fraction» (.name N.«Rep»)), N.«left», none⟩, ⟨(.name N.«Rep»), N.«right», none⟩] := rfl
@[pick] theorem fast_minus_2_isConst : F.fast_minus_2.isConst = false := rfl
@[exec_header] theorem fast_minus_2_ret : F.fast_minus_2.ret = (.app1 N.«raw_fraction» (.name
  N.«Rep»)) := rfl
@[exec_header] theorem fast_minus_2_body : F.fast_minus_2.body = (some (.retBrace (.cons (.bin .sub
  (.mem (.var 0 N.«left») N.«numerator») (.bin .mul (.var 0 N.«right») (.mem (.var 0 N.«left»)
  N.«denominator»))) (.cons (.mem (.var 0 N.«left») N.«denominator») .nil)) .nil)) := rfl
@[pick] theorem fast_minus_2_score : F.fast_minus_2.score = 101 := rfl
@[exec_header] theorem fast_minus_2_isCtor : F.fast_minus_2.isCtor = false := rfl
@[pick] theorem fast_minus_3_tparams : F.fast_minus_3.tparams = [N.«Rep»] := rfl
@[pick, exec_header] theorem fast_minus_3_params : F.fast_minus_3.params = [⟨(.name N.«Rep»),
  N.«left», none⟩, ⟨(.app1 N.«raw_fraction» (.name N.«Rep»)), N.«right», none⟩] := rfl
@[pick] theorem fast_minus_3_isConst : F.fast_minus_3.isConst = false := rfl
@[exec_header] theorem fast_minus_3_ret : F.fast_minus_3.ret = (.app1 N.«raw_fraction» (.name
  N.«Rep»)) := rfl
@[exec_header] theorem fast_minus_3_body : F.fast_minus_3.body = (some (.retBrace (.cons (.bin .sub
  (.bin .mul (.var 0 N.«left») (.mem (.var 0 N.«right») N.«denominator»)) (.mem (.var 0 N.«right»)
  N.«numerator»)) (.cons (.mem (.var 0 N.«right») N.«denominator») .nil)) .nil)) := rfl
@[pick] theorem fast_minus_3_score : F.fast_minus_3.score = 101 := rfl
@[exec_header] theorem fast_minus_3_isCtor : F.fast_minus_3.isCtor = false := rfl
@[pick] theorem fast_multiplies_1_tparams : F.fast_multiplies_1.tparams = [N.«Rep»] := rfl
@[pick, exec_header] theorem fast_multiplies_1_params : F.fast_multiplies_1.params = [⟨(.app1
  N.«raw_fraction» (.name N.«Rep»)), N.«left», none⟩, ⟨(.app1 N.«raw_fraction» (.name N.«Rep»)),
  N.«right», none⟩] := rfl
@[pick] theorem fast_multiplies_1_isConst : F.fast_multiplies_1.isConst = false := rfl
@[exec_header] theorem fast_multiplies_1_ret : F.fast_multiplies_1.ret = (.app1 N.«raw_fraction»
  (.name N.«Rep»)) := rfl
@[exec_header] theorem fast_multiplies_1_body : F.fast_multiplies_1.body = (some (.retBrace (.cons
  (.bin .mul (.mem (.var 0 N.«left») N.«numerator») (.mem (.var 0 N.«right») N.«numerator»)) (.cons
  (.bin .mul (.mem (.var 0 N.«left») N.«denominator») (.mem (.var 0 N.«right») N.«denominator»))
  .nil)) .nil)) := rfl
@[pick] theorem fast_multiplies_1_score : F.fast_multiplies_1.score = 1 := rfl
@[exec_header] theorem fast_multiplies_1_isCtor : F.fast_multiplies_1.isCtor = false := rfl
@[pick] theorem fast_multiplies_2_tparams : F.fast_multiplies_2.tparams = [N.«Rep»] := rfl
@[pick, exec_header] theorem fast_multiplies_2_params : F.fast_multiplies_2.params = [⟨(.app1
  N.«raw_fraction» (.name N.«Rep»)), N.«left», none⟩, ⟨(.name N.«Rep»), N.«right», none⟩] := rfl
@[pick] theorem fast_multiplies_2_isConst : F.fast_multiplies_2.isConst = false := rfl
@[exec_header] theorem fast_multiplies_2_ret : F.fast_multiplies_2.ret = (.app1 N.«raw_fraction»
  (.name N.«Rep»)) := rfl
@[exec_header] theorem fast_multiplies_2_body : F.fast_multiplies_2.body = (some (.retBrace (.cons
  (.bin .mul (.mem (.var 0 N.«left») N.«numerator») (.var 0 N.«right»)) (.cons (.mem (.var 0
  N.«left») N.«denominator») .nil)) .nil)) := rfl
@[pick] theorem fast_multiplies_2_score : F.fast_multiplies_2.score = 101 := rfl
@[exec_header] theorem fast_multiplies_2_isCtor : F.fast_multiplies_2.isCtor = false := rfl
@[pick] theorem fast_multiplies_3_tparams : F.fast_multiplies_3.tparams = [N.«Rep»] := rfl
@[pick, exec_header] theorem fast_multiplies_3_params : F.fast_multiplies_3.params = [⟨(.name
  N.«Rep»), N.«left», none⟩, ⟨(.app1 N.«raw_fraction» (.name N.«Rep»)), N.«right», none⟩] := rfl
@[pick] theorem fast_multiplies_3_isConst : F.fast_multiplies_3.isConst = false := rfl
@[exec_header] theorem fast_multiplies_3_ret : F.fast_multiplies_3.ret = (.app1 N.«raw_fraction»
  (.name N.«Rep»)) := rfl
@[exec_header] theorem fast_multiplies_3_body : F.fast_multiplies_3.body = (some (.ret (.call 0
  N.«multiplies» [] (.cons (.var 0 N.«right») (.cons (.var 0 N.«left») .nil))) .nil)) := rfl
@[pick] theorem fast_multiplies_3_score : F.fast_multiplies_3.score = 101 := rfl
@[exec_header] theorem fast_multiplies_3_isCtor : F.fast_multiplies_3.isCtor = false := rfl
@[pick] theorem fast_divides_1_tparams : F.fast_divides_1.tparams = [N.«Rep»] := rfl
@[pick, exec_header] theorem fast_divides_1_params : F.fast_divides_1.params = [⟨(.app1
  N.«raw_fraction» (.name N.«Rep»)), N.«left», none⟩, ⟨(.app1 N.«raw_fraction» (.name N.«Rep»)),
  N.«right», none⟩] := rfl
@[pick] theorem fast_divides_1_isConst : F.fast_divides_1.isConst = false := rfl
@[exec_header] theorem fast_divides_1_ret : F.fast_divides_1.ret = (.app1 N.«raw_fraction» (.name
  N.«Rep»)) := rfl
@[exec_header] theorem fast_divides_1_body : F.fast_divides_1.body = (some (.retBrace (.cons (.bin
  .mul (.mem (.var 0 N.«left») N.«numerator») (.mem (.var 0 N.«right») N.«denominator»)) (.cons
  (.bin .mul (.mem (.var 0 N.«left») N.«denominator») (.mem (.var 0 N.«right») N.«numerator»))
  .nil)) .nil)) := rfl
@[pick] theorem fast_divides_1_score : F.fast_divides_1.score = 1 := rfl
@[exec_header] theorem fast_divides_1_isCtor : F.fast_divides_1.isCtor = false := rfl
@[pick] theorem fast_divides_2_tparams : F.fast_divides_2.tparams = [N.«Rep»] := rfl
@[pick, exec_header] theorem fast_divides_2_params : F.fast_divides_2.params = [⟨(.app1
  N.«raw_fraction» (.name N.«Rep»)), N.«left», none⟩, ⟨(.name N.«Rep»), N.«right», none⟩] := rfl
@[pick] theorem fast_divides_2_isConst : F.fast_divides_2.isConst = false := rfl
@[exec_header] theorem fast_divides_2_ret : F.fast_divides_2.ret = (.app1 N.«raw_fraction» (.name
  N.«Rep»)) := rfl
@[exec_header] theorem fast_divides_2_body : F.fast_divides_2.body = (some (.retBrace (.cons (.mem
  (.var 0 N.«left») N.«numerator») (.cons (.bin .mul (.mem (.var 0 N.«left») N.«denominator») (.var
  0 N.«right»)) .nil)) .nil)) := rfl
@[pick] theorem fast_divides_2_score : F.fast_divides_2.score = 101 := rfl
@[exec_header] theorem fast_divides_2_isCtor : F.fast_divides_2.isCtor = false := rfl
@[pick] theorem fast_divides_3_tparams : F.fast_divides_3.tparams = [N.«Rep»] := rfl
@[pick, exec_header] theorem fast_divides_3_params : F.fast_divides_3.params = [⟨(.name N.«Rep»),
  N.«left», none⟩, ⟨(.app1 N.«raw_fraction» (.name N.«Rep»)), N.«right», none⟩] := rfl
@[pick] theorem fast_divides_3_isConst : F.fast_divides_3.isConst = false := rfl
@[exec_header] theorem fast_divides_3_ret : F.fast_divides_3.ret = (.app1 N.«raw_fraction» (.name
  N.«Rep»)) := rfl
@[exec_header] theorem fast_divides_3_body : F.fast_divides_3.body = (some (.retBrace (.cons (.bin
  .mul (.var 0 N.«left») (.mem (.var 0 N.«right») N.«denominator»)) (.cons (.mem (.var 0 N.«right»)
  N.«numerator») .nil)) .nil)) := rfl
@[pick] theorem fast_divides_3_score : F.fast_divides_3.score = 101 := rfl
@[exec_header] theorem fast_divides_3_isCtor : F.fast_divides_3.isCtor = false := rfl
@[pick] theorem fast_modulus_1_tparams : F.fast_modulus_1.tparams = [N.«Rep»] := rfl
@[pick, exec_header] theorem fast_modulus_1_params : F.fast_modulus_1.params = [⟨(.app1
  N.«raw_fraction» (.name N.«Rep»)), N.«left», none⟩, ⟨(.app1 N.«raw_fraction» (.name N.«Rep»)),
  N.«right», none⟩] := rfl
@[pick] theorem fast_modulus_1_isConst : F.fast_modulus_1.isConst = false := rfl
@[exec_header] theorem fast_modulus_1_ret : F.fast_modulus_1.ret = (.app1 N.«raw_fraction» (.name
  N.«Rep»)) := rfl
@[exec_header] theorem fast_modulus_1_body : F.fast_modulus_1.body = (some (.retBrace (.cons (.bin
  .mod (.bin .mul (.mem (.var 0 N.«left») N.«numerator») (.mem (.var 0 N.«right») N.«denominator»))
  (.bin .mul (.mem (.var 0 N.«right») N.«numerator») (.mem (.var 0 N.«left») N.«denominator»)))
  (.cons (.bin .mul (.mem (.var 0 N.«left») N.«denominator») (.mem (.var 0 N.«right»)
  N.«denominator»)) .nil)) .nil)) := rfl
@[pick] theorem fast_modulus_1_score : F.fast_modulus_1.score = 1 := rfl
@[exec_header] theorem fast_modulus_1_isCtor : F.fast_modulus_1.isCtor = false := rfl
@[pick] theorem fast_modulus_2_tparams : F.fast_modulus_2.tparams = [N.«Rep»] := rfl
@[pick, exec_header] theorem fast_modulus_2_params : F.fast_modulus_2.params = [⟨(.app1
  N.«raw_fraction» (.name N.«Rep»)), N.«left», none⟩, ⟨(.name N.«Rep»), N.«right», none⟩] := rfl
@[pick] theorem fast_modulus_2_isConst : F.fast_modulus_2.isConst = false := rfl
@[exec_header] theorem fast_modulus_2_ret : F.fast_modulus_2.ret = (.app1 N.«raw_fraction» (.name
  N.«Rep»)) := rfl
@[exec_header] theorem fast_modulus_2_body : F.fast_modulus_2.body = (some (.retBrace (.cons (.bin
  .mod (.mem (.var 0 N.«left») N.«numerator») (.bin .mul (.var 0 N.«right») (.mem (.var 0 N.«left»)
  N.«denominator»))) (.cons (.mem (.var 0 N.«left») N.«denominator») .nil)) .nil)) := rfl
@[pick] theorem fast_modulus_2_score : F.fast_modulus_2.score = 101 := rfl
@[exec_header] theorem fast_modulus_2_isCtor : F.fast_modulus_2.isCtor = false := rfl
@[pick] theorem fast_modulus_3_tparams : F.fast_modulus_3.tparams = [N.«Rep»] := rfl
@[pick, exec_header] theorem fast_modulus_3_params : F.fast_modulus_3.params = [⟨(.name N.«Rep»),
  N.«left», none⟩, ⟨(.app1 N.«raw_fraction» (.name N.«Rep»)), N.«right», none⟩] := rfl
@[pick] theorem fast_modulus_3_isConst : F.fast_modulus_3.isConst = false := rfl
@[exec_header] theorem fast_modulus_3_ret : F.fast_modulus_3.ret = (.app1 N.«raw_fraction» (.name
  N.«Rep»)) := rfl
@[exec_header] theorem fast_modulus_3_body : F.fast_modulus_3.body = (some (.retBrace (.cons (.bin
  .mod (.bin .mul (.var 0 N.«left») (.mem (.var 0 N.«right») N.«denominator»)) (.mem (.var 0
  N.«right») N.«numerator»)) (.cons (.mem (.var 0 N.«right») N.«denominator») .nil)) .nil)) := rfl
@[pick] theorem fast_modulus_3_score : F.fast_modulus_3.score = 101 := rfl
@[exec_header] theorem fast_modulus_3_isCtor : F.fast_modulus_3.isCtor = false := rfl
@[pick] theorem fast_equal_to_1_tparams : F.fast_equal_to_1.tparams = [N.«Rep»] := rfl
@[pick, exec_header] theorem fast_equal_to_1_params : F.fast_equal_to_1.params = [⟨(.app1
  N.«raw_fraction» (.name N.«Rep»)), N.«left», none⟩, ⟨(.app1 N.«raw_fraction» (.name N.«Rep»)),
  N.«right», none⟩] := rfl
@[pick] theorem fast_equal_to_1_isConst : F.fast_equal_to_1.isConst = false := rfl
@[exec_header] theorem fast_equal_to_1_ret : F.fast_equal_to_1.ret = (.name N.«bool») := rfl
@[exec_header] theorem fast_equal_to_1_body : F.fast_equal_to_1.body = (some (.ret (.bin .and (.bin
  .and (.bin .eq (.bin .mul (.mem (.var 0 N.«left») N.«numerator») (.mem (.var 0 N.«right»)
  N.«denominator»)) (.bin .mul (.mem (.var 0 N.«right») N.«numerator») (.mem (.var 0 N.«left»)
  N.«denominator»))) (.call 0 N.«is_defined» [] (.cons (.var 0 N.«left») .nil))) (.call 0
  N.«is_defined» [] (.cons (.var 0 N.«right») .nil))) .nil)) := rfl
@[pick] theorem fast_equal_to_1_score : F.fast_equal_to_1.score = 1 := rfl
@[exec_header] theorem fast_equal_to_1_isCtor : F.fast_equal_to_1.isCtor = false := rfl
@[pick] theorem fast_equal_to_2_tparams : F.fast_equal_to_2.tparams = [N.«Rep»] := rfl
@[pick, exec_header] theorem fast_equal_to_2_params : F.fast_equal_to_2.params = [⟨(.app1
  N.«raw_fraction» (.name N.«Rep»)), N.«left», none⟩, ⟨(.name N.«Rep»), N.«right», none⟩] := rfl
@[pick] theorem fast_equal_to_2_isConst : F.fast_equal_to_2.isConst = false := rfl
@[exec_header] theorem fast_equal_to_2_ret : F.fast_equal_to_2.ret = (.name N.«bool») := rfl
@[exec_header] theorem fast_equal_to_2_body : F.fast_equal_to_2.body = (some (.ret (.bin .and (.bin
  .eq (.mem (.var 0 N.«left») N.«numerator») (.bin .mul (.var 0 N.«right») (.mem (.var 0 N.«left»)
  N.«denominator»))) (.call 0 N.«is_defined» [] (.cons (.var 0 N.«left») .nil))) .nil)) := rfl
@[pick] theorem fast_equal_to_2_score : F.fast_equal_to_2.score = 101 := rfl
@[exec_header] theorem fast_equal_to_2_isCtor : F.fast_equal_to_2.isCtor = false := rfl
@[pick] theorem fast_equal_to_3_tparams : F.fast_equal_to_3.tparams = [N.«Rep»] := rfl
@[pick, exec_header] theorem fast_equal_to_3_params : F.fast_equal_to_3.params = [⟨(.name N.«Rep»),
  N.«left», none⟩, ⟨(.app1 N.«raw_fraction» (.name N.«Rep»)), N.«right», none⟩] := rfl
@[pick] theorem fast_equal_to_3_isConst : F.fast_equal_to_3.isConst = false := rfl
@[exec_header] theorem fast_equal_to_3_ret : F.fast_equal_to_3.ret = (.name N.«bool») := rfl
@[exec_header] theorem fast_equal_to_3_body : F.fast_equal_to_3.body = (some (.ret (.call 0
  N.«equal_to» [] (.cons (.var 0 N.«right») (.cons (.var 0 N.«left») .nil))) .nil)) := rfl
@[pick] theorem fast_equal_to_3_score : F.fast_equal_to_3.score = 101 := rfl
@[exec_header] theorem fast_equal_to_3_isCtor : F.fast_equal_to_3.isCtor = false := rfl
@[pick] theorem fast_not_equal_to_1_tparams : F.fast_not_equal_to_1.tparams = [N.«Rep»] := rfl
@[pick, exec_header] theorem fast_not_equal_to_1_params : F.fast_not_equal_to_1.params = [⟨(.app1
  N.«raw_fraction» (.name N.«Rep»)), N.«left», none⟩, ⟨(.app1 N.«raw_fraction» (.name N.«Rep»)),
  N.«right», none⟩] := rfl
@[pick] theorem fast_not_equal_to_1_isConst : F.fast_not_equal_to_1.isConst = false := rfl
@[exec_header] theorem fast_not_equal_to_1_ret : F.fast_not_equal_to_1.ret = (.name N.«bool») :=
  rfl
@[exec_header] theorem fast_not_equal_to_1_body : F.fast_not_equal_to_1.body = (some (.ret (.un
  .not (.call 0 N.«equal_to» [] (.cons (.var 0 N.«left») (.cons (.var 0 N.«right») .nil)))) .nil))
  := rfl
@[pick] theorem fast_not_equal_to_1_score : F.fast_not_equal_to_1.score = 1 := rfl
@[exec_header] theorem fast_not_equal_to_1_isCtor : F.fast_not_equal_to_1.isCtor = false := rfl
@[pick] theorem fast_not_equal_to_2_tparams : F.fast_not_equal_to_2.tparams = [N.«Rep»] := rfl
@[pick, exec_header] theorem fast_not_equal_to_2_params : F.fast_not_equal_to_2.params = [⟨(.app1
  N.«raw_fraction» (.name N.«Rep»)), N.«left», none⟩, ⟨(.name N.«Rep»), N.«right», none⟩] := rfl
@[pick] theorem fast_not_equal_to_2_isConst : F.fast_not_equal_to_2.isConst = false := rfl
@[exec_header] theorem fast_not_equal_to_2_ret : F.fast_not_equal_to_2.ret = (.name N.«bool») :=
  rfl
@[exec_header] theorem fast_not_equal_to_2_body : F.fast_not_equal_to_2.body = (some (.ret (.un
  .not (.call 0 N.«equal_to» [] (.cons (.var 0 N.«left») (.cons (.var 0 N.«right») .nil)))) .nil))
  := rfl
@[pick] theorem fast_not_equal_to_2_score : F.fast_not_equal_to_2.score = 101 := rfl
@[exec_header] theorem fast_not_equal_to_2_isCtor : F.fast_not_equal_to_2.isCtor = false := rfl
@[pick] theorem fast_not_equal_to_3_tparams : F.fast_not_equal_to_3.tparams = [N.«Rep»] := rfl
@[pick, exec_header] theorem fast_not_equal_to_3_params : F.fast_not_equal_to_3.params = [⟨(.name
  N.«Rep»), N.«left», none⟩, ⟨(.app1 N.«raw_fraction» (.name N.«Rep»)), N.«right», none⟩] := rfl
@[pick] theorem fast_not_equal_to_3_isConst : F.fast_not_equal_to_3.isConst = false := rfl
@[exec_header] theorem fast_not_equal_to_3_ret : F.fast_not_equal_to_3.ret = (.name N.«bool») :=
  rfl
@[exec_header] theorem fast_not_equal_to_3_body : F.fast_not_equal_to_3.body = (some (.ret (.un
  .not (.call 0 N.«equal_to» [] (.cons (.var 0 N.«left») (.cons (.var 0 N.«right») .nil)))) .nil))
  := rfl
@[pick] theorem fast_not_equal_to_3_score : F.fast_not_equal_to_3.score = 101 := rfl
@[exec_header] theorem fast_not_equal_to_3_isCtor : F.fast_not_equal_to_3.isCtor = false := rfl
@[pick] theorem fast_less_1_tparams : F.fast_less_1.tparams = [N.«Rep»] := rfl
@[pick, exec_header] theorem fast_less_1_params : F.fast_less_1.params = [⟨(.app1 N.«raw_fraction»
  (.name N.«Rep»)), N.«left», none⟩, ⟨(.app1 N.«raw_fraction» (.name N.«Rep»)), N.«right», none⟩]
  := rfl
@[pick] theorem fast_less_1_isConst : F.fast_less_1.isConst = false := rfl
@[exec_header] theorem fast_less_1_ret : F.fast_less_1.ret = (.name N.«bool») := rfl
@[exec_header] theorem fast_less_1_body : F.fast_less_1.body = (some (.ret (.bin .and (.bin .and
  (.bin .lt (.bin .mul (.mem (.var 0 N.«left») N.«numerator») (.mem (.var 0 N.«right»)
  N.«denominator»)) (.bin .mul (.mem (.var 0 N.«right») N.«numerator») (.mem (.var 0 N.«left»)
  N.«denominator»))) (.call 0 N.«is_defined» [] (.cons (.var 0 N.«left») .nil))) (.call 0
  N.«is_defined» [] (.cons (.var 0 N.«right») .nil))) .nil)) := rfl
@[pick] theorem fast_less_1_score : F.fast_less_1.score = 1 := rfl
@[exec_header] theorem fast_less_1_isCtor : F.fast_less_1.isCtor = false := rfl
@[pick] theorem fast_less_2_tparams : F.fast_less_2.tparams = [N.«Rep»] := rfl
@[pick, exec_header] theorem fast_less_2_params : F.fast_less_2.params = [⟨(.app1 N.«raw_fraction»
  (.name N.«Rep»)), N.«left», none⟩, ⟨(.name N.«Rep»), N.«right», none⟩] := rfl
@[pick] theorem fast_less_2_isConst : F.fast_less_2.isConst = false := rfl
@[exec_header] theorem fast_less_2_ret : F.fast_less_2.ret = (.name N.«bool») := rfl
@[exec_header] theorem fast_less_2_body : F.fast_less_2.body = (some (.ret (.bin .and (.bin .lt
  (.mem (.var 0 N.«left») N.«numerator») (.bin .mul (.var 0 N.«right») (.mem (.var 0 N.«left»)
  N.«denominator»))) (.call 0 N.«is_defined» [] (.cons (.var 0 N.«left») .nil))) .nil)) := rfl
@[pick] theorem fast_less_2_score : F.fast_less_2.score = 101 := rfl
@[exec_header] theorem fast_less_2_isCtor : F.fast_less_2.isCtor = false := rfl
@[pick] theorem fast_less_3_tparams : F.fast_less_3.tparams = [N.«Rep»] := rfl
@[pick, exec_header] theorem fast_less_3_params : F.fast_less_3.params = [⟨(.name N.«Rep»),
  N.«left», none⟩, ⟨(.app1 N.«raw_fraction» (.name N.«Rep»)), N.«right», none⟩] := rfl
@[pick] theorem fast_less_3_isConst : F.fast_less_3.isConst = false := rfl
@[exec_header] theorem fast_less_3_ret : F.fast_less_3.ret = (.name N.«bool») := rfl
@[exec_header] theorem fast_less_3_body : F.fast_less_3.body = (some (.ret (.bin .and (.bin .lt
  (.bin .mul (.var 0 N.«left») (.mem (.var 0 N.«right») N.«denominator»)) (.mem (.var 0 N.«right»)
  N.«numerator»)) (.call 0 N.«is_defined» [] (.cons (.var 0 N.«right») .nil))) .nil)) := rfl
@[pick] theorem fast_less_3_score : F.fast_less_3.score = 101 := rfl
@[exec_header] theorem fast_less_3_isCtor : F.fast_less_3.isCtor = false := rfl
@[pick] theorem fast_less_equal_1_tparams : F.fast_less_equal_1.tparams = [N.«Rep»] := rfl
@[pick, exec_header] theorem fast_less_equal_1_params : F.fast_less_equal_1.params = [⟨(.app1
  N.«raw_fraction» (.name N.«Rep»)), N.«left», none⟩, ⟨(.app1 N.«raw_fraction» (.name N.«Rep»)),
  N.«right», none⟩] := rfl
@[pick] theorem fast_less_equal_1_isConst : F.fast_less_equal_1.isConst = false := rfl
@[exec_header] theorem fast_less_equal_1_ret : F.fast_less_equal_1.ret = (.name N.«bool») := rfl
@[exec_header] theorem fast_less_equal_1_body : F.fast_less_equal_1.body = (some (.ret (.bin .and
  (.bin .and (.bin .le (.bin .mul (.mem (.var 0 N.«left») N.«numerator») (.mem (.var 0 N.«right»)
  N.«denominator»)) (.bin .mul (.mem (.var 0 N.«right») N.«numerator») (.mem (.var 0 N.«left»)
  N.«denominator»))) (.call 0 N.«is_defined» [] (.cons (.var 0 N.«left») .nil))) (.call 0
  N.«is_defined» [] (.cons (.var 0 N.«right») .nil))) .nil)) := rfl
@[pick] theorem fast_less_equal_1_score : F.fast_less_equal_1.score = 1 := rfl
@[exec_header] theorem fast_less_equal_1_isCtor : F.fast_less_equal_1.isCtor = false := rfl
@[pick] theorem fast_less_equal_2_tparams : F.fast_less_equal_2.tparams = [N.«Rep»] := rfl
@[pick, exec_header] theorem fast_less_equal_2_params : F.fast_less_equal_2.params = [⟨(.app1
  N.«raw_fraction» (.name N.«Rep»)), N.«left», none⟩, ⟨(.name N.«Rep»), N.«right», none⟩] := rfl
@[pick] theorem fast_less_equal_2_isConst : F.fast_less_equal_2.isConst = false := rfl
@[exec_header] theorem fast_less_equal_2_ret : F.fast_less_equal_2.ret = (.name N.«bool») := rfl
@[exec_header] theorem fast_less_equal_2_body : F.fast_less_equal_2.body = (some (.ret (.bin .and
  (.bin .le (.mem (.var 0 N.«left») N.«numerator») (.bin .mul (.var 0 N.«right») (.mem (.var 0
  N.«left») N.«denominator»))) (.call 0 N.«is_defined» [] (.cons (.var 0 N.«left») .nil))) .nil))
  := rfl
@[pick] theorem fast_less_equal_2_score : F.fast_less_equal_2.score = 101 := rfl
@[exec_header] theorem fast_less_equal_2_isCtor : F.fast_less_equal_2.isCtor = false := rfl
@[pick] theorem fast_less_equal_3_tparams : F.fast_less_equal_3.tparams = [N.«Rep»] := rfl
@[pick, exec_header] theorem fast_less_equal_3_params : F.fast_less_equal_3.params = [⟨(.name
  N.«Rep»), N.«left», none⟩, ⟨(.app1 N.«raw_fraction» (.name N.«Rep»)), N.«right», none⟩] := rfl
@[pick] theorem fast_less_equal_3_isConst : F.fast_less_equal_3.isConst = false := rfl
@[exec_header] theorem fast_less_equal_3_ret : F.fast_less_equal_3.ret = (.name N.«bool») := rfl
@[exec_header] theorem fast_less_equal_3_body : F.fast_less_equal_3.body = (some (.ret (.bin .and
  (.bin .le (.bin .mul (.var 0 N.«left») (.mem (.var 0 N.«right») N.«denominator»)) (.mem (.var 0
  N.«right») N.«numerator»)) (.call 0 N.«is_defined» [] (.cons (.var 0 N.«right») .nil))) .nil)) :=
  rfl
@[pick] theorem fast_less_equal_3_score : F.fast_less_equal_3.score = 101 := rfl
@[exec_header] theorem fast_less_equal_3_isCtor : F.fast_less_equal_3.isCtor = false := rfl
@[pick] theorem fast_greater_1_tparams : F.fast_greater_1.tparams = [N.«Rep»] := rfl
@[pick, exec_header] theorem fast_greater_1_params : F.fast_greater_1.params = [⟨(.app1
  N.«raw_fraction» (.name N.«Rep»)), N.«left», none⟩, ⟨(.app1 N.«raw_fraction» (.name N.«Rep»)),
  N.«right», none⟩] := rfl
@[pick] theorem fast_greater_1_isConst : F.fast_greater_1.isConst = false := rfl
@[exec_header] theorem fast_greater_1_ret : F.fast_greater_1.ret = (.name N.«bool») := rfl
@[exec_header] theorem fast_greater_1_body : F.fast_greater_1.body = (some (.ret (.call 0 N.«less»
  [] (.cons (.var 0 N.«right») (.cons (.var 0 N.«left») .nil))) .nil)) := rfl
@[pick] theorem fast_greater_1_score : F.fast_greater_1.score = 1 := rfl
@[exec_header] theorem fast_greater_1_isCtor : F.fast_greater_1.isCtor = false := rfl
@[pick] theorem fast_greater_2_tparams : F.fast_greater_2.tparams = [N.«Rep»] := rfl
@[pick, exec_header] theorem fast_greater_2_params : F.fast_greater_2.params = [⟨(.app1
  N.«raw_fraction» (.name N.«Rep»)), N.«left», none⟩, ⟨(.name N.«Rep»), N.«right», none⟩] := rfl
@[pick] theorem fast_greater_2_isConst : F.fast_greater_2.isConst = false := rfl
@[exec_header] theorem fast_greater_2_ret : F.fast_greater_2.ret = (.name N.«bool») := rfl
@[exec_header] theorem fast_greater_2_body : F.fast_greater_2.body = (some (.ret (.call 0 N.«less»
  [] (.cons (.var 0 N.«right») (.cons (.var 0 N.«left») .nil))) .nil)) := rfl
@[pick] theorem fast_greater_2_score : F.fast_greater_2.score = 101 := rfl
@[exec_header] theorem fast_greater_2_isCtor : F.fast_greater_2.isCtor = false := rfl
@[pick] theorem fast_greater_3_tparams : F.fast_greater_3.tparams = [N.«Rep»] := rfl
@[pick, exec_header] theorem fast_greater_3_params : F.fast_greater_3.params = [⟨(.name N.«Rep»),
  N.«left», none⟩, ⟨(.app1 N.«raw_fraction» (.name N.«Rep»)), N.«right», none⟩] := rfl
@[pick] theorem fast_greater_3_isConst : F.fast_greater_3.isConst = false := rfl
@[exec_header] theorem fast_greater_3_ret : F.fast_greater_3.ret = (.name N.«bool») := rfl
@[exec_header] theorem fast_greater_3_body : F.fast_greater_3.body = (some (.ret (.call 0 N.«less»
  [] (.cons (.var 0 N.«right») (.cons (.var 0 N.«left») .nil))) .nil)) := rfl
@[pick] theorem fast_greater_3_score : F.fast_greater_3.score = 101 := rfl
@[exec_header] theorem fast_greater_3_isCtor : F.fast_greater_3.isCtor = false := rfl
@[pick] theorem fast_greater_equal_1_tparams : F.fast_greater_equal_1.tparams = [N.«Rep»] := rfl
@[pick, exec_header] theorem fast_greater_equal_1_params : F.fast_greater_equal_1.params = [⟨(.app1
  N.«raw_fraction» (.name N.«Rep»)), N.«left», none⟩, ⟨(.app1 N.«raw_fraction» (.name N.«Rep»)),
  N.«right», none⟩] := rfl
@[pick] theorem fast_greater_equal_1_isConst : F.fast_greater_equal_1.isConst = false := rfl
@[exec_header] theorem fast_greater_equal_1_ret : F.fast_greater_equal_1.ret = (.name N.«bool») :=
  rfl
@[exec_header] theorem fast_greater_equal_1_body : F.fast_greater_equal_1.body = (some (.ret (.call
  0 N.«less_equal» [] (.cons (.var 0 N.«right») (.cons (.var 0 N.«left») .nil))) .nil)) := rfl
@[pick] theorem fast_greater_equal_1_score : F.fast_greater_equal_1.score = 1 := rfl
@[exec_header] theorem fast_greater_equal_1_isCtor : F.fast_greater_equal_1.isCtor = false := rfl
@[pick] theorem fast_greater_equal_2_tparams : F.fast_greater_equal_2.tparams = [N.«Rep»] := rfl
@[pick, exec_header] theorem fast_greater_equal_2_params : F.fast_greater_equal_2.params = [⟨(.app1
  N.«raw_fraction» (.name N.«Rep»)), N.«left», none⟩, ⟨(.name N.«Rep»), N.«right», none⟩] := rfl
@[pick] theorem fast_greater_equal_2_isConst : F.fast_greater_equal_2.isConst = false := rfl
@[exec_header] theorem fast_greater_equal_2_ret : F.fast_greater_equal_2.ret = (.name N.«bool») :=
  rfl
@[exec_header] theorem fast_greater_equal_2_body : F.fast_greater_equal_2.body = (some (.ret (.call
  0 N.«less_equal» [] (.cons (.var 0 N.«right») (.cons (.var 0 N.«left») .nil))) .nil)) := rfl
@[pick] theorem fast_greater_equal_2_score : F.fast_greater_equal_2.score = 101 := rfl
@[exec_header] theorem fast_greater_equal_2_isCtor : F.fast_greater_equal_2.isCtor = false := rfl
@[pick] theorem fast_greater_equal_3_tparams : F.fast_greater_equal_3.tparams = [N.«Rep»] := rfl
@[pick, exec_header] theorem fast_greater_equal_3_params : F.fast_greater_equal_3.params = [⟨(.name
  N.«Rep»), N.«left», none⟩, ⟨(.app1 N.«raw_fraction» (.name N.«Rep»)), N.«right», none⟩] := rfl
@[pick] theorem fast_greater_equal_3_isConst : F.fast_greater_equal_3.isConst = false := rfl
@[exec_header] theorem fast_greater_equal_3_ret : F.fast_greater_equal_3.ret = (.name N.«bool») :=
  rfl
@[exec_header] theorem fast_greater_equal_3_body : F.fast_greater_equal_3.body = (some (.ret (.call
  0 N.«less_equal» [] (.cons (.var 0 N.«right») (.cons (.var 0 N.«left») .nil))) .nil)) := rfl
@[pick] theorem fast_greater_equal_3_score : F.fast_greater_equal_3.score = 101 := rfl
@[exec_header] theorem fast_greater_equal_3_isCtor : F.fast_greater_equal_3.isCtor = false := rfl
@[pick] theorem reduced_input_negate_1_tparams : F.reduced_input_negate_1.tparams = [N.«Ops»,
  N.«Mode», N.«Rep»] := rfl
@[pick, exec_header] theorem reduced_input_negate_1_params : F.reduced_input_negate_1.params =
  [⟨(.app1 N.«raw_fraction» (.name N.«Rep»)), N.«value», none⟩] := rfl
@[pick] theorem reduced_input_negate_1_isConst : F.reduced_input_negate_1.isConst = false := rfl
@[exec_header] theorem reduced_input_negate_1_ret : F.reduced_input_negate_1.ret = (.app1
  N.«raw_fraction» (.name N.«Rep»)) := rfl
@[exec_header] theorem reduced_input_negate_1_body : F.reduced_input_negate_1.body = (some (.ret
  (.call N.«ops_type» N.«negate» [] (.cons (.call 0 N.«reduce» [] (.cons (.var 0 N.«value») .nil))
  .nil)) .nil)) := rfl
@[pick] theorem reduced_input_negate_1_score : F.reduced_input_negate_1.score = 3 := rfl
@[exec_header] theorem reduced_input_negate_1_isCtor : F.reduced_input_negate_1.isCtor = false := rfl
@[pick] theorem reduced_input_plus_1_tparams : F.reduced_input_plus_1.tparams = [N.«Ops», N.«Mode»,
  N.«Rep»] := rfl
@[pick, exec_header] theorem reduced_input_plus_1_params : F.reduced_input_plus_1.params = [⟨(.app1
  N.«raw_fraction» (.name N.«Rep»)), N.«left», none⟩, ⟨(.app1 N.«raw_fraction» (.name N.«Rep»)),
  N.«right», none⟩] := rfl
@[pick] theorem reduced_input_plus_1_isConst : F.reduced_input_plus_1.isConst = false := rfl
@[exec_header] theorem reduced_input_plus_1_ret : F.reduced_input_plus_1.ret = (.app1
  N.«raw_fraction» (.name N.«Rep»)) := rfl
@[exec_header] theorem reduced_input_plus_1_body : F.reduced_input_plus_1.body = (some (.ret (.call
  N.«ops_type» N.«plus» [] (.cons (.call 0 N.«reduce» [] (.cons (.var 0 N.«left») (.cons (.var 0
  N.«mode») .nil))) (.cons (.call 0 N.«reduce» [] (.cons (.var 0 N.«right») (.cons (.var 0
  N.«mode») .nil))) .nil))) .nil)) := rfl
@[pick] theorem reduced_input_plus_1_score : F.reduced_input_plus_1.score = 3 := rfl
@[exec_header] theorem reduced_input_plus_1_isCtor : F.reduced_input_plus_1.isCtor = false := rfl
@[pick] theorem reduced_input_plus_2_tparams : F.reduced_input_plus_2.tparams = [N.«Ops», N.«Mode»,
  N.«Rep»] := rfl
@[pick, exec_header] theorem reduced_input_plus_2_params : F.reduced_input_plus_2.params = [⟨(.app1
  N.«raw_fraction» (.name N.«Rep»)), N.«left», none⟩, ⟨(.name N.«Rep»), N.«right», none⟩] := rfl
@[pick] theorem reduced_input_plus_2_isConst : F.reduced_input_plus_2.isConst = false := rfl
@[exec_header] theorem reduced_input_plus_2_ret : F.reduced_input_plus_2.ret = (.app1
  N.«raw_fraction» (.name N.«Rep»)) := rfl
@[exec_header] theorem reduced_input_plus_2_body : F.reduced_input_plus_2.body = (some (.ret (.call
  N.«ops_type» N.«plus» [] (.cons (.call 0 N.«reduce» [] (.cons (.var 0 N.«left») (.cons (.var 0
  N.«mode») .nil))) (.cons (.var 0 N.«right») .nil))) .nil)) := rfl
@[pick] theorem reduced_input_plus_2_score : F.reduced_input_plus_2.score = 103 := rfl
@[exec_header] theorem reduced_input_plus_2_isCtor : F.reduced_input_plus_2.isCtor = false := rfl
@[pick] theorem reduced_input_plus_3_tparams : F.reduced_input_plus_3.tparams = [N.«Ops», N.«Mode»,
  N.«Rep»] := rfl
@[pick, exec_header] theorem reduced_input_plus_3_params : F.reduced_input_plus_3.params = [⟨(.name
  N.«Rep»), N.«left», none⟩, ⟨(.app1 N.«raw_fraction» (.name N.«Rep»)), N.«right», none⟩] := rfl
@[pick] theorem reduced_input_plus_3_isConst : F.reduced_input_plus_3.isConst = false := rfl
@[exec_header] theorem reduced_input_plus_3_ret : F.reduced_input_plus_3.ret = (.app1
  N.«raw_fraction» (.name N.«Rep»)) := rfl
@[exec_header] theorem reduced_input_plus_3_body : F.reduced_input_plus_3.body = (some (.ret (.call
  N.«ops_type» N.«plus» [] (.cons (.var 0 N.«left») (.cons (.call 0 N.«reduce» [] (.cons (.var 0
  N.«right») (.cons (.var 0 N.«mode») .nil))) .nil))) .nil)) := rfl
@[pick] theorem reduced_input_plus_3_score : F.reduced_input_plus_3.score = 103 := rfl
@[exec_header] theorem reduced_input_plus_3_isCtor : F.reduced_input_plus_3.isCtor = false := rfl
@[pick] theorem reduced_input_minus_1_tparams : F.reduced_input_minus_1.tparams = [N.«Ops»,
  N.«Mode», N.«Rep»] := rfl
@[pick, exec_header] theorem reduced_input_minus_1_params : F.reduced_input_minus_1.params =
  [⟨(.app1 N.«raw_fraction» (.name N.«Rep»)), N.«left», none⟩, ⟨(.app1 N.«raw_fraction» (.name
  N.«Rep»)), N.«right», none⟩] := rfl
@[pick] theorem reduced_input_minus_1_isConst : F.reduced_input_minus_1.isConst = false := rfl
@[exec_header] theorem reduced_input_minus_1_ret : F.reduced_input_minus_1.ret = (.app1
  N.«raw_fraction» (.name N.«Rep»)) := rfl
@[exec_header] theorem reduced_input_minus_1_body : F.reduced_input_minus_1.body = (some (.ret
  (.call N.«ops_type» N.«minus» [] (.cons (.call 0 N.«reduce» [] (.cons (.var 0 N.«left») (.cons
  (.var 0 N.«mode») .nil))) (.cons (.call 0 N.«reduce» [] (.cons (.var 0 N.«right») (.cons (.var 0
  N.«mode») .nil))) .nil))) .nil)) := rfl
@[pick] theorem reduced_input_minus_1_score : F.reduced_input_minus_1.score = 3 := rfl
@[exec_header] theorem reduced_input_minus_1_isCtor : F.reduced_input_minus_1.isCtor = false := rfl
@[pick] theorem reduced_input_minus_2_tparams : F.reduced_input_minus_2.tparams = [N.«Ops»,
  N.«Mode», N.«Rep»] := rfl
@[pick, exec_header] theorem reduced_input_minus_2_params : F.reduced_input_minus_2.params =
  [⟨(.app1 N.«raw_fraction» (.name N.«Rep»)), N.«left», none⟩, ⟨(.name N.«Rep»), N.«right», none⟩]
  := rfl
@[pick] theorem reduced_input_minus_2_isConst : F.reduced_input_minus_2.isConst = false := rfl
@[exec_header] theorem reduced_input_minus_2_ret : F.reduced_input_minus_2.ret = (.app1
  N.«raw_fraction» (.name N.«Rep»)) := rfl
@[exec_header] theorem reduced_input_minus_2_body : F.reduced_input_minus_2.body = (some (.ret
  (.call N.«ops_type» N.«minus» [] (.cons (.call 0 N.«reduce» [] (.cons (.var 0 N.«left») (.cons
  (.var 0 N.«mode») .nil))) (.cons (.var 0 N.«right») .nil))) .nil)) := rfl
@[pick] theorem reduced_input_minus_2_score : F.reduced_input_minus_2.score = 103 := rfl
@[exec_header] theorem reduced_input_minus_2_isCtor : F.reduced_input_minus_2.isCtor = false := rfl
@[pick] theorem reduced_input_minus_3_tparams : F.reduced_input_minus_3.tparams = [N.«Ops»,
  N.«Mode», N.«Rep»] := rfl
@[pick, exec_header] theorem reduced_input_minus_3_params : F.reduced_input_minus_3.params =
  [⟨(.name N.«Rep»), N.«left», none⟩, ⟨(.app1 N.«raw_fraction» (.name N.«Rep»)), N.«right», none⟩]
  := rfl
@[pick] theorem reduced_input_minus_3_isConst : F.reduced_input_minus_3.isConst = false := rfl
@[exec_header] theorem reduced_input_minus_3_ret : F.reduced_input_minus_3.ret = (.app1
  N.«raw_fraction» (.name N.«Rep»)) := rfl
@[exec_header] theorem reduced_input_minus_3_body : F.reduced_input_minus_3.body = (some (.ret
  (.call N.«ops_type» N.«minus» [] (.cons (.var 0 N.«left») (.cons (.call 0 N.«reduce» [] (.cons
  (.var 0 N.«right») (.cons (.var 0 N.«mode») .nil))) .nil))) .nil)) := rfl
@[pick] theorem reduced_input_minus_3_score : F.reduced_input_minus_3.score = 103 := rfl
@[exec_header] theorem reduced_input_minus_3_isCtor : F.reduced_input_minus_3.isCtor = false := rfl
@[pick] theorem reduced_input_multiplies_1_tparams : F.reduced_input_multiplies_1.tparams =
  [N.«Ops», N.«Mode», N.«Rep»] := rfl
@[pick, exec_header] theorem reduced_input_multiplies_1_params :
  F.reduced_input_multiplies_1.params = [⟨(.app1 N.«raw_fraction» (.name N.«Rep»)), N.«left»,
  none⟩, ⟨(.app1 N.«raw_fraction» (.name N.«Rep»)), N.«right», none⟩] := rfl
@[pick] theorem reduced_input_multiplies_1_isConst : F.reduced_input_multiplies_1.isConst = false := rfl
@[exec_header] theorem reduced_input_multiplies_1_ret : F.reduced_input_multiplies_1.ret = (.app1
  N.«raw_fraction» (.name N.«Rep»)) := rfl
@[exec_header] theorem reduced_input_multiplies_1_body : F.reduced_input_multiplies_1.body = (some
  (.ret (.call N.«ops_type» N.«multiplies» [] (.cons (.call 0 N.«reduce» [] (.cons (.var 0
  N.«left») (.cons (.var 0 N.«mode») .nil))) (.cons (.call 0 N.«reduce» [] (.cons (.var 0
  N.«right») (.cons (.var 0 N.«mode») .nil))) .nil))) .nil)) := rfl
@[pick] theorem reduced_input_multiplies_1_score : F.reduced_input_multiplies_1.score = 3 := rfl
@[exec_header] theorem reduced_input_multiplies_1_isCtor : F.reduced_input_multiplies_1.isCtor = false := rfl
@[pick] theorem reduced_input_multiplies_2_tparams : F.reduced_input_multiplies_2.tparams =
  [N.«Ops», N.«Mode», N.«Rep»] := rfl
@[pick, exec_header] theorem reduced_input_multiplies_2_params :
  F.reduced_input_multiplies_2.params = [⟨(.app1 N.«raw_fraction» (.name N.«Rep»)), N.«left»,
  none⟩, ⟨(.name N.«Rep»), N.«right», none⟩] := rfl
@[pick] theorem reduced_input_multiplies_2_isConst : F.reduced_input_multiplies_2.isConst = false := rfl
@[exec_header] theorem reduced_input_multiplies_2_ret : F.reduced_input_multiplies_2.ret = (.app1
  N.«raw_fraction» (.name N.«Rep»)) := rfl
@[exec_header] theorem reduced_input_multiplies_2_body : F.reduced_input_multiplies_2.body = (some
  (.ret (.call N.«ops_type» N.«multiplies» [] (.cons (.call 0 N.«reduce» [] (.cons (.var 0
  N.«left») (.cons (.var 0 N.«mode») .nil))) (.cons (.var 0 N.«right») .nil))) .nil)) := rfl
@[pick] theorem reduced_input_multiplies_2_score : F.reduced_input_multiplies_2.score = 103 := rfl
@[exec_header] theorem reduced_input_multiplies_2_isCtor : F.reduced_input_multiplies_2.isCtor = false := rfl
@[pick] theorem reduced_input_multiplies_3_tparams : F.reduced_input_multiplies_3.tparams =
  [N.«Ops», N.«Mode», N.«Rep»] := rfl
@[pick, exec_header] theorem reduced_input_multiplies_3_params :
  F.reduced_input_multiplies_3.params = [⟨(.name N.«Rep»), N.«left», none⟩, ⟨(.app1
  N.«raw_fraction» (.name N.«Rep»)), N.«right», none⟩] := rfl
@[pick] theorem reduced_input_multiplies_3_isConst : F.reduced_input_multiplies_3.isConst = false := rfl
@[exec_header] theorem reduced_input_multiplies_3_ret : F.reduced_input_multiplies_3.ret = (.app1
  N.«raw_fraction» (.name N.«Rep»)) := rfl
@[exec_header] theorem reduced_input_multiplies_3_body : F.reduced_input_multiplies_3.body = (some
  (.ret (.call N.«ops_type» N.«multiplies» [] (.cons (.var 0 N.«left») (.cons (.call 0 N.«reduce»
  [] (.cons (.var 0 N.«right») (.cons (.var 0 N.«mode») .nil))) .nil))) .nil)) := rfl
@[pick] theorem reduced_input_multiplies_3_score : F.reduced_input_multiplies_3.score = 103 := rfl
@[exec_header] theorem reduced_input_multiplies_3_isCtor : F.reduced_input_multiplies_3.isCtor = false := rfl
@[pick] theorem reduced_input_divides_1_tparams : F.reduced_input_divides_1.tparams = [N.«Ops»,
  N.«Mode», N.«Rep»] := rfl
@[pick, exec_header] theorem reduced_input_divides_1_params : F.reduced_input_divides_1.params =
  [⟨(.app1 N.«raw_fraction» (.name N.«Rep»)), N.«left», none⟩, ⟨(.app1 N.«raw_fraction» (.name
  N.«Rep»)), N.«right», none⟩] := rfl
@[pick] theorem reduced_input_divides_1_isConst : F.reduced_input_divides_1.isConst = false := rfl
@[exec_header] theorem reduced_input_divides_1_ret : F.reduced_input_divides_1.ret = (.app1
  N.«raw_fraction» (.name N.«Rep»)) := rfl
@[exec_header] theorem reduced_input_divides_1_body : F.reduced_input_divides_1.body = (some (.ret
  (.call N.«ops_type» N.«divides» [] (.cons (.call 0 N.«reduce» [] (.cons (.var 0 N.«left») (.cons
  (.var 0 N.«mode») .nil))) (.cons (.call 0 N.«reduce» [] (.cons (.var 0 N.«right») (.cons (.var 0
  N.«mode») .nil))) .nil))) .nil)) := rfl
@[pick] theorem reduced_input_divides_1_score : F.reduced_input_divides_1.score = 3 := rfl
@[exec_header] theorem reduced_input_divides_1_isCtor : F.reduced_input_divides_1.isCtor = false := rfl
@[pick] theorem reduced_input_divides_2_tparams : F.reduced_input_divides_2.tparams = [N.«Ops»,
  N.«Mode», N.«Rep»] := rfl
@[pick, exec_header] theorem reduced_input_divides_2_params : F.reduced_input_divides_2.params =
  [⟨(.app1 N.«raw_fraction» (.name N.«Rep»)), N.«left», none⟩, ⟨(.name N.«Rep»), N.«right», none⟩]
  := rfl
@[pick] theorem reduced_input_divides_2_isConst : F.reduced_input_divides_2.isConst = false := rfl
@[exec_header] theorem reduced_input_divides_2_ret : F.reduced_input_divides_2.ret = (.app1
  N.«raw_fraction» (.name N.«Rep»)) := rfl
@[exec_header] theorem reduced_input_divides_2_body : F.reduced_input_divides_2.body = (some (.ret
  (.call N.«ops_type» N.«divides» [] (.cons (.call 0 N.«reduce» [] (.cons (.var 0 N.«left») (.cons
  (.var 0 N.«mode») .nil))) (.cons (.var 0 N.«right») .nil))) .nil)) := rfl
@[pick] theorem reduced_input_divides_2_score : F.reduced_input_divides_2.score = 103 := rfl
@[exec_header] theorem reduced_input_divides_2_isCtor : F.reduced_input_divides_2.isCtor = false := rfl
@[pick] theorem reduced_input_divides_3_tparams : F.reduced_input_divides_3.tparams = [N.«Ops»,
  N.«Mode», N.«Rep»] := rfl
@[pick, exec_header] theorem reduced_input_divides_3_params : F.reduced_input_divides_3.params =
  [⟨(.name N.«Rep»), N.«left», none⟩, ⟨(.app1 N.«raw_fraction» (.name N.«Rep»)), N.«right», none⟩]
  := rfl
@[pick] theorem reduced_input_divides_3_isConst : F.reduced_input_divides_3.isConst = false := rfl
@[exec_header] theorem reduced_input_divides_3_ret : F.reduced_input_divides_3.ret = (.app1
  N.«raw_fraction» (.name N.«Rep»)) := rfl
@[exec_header] theorem reduced_input_divides_3_body : F.reduced_input_divides_3.body = (some (.ret
  (.call N.«ops_type» N.«divides» [] (.cons (.var 0 N.«left») (.cons (.call 0 N.«reduce» [] (.cons
  (.var 0 N.«right») (.cons (.var 0 N.«mode») .nil))) .nil))) .nil)) := rfl
@[pick] theorem reduced_input_divides_3_score : F.reduced_input_divides_3.score = 103 := rfl
@[exec_header] theorem reduced_input_divides_3_isCtor : F.reduced_input_divides_3.isCtor = false := rfl
@[pick] theorem reduced_input_modulus_1_tparams : F.reduced_input_modulus_1.tparams = [N.«Ops»,
  N.«Mode», N.«Rep»] := rfl
@[pick, exec_header] theorem reduced_input_modulus_1_params : F.reduced_input_modulus_1.params =
  [⟨(.app1 N.«raw_fraction» (.name N.«Rep»)), N.«left», none⟩, ⟨(.app1 N.«raw_fraction» (.name
  N.«Rep»)), N.«right», none⟩] := rfl
@[pick] theorem reduced_input_modulus_1_isConst : F.reduced_input_modulus_1.isConst = false := rfl
@[exec_header] theorem reduced_input_modulus_1_ret : F.reduced_input_modulus_1.ret = (.app1
  N.«raw_fraction» (.name N.«Rep»)) := rfl
@[exec_header] theorem reduced_input_modulus_1_body : F.reduced_input_modulus_1.body = (some (.ret
  (.call N.«ops_type» N.«modulus» [] (.cons (.call 0 N.«reduce» [] (.cons (.var 0 N.«left») (.cons
  (.var 0 N.«mode») .nil))) (.cons (.call 0 N.«reduce» [] (.cons (.var 0 N.«right») (.cons (.var 0
  N.«mode») .nil))) .nil))) .nil)) := rfl
@[pick] theorem reduced_input_modulus_1_score : F.reduced_input_modulus_1.score = 3 := rfl
@[exec_header] theorem reduced_input_modulus_1_isCtor : F.reduced_input_modulus_1.isCtor = false := rfl
@[pick] theorem reduced_input_modulus_2_tparams : F.reduced_input_modulus_2.tparams = [N.«Ops»,
  N.«Mode», N.«Rep»] := rfl
@[pick, exec_header] theorem reduced_input_modulus_2_params : F.reduced_input_modulus_2.params =
  [⟨(.app1 N.«raw_fraction» (.name N.«Rep»)), N.«left», none⟩, ⟨(.name N.«Rep»), N.«right», none⟩]
  := rfl
@[pick] theorem reduced_input_modulus_2_isConst : F.reduced_input_modulus_2.isConst = false := rfl
@[exec_header] theorem reduced_input_modulus_2_ret : F.reduced_input_modulus_2.ret = (.app1
  N.«raw_fraction» (.name N.«Rep»)) := rfl
@[exec_header] theorem reduced_input_modulus_2_body : F.reduced_input_modulus_2.body = (some (.ret
  (.call N.«ops_type» N.«modulus» [] (.cons (.call 0 N.«reduce» [] (.cons (.var 0 N.«left») (.cons
  (.var 0 N.«mode») .nil))) (.cons (.var 0 N.«right») .nil))) .nil)) := rfl
@[pick] theorem reduced_input_modulus_2_score : F.reduced_input_modulus_2.score = 103 := rfl
@[exec_header] theorem reduced_input_modulus_2_isCtor : F.reduced_input_modulus_2.isCtor = false := rfl
@[pick] theorem reduced_input_modulus_3_tparams : F.reduced_input_modulus_3.tparams = [N.«Ops»,
  N.«Mode», N.«Rep»] := rfl
@[pick, exec_header] theorem reduced_input_modulus_3_params : F.reduced_input_modulus_3.params =
  [⟨(.name N.«Rep»), N.«left», none⟩, ⟨(.app1 N.«raw_fraction» (.name N.«Rep»)), N.«right», none⟩]
  := rfl
@[pick] theorem reduced_input_modulus_3_isConst : F.reduced_input_modulus_3.isConst = false := rfl
@[exec_header] theorem reduced_input_modulus_3_ret : F.reduced_input_modulus_3.ret = (.app1
  N.«raw_fraction» (.name N.«Rep»)) := rfl
@[exec_header] theorem reduced_input_modulus_3_body : F.reduced_input_modulus_3.body = (some (.ret
  (.call N.«ops_type» N.«modulus» [] (.cons (.var 0 N.«left») (.cons (.call 0 N.«reduce» [] (.cons
  (.var 0 N.«right») (.cons (.var 0 N.«mode») .nil))) .nil))) .nil)) := rfl
@[pick] theorem reduced_input_modulus_3_score : F.reduced_input_modulus_3.score = 103 := rfl
@[exec_header] theorem reduced_input_modulus_3_isCtor : F.reduced_input_modulus_3.isCtor = false := rfl
@[pick] theorem reduced_input_equal_to_1_tparams : F.reduced_input_equal_to_1.tparams = [N.«Ops»,
  N.«Mode», N.«Rep»] := rfl
@[pick, exec_header] theorem reduced_input_equal_to_1_params : F.reduced_input_equal_to_1.params =
  [⟨(.app1 N.«raw_fraction» (.name N.«Rep»)), N.«left», none⟩, ⟨(.app1 N.«raw_fraction» (.name
  N.«Rep»)), N.«right», none⟩] := rfl
@[pick] theorem reduced_input_equal_to_1_isConst : F.reduced_input_equal_to_1.isConst = false := rfl
@[exec_header] theorem reduced_input_equal_to_1_ret : F.reduced_input_equal_to_1.ret = (.name
  N.«bool») := rfl
@[exec_header] theorem reduced_input_equal_to_1_body : F.reduced_input_equal_to_1.body = (some
  (.ret (.call N.«ops_type» N.«equal_to» [] (.cons (.call 0 N.«reduce» [] (.cons (.var 0 N.«left»)
  (.cons (.var 0 N.«mode») .nil))) (.cons (.call 0 N.«reduce» [] (.cons (.var 0 N.«right») (.cons
  (.var 0 N.«mode») .nil))) .nil))) .nil)) := rfl
@[pick] theorem reduced_input_equal_to_1_score : F.reduced_input_equal_to_1.score = 3 := rfl
@[exec_header] theorem reduced_input_equal_to_1_isCtor : F.reduced_input_equal_to_1.isCtor = false := rfl
@[pick] theorem reduced_input_equal_to_2_tparams : F.reduced_input_equal_to_2.tparams = [N.«Ops»,
  N.«Mode», N.«Rep»] := rfl
@[pick, exec_header] theorem reduced_input_equal_to_2_params : F.reduced_input_equal_to_2.params =
  [⟨(.app1 N.«raw_fraction» (.name N.«Rep»)), N.«left», none⟩, ⟨(.name N.«Rep»), N.«right», none⟩]
  := rfl
@[pick] theorem reduced_input_equal_to_2_isConst : F.reduced_input_equal_to_2.isConst = false := rfl
@[exec_header] theorem reduced_input_equal_to_2_ret : F.reduced_input_equal_to_2.ret = (.name
  N.«bool») := rfl
@[exec_header] theorem reduced_input_equal_to_2_body : F.reduced_input_equal_to_2.body = (some
  (.ret (.call N.«ops_type» N.«equal_to» [] (.cons (.call 0 N.«reduce» [] (.cons (.var 0 N.«left»)
  (.cons (.var 0 N.«mode») .nil))) (.cons (.var 0 N.«right») .nil))) .nil)) := rfl
@[pick] theorem reduced_input_equal_to_2_score : F.reduced_input_equal_to_2.score = 103 := rfl
@[exec_header] theorem reduced_input_equal_to_2_isCtor : F.reduced_input_equal_to_2.isCtor = false := rfl
@[pick] theorem reduced_input_equal_to_3_tparams : F.reduced_input_equal_to_3.tparams = [N.«Ops»,
  N.«Mode», N.«Rep»] := rfl
@[pick, exec_header] theorem reduced_input_equal_to_3_params : F.reduced_input_equal_to_3.params =
  [⟨(.name N.«Rep»), N.«left», none⟩, ⟨(.app1 N.«raw_fraction» (.name N.«Rep»)), N.«right», none⟩]
  := rfl
@[pick] theorem reduced_input_equal_to_3_isConst : F.reduced_input_equal_to_3.isConst = false := rfl
@[exec_header] theorem reduced_input_equal_to_3_ret : F.reduced_input_equal_to_3.ret = (.name
  N.«bool») := rfl
@[exec_header] theorem reduced_input_equal_to_3_body : F.reduced_input_equal_to_3.body = (some
  (.ret (.call N.«ops_type» N.«equal_to» [] (.cons (.var 0 N.«left») (.cons (.call 0 N.«reduce» []
  (.cons (.var 0 N.«right») (.cons (.var 0 N.«mode») .nil))) .nil))) .nil)) := rfl
@[pick] theorem reduced_input_equal_to_3_score : F.reduced_input_equal_to_3.score = 103 := rfl
@[exec_header] theorem reduced_input_equal_to_3_isCtor : F.reduced_input_equal_to_3.isCtor = false := rfl
@[pick] theorem reduced_input_not_equal_to_1_tparams : F.reduced_input_not_equal_to_1.tparams =
  [N.«Ops», N.«Mode», N.«Rep»] := rfl
@[pick, exec_header] theorem reduced_input_not_equal_to_1_params :
  F.reduced_input_not_equal_to_1.params = [⟨(.app1 N.«raw_fraction» (.name N.«Rep»)), N.«left»,
  none⟩, ⟨(.app1 N.«raw_fraction» (.name N.«Rep»)), N.«right», none⟩] := rfl
@[pick] theorem reduced_input_not_equal_to_1_isConst : F.reduced_input_not_equal_to_1.isConst = false := rfl
@[exec_header] theorem reduced_input_not_equal_to_1_ret : F.reduced_input_not_equal_to_1.ret =
  (.name N.«bool») := rfl
@[exec_header] theorem reduced_input_not_equal_to_1_body : F.reduced_input_not_equal_to_1.body =
  (some (.ret (.call N.«ops_type» N.«not_equal_to» [] (.cons (.call 0 N.«reduce» [] (.cons (.var 0
  N.«left») (.cons (.var 0 N.«mode») .nil))) (.cons (.call 0 N.«reduce» [] (.cons (.var 0
  N.«right») (.cons (.var 0 N.«mode») .nil))) .nil))) .nil)) := rfl
@[pick] theorem reduced_input_not_equal_to_1_score : F.reduced_input_not_equal_to_1.score = 3 := rfl
@[exec_header] theorem reduced_input_not_equal_to_1_isCtor : F.reduced_input_not_equal_to_1.isCtor = false := rfl
@[pick] theorem reduced_input_not_equal_to_2_tparams : F.reduced_input_not_equal_to_2.tparams =
  [N.«Ops», N.«Mode», N.«Rep»] := rfl
@[pick, exec_header] theorem reduced_input_not_equal_to_2_params :
  F.reduced_input_not_equal_to_2.params = [⟨(.app1 N.«raw_fraction» (.name N.«Rep»)), N.«left»,
  none⟩, ⟨(.name N.«Rep»), N.«right», none⟩] := rfl
@[pick] theorem reduced_input_not_equal_to_2_isConst : F.reduced_input_not_equal_to_2.isConst = false := rfl
@[exec_header] theorem reduced_input_not_equal_to_2_ret : F.reduced_input_not_equal_to_2.ret =
  (.name N.«bool») := rfl
@[exec_header] theorem reduced_input_not_equal_to_2_body : F.reduced_input_not_equal_to_2.body =
  (some (.ret (.call N.«ops_type» N.«not_equal_to» [] (.cons (.call 0 N.«reduce» [] (.cons (.var 0
  N.«left») (.cons (.var 0 N.«mode») .nil))) (.cons (.var 0 N.«right») .nil))) .nil)) := rfl
@[pick] theorem reduced_input_not_equal_to_2_score : F.reduced_input_not_equal_to_2.score = 103 := rfl
@[exec_header] theorem reduced_input_not_equal_to_2_isCtor : F.reduced_input_not_equal_to_2.isCtor = false := rfl
@[pick] theorem reduced_input_not_equal_to_3_tparams : F.reduced_input_not_equal_to_3.tparams =
  [N.«Ops», N.«Mode», N.«Rep»] := rfl
@[pick, exec_header] theorem reduced_input_not_equal_to_3_params :
  F.reduced_input_not_equal_to_3.params = [⟨(.name N.«Rep»), N.«left», none⟩, ⟨(.app1
  N.«raw_fraction» (.name N.«Rep»)), N.«right», none⟩] := rfl
@[pick] theorem reduced_input_not_equal_to_3_isConst : F.reduced_input_not_equal_to_3.isConst = false := rfl
@[exec_header] theorem reduced_input_not_equal_to_3_ret : F.reduced_input_not_equal_to_3.ret =
  (.name N.«bool») := rfl
@[exec_header] theorem reduced_input_not_equal_to_3_body : F.reduced_input_not_equal_to_3.body =
  (some (.ret (.call N.«ops_type» N.«not_equal_to» [] (.cons (.var 0 N.«left») (.cons (.call 0
  N.«reduce» [] (.cons (.var 0 N.«right») (.cons (.var 0 N.«mode») .nil))) .nil))) .nil)) := rfl
@[pick] theorem reduced_input_not_equal_to_3_score : F.reduced_input_not_equal_to_3.score = 103 := rfl
@[exec_header] theorem reduced_input_not_equal_to_3_isCtor : F.reduced_input_not_equal_to_3.isCtor = false := rfl
@[pick] theorem reduced_input_less_1_tparams : F.reduced_input_less_1.tparams = [N.«Ops», N.«Mode»,
  N.«Rep»] := rfl
@[pick, exec_header] theorem reduced_input_less_1_params : F.reduced_input_less_1.params = [⟨(.app1
  N.«raw_fraction» (.name N.«Rep»)), N.«left», none⟩, ⟨(.app1 N.«raw_fraction» (.name N.«Rep»)),
  N.«right», none⟩] := rfl
@[pick] theorem reduced_input_less_1_isConst : F.reduced_input_less_1.isConst = false := rfl
@[exec_header] theorem reduced_input_less_1_ret : F.reduced_input_less_1.ret = (.name N.«bool») :=
  rfl
@[exec_header] theorem reduced_input_less_1_body : F.reduced_input_less_1.body = (some (.ret (.call
  N.«ops_type» N.«less» [] (.cons (.call 0 N.«reduce» [] (.cons (.var 0 N.«left») (.cons (.var 0
  N.«mode») .nil))) (.cons (.call 0 N.«reduce» [] (.cons (.var 0 N.«right») (.cons (.var 0
  N.«mode») .nil))) .nil))) .nil)) := rfl
@[pick] theorem reduced_input_less_1_score : F.reduced_input_less_1.score = 3 := rfl
@[exec_header] theorem reduced_input_less_1_isCtor : F.reduced_input_less_1.isCtor = false := rfl
@[pick] theorem reduced_input_less_2_tparams : F.reduced_input_less_2.tparams = [N.«Ops», N.«Mode»,
  N.«Rep»] := rfl
@[pick, exec_header] theorem reduced_input_less_2_params : F.reduced_input_less_2.params = [⟨(.app1
  N.«raw_fraction» (.name N.«Rep»)), N.«left», none⟩, ⟨(.name N.«Rep»), N.«right», none⟩] := rfl
@[pick] theorem reduced_input_less_2_isConst : F.reduced_input_less_2.isConst = false := rfl
@[exec_header] theorem reduced_input_less_2_ret : F.reduced_input_less_2.ret = (.name N.«bool») :=
  rfl
@[exec_header] theorem reduced_input_less_2_body : F.reduced_input_less_2.body = (some (.ret (.call
  N.«ops_type» N.«less» [] (.cons (.call 0 N.«reduce» [] (.cons (.var 0 N.«left») (.cons (.var 0
  N.«mode») .nil))) (.cons (.var 0 N.«right») .nil))) .nil)) := rfl
@[pick] theorem reduced_input_less_2_score : F.reduced_input_less_2.score = 103 := rfl
@[exec_header] theorem reduced_input_less_2_isCtor : F.reduced_input_less_2.isCtor = false := rfl
@[pick] theorem reduced_input_less_3_tparams : F.reduced_input_less_3.tparams = [N.«Ops», N.«Mode»,
  N.«Rep»] := rfl
@[pick, exec_header] theorem reduced_input_less_3_params : F.reduced_input_less_3.params = [⟨(.name
  N.«Rep»), N.«left», none⟩, ⟨(.app1 N.«raw_fraction» (.name N.«Rep»)), N.«right», none⟩] := rfl
@[pick] theorem reduced_input_less_3_isConst : F.reduced_input_less_3.isConst = false := rfl
@[exec_header] theorem reduced_input_less_3_ret : F.reduced_input_less_3.ret = (.name N.«bool») :=
  rfl
@[exec_header] theorem reduced_input_less_3_body : F.reduced_input_less_3.body = (some (.ret (.call
  N.«ops_type» N.«less» [] (.cons (.var 0 N.«left») (.cons (.call 0 N.«reduce» [] (.cons (.var 0
  N.«right») (.cons (.var 0 N.«mode») .nil))) .nil))) .nil)) := rfl
@[pick] theorem reduced_input_less_3_score : F.reduced_input_less_3.score = 103 := rfl
@[exec_header] theorem reduced_input_less_3_isCtor : F.reduced_input_less_3.isCtor = false := rfl
@[pick] theorem reduced_input_less_equal_1_tparams : F.reduced_input_less_equal_1.tparams =
  [N.«Ops», N.«Mode», N.«Rep»] := rfl
@[pick, exec_header] theorem reduced_input_less_equal_1_params :
  F.reduced_input_less_equal_1.params = [⟨(.app1 N.«raw_fraction» (.name N.«Rep»)), N.«left»,
  none⟩, ⟨(.app1 N.«raw_fraction» (.name N.«Rep»)), N.«right», none⟩] := rfl
@[pick] theorem reduced_input_less_equal_1_isConst : F.reduced_input_less_equal_1.isConst = false := rfl
@[exec_header] theorem reduced_input_less_equal_1_ret : F.reduced_input_less_equal_1.ret = (.name
  N.«bool») := rfl
@[exec_header] theorem reduced_input_less_equal_1_body : F.reduced_input_less_equal_1.body = (some
  (.ret (.call N.«ops_type» N.«less_equal» [] (.cons (.call 0 N.«reduce» [] (.cons (.var 0
  N.«left») (.cons (.var 0 N.«mode») .nil))) (.cons (.call 0 N.«reduce» [] (.cons (.var 0
  N.«right») (.cons (.var 0 N.«mode») .nil))) .nil))) .nil)) := rfl
@[pick] theorem reduced_input_less_equal_1_score : F.reduced_input_less_equal_1.score = 3 := rfl
@[exec_header] theorem reduced_input_less_equal_1_isCtor : F.reduced_input_less_equal_1.isCtor = false := rfl
@[pick] theorem reduced_input_less_equal_2_tparams : F.reduced_input_less_equal_2.tparams =
  [N.«Ops», N.«Mode», N.«Rep»] := rfl
@[pick, exec_header] theorem reduced_input_less_equal_2_params :
  F.reduced_input_less_equal_2.params = [⟨(.app1 N.«raw_fraction» (.name N.«Rep»)), N.«left»,
  none⟩, ⟨(.name N.«Rep»), N.«right», none⟩] := rfl
@[pick] theorem reduced_input_less_equal_2_isConst : F.reduced_input_less_equal_2.isConst = false := rfl
@[exec_header] theorem reduced_input_less_equal_2_ret : F.reduced_input_less_equal_2.ret = (.name
  N.«bool») := rfl
@[exec_header] theorem reduced_input_less_equal_2_body : F.reduced_input_less_equal_2.body = (some
  (.ret (.call N.«ops_type» N.«less_equal» [] (.cons (.call 0 N.«reduce» [] (.cons (.var 0
  N.«left») (.cons (.var 0 N.«mode») .nil))) (.cons (.var 0 N.«right») .nil))) .nil)) := rfl
@[pick] theorem reduced_input_less_equal_2_score : F.reduced_input_less_equal_2.score = 103 := rfl
@[exec_header] theorem reduced_input_less_equal_2_isCtor : F.reduced_input_less_equal_2.isCtor = false := rfl
@[pick] theorem reduced_input_less_equal_3_tparams : F.reduced_input_less_equal_3.tparams =
  [N.«Ops», N.«Mode», N.«Rep»] := rfl
@[pick, exec_header] theorem reduced_input_less_equal_3_params :
  F.reduced_input_less_equal_3.params = [⟨(.name N.«Rep»), N.«left», none⟩, ⟨(.app1
  N.«raw_fraction» (.name N.«Rep»)), N.«right», none⟩] := rfl
@[pick] theorem reduced_input_less_equal_3_isConst : F.reduced_input_less_equal_3.isConst = false := rfl
@[exec_header] theorem reduced_input_less_equal_3_ret : F.reduced_input_less_equal_3.ret = (.name
  N.«bool») := rfl
@[exec_header] theorem reduced_input_less_equal_3_body : F.reduced_input_less_equal_3.body = (some
  (.ret (.call N.«ops_type» N.«less_equal» [] (.cons (.var 0 N.«left») (.cons (.call 0 N.«reduce»
  [] (.cons (.var 0 N.«right») (.cons (.var 0 N.«mode») .nil))) .nil))) .nil)) := rfl
@[pick] theorem reduced_input_less_equal_3_score : F.reduced_input_less_equal_3.score = 103 := rfl
@[exec_header] theorem reduced_input_less_equal_3_isCtor : F.reduced_input_less_equal_3.isCtor = false := rfl
@[pick] theorem reduced_input_greater_1_tparams : F.reduced_input_greater_1.tparams = [N.«Ops»,
  N.«Mode», N.«Rep»] := rfl
@[pick, exec_header] theorem reduced_input_greater_1_params : F.reduced_input_greater_1.params =
  [⟨(.app1 N.«raw_fraction» (.name N.«Rep»)), N.«left», none⟩, ⟨(.app1 N.«raw_fraction» (.name
  N.«Rep»)), N.«right», none⟩] := rfl
@[pick] theorem reduced_input_greater_1_isConst : F.reduced_input_greater_1.isConst = false := rfl
@[exec_header] theorem reduced_input_greater_1_ret : F.reduced_input_greater_1.ret = (.name
  N.«bool») := rfl
@[exec_header] theorem reduced_input_greater_1_body : F.reduced_input_greater_1.body = (some (.ret
  (.call N.«ops_type» N.«greater» [] (.cons (.call 0 N.«reduce» [] (.cons (.var 0 N.«left») (.cons
  (.var 0 N.«mode») .nil))) (.cons (.call 0 N.«reduce» [] (.cons (.var 0 N.«right») (.cons (.var 0
  N.«mode») .nil))) .nil))) .nil)) := rfl
@[pick] theorem reduced_input_greater_1_score : F.reduced_input_greater_1.score = 3 := rfl
@[exec_header] theorem reduced_input_greater_1_isCtor : F.reduced_input_greater_1.isCtor = false := rfl
@[pick] theorem reduced_input_greater_2_tparams : F.reduced_input_greater_2.tparams = [N.«Ops»,
  N.«Mode», N.«Rep»] := rfl
@[pick, exec_header] theorem reduced_input_greater_2_params : F.reduced_input_greater_2.params =
  [⟨(.app1 N.«raw_fraction» (.name N.«Rep»)), N.«left», none⟩, ⟨(.name N.«Rep»), N.«right», none⟩]
  := rfl
@[pick] theorem reduced_input_greater_2_isConst : F.reduced_input_greater_2.isConst = false := rfl
@[exec_header] theorem reduced_input_greater_2_ret : F.reduced_input_greater_2.ret = (.name
  N.«bool») := rfl
@[exec_header] theorem reduced_input_greater_2_body : F.reduced_input_greater_2.body = (some (.ret
  (.call N.«ops_type» N.«greater» [] (.cons (.call 0 N.«reduce» [] (.cons (.var 0 N.«left») (.cons
  (.var 0 N.«mode») .nil))) (.cons (.var 0 N.«right») .nil))) .nil)) := rfl
@[pick] theorem reduced_input_greater_2_score : F.reduced_input_greater_2.score = 103 := rfl
@[exec_header] theorem reduced_input_greater_2_isCtor : F.reduced_input_greater_2.isCtor = false := rfl
@[pick] theorem reduced_input_greater_3_tparams : F.reduced_input_greater_3.tparams = [N.«Ops»,
  N.«Mode», N.«Rep»] := rfl
@[pick, exec_header] theorem reduced_input_greater_3_params : F.reduced_input_greater_3.params =
  [⟨(.name N.«Rep»), N.«left», none⟩, ⟨(.app1 N.«raw_fraction» (.name N.«Rep»)), N.«right», none⟩]
  := rfl
@[pick] theorem reduced_input_greater_3_isConst : F.reduced_input_greater_3.isConst = false := rfl
@[exec_header] theorem reduced_input_greater_3_ret : F.reduced_input_greater_3.ret = (.name
  N.«bool») := rfl
@[exec_header] theorem reduced_input_greater_3_body : F.reduced_input_greater_3.body = (some (.ret
  (.call N.«ops_type» N.«greater» [] (.cons (.var 0 N.«left») (.cons (.call 0 N.«reduce» [] (.cons
  (.var 0 N.«right») (.cons (.var 0 N.«mode») .nil))) .nil))) .nil)) := rfl
@[pick] theorem reduced_input_greater_3_score : F.reduced_input_greater_3.score = 103 := rfl
@[exec_header] theorem reduced_input_greater_3_isCtor : F.reduced_input_greater_3.isCtor = false := rfl
@[pick] theorem reduced_input_greater_equal_1_tparams : F.reduced_input_greater_equal_1.tparams =
  [N.«Ops», N.«Mode», N.«Rep»] := rfl
@[pick, exec_header] theorem reduced_input_greater_equal_1_params :
  F.reduced_input_greater_equal_1.params = [⟨(.app1 N.«raw_fraction» (.name N.«Rep»)), N.«left»,
  none⟩, ⟨(.app1 N.«raw_fraction» (.name N.«Rep»)), N.«right», none⟩] := rfl
@[pick] theorem reduced_input_greater_equal_1_isConst : F.reduced_input_greater_equal_1.isConst = false := rfl
@[exec_header] theorem reduced_input_greater_equal_1_ret : F.reduced_input_greater_equal_1.ret =
  (.name N.«bool») := rfl
@[exec_header] theorem reduced_input_greater_equal_1_body : F.reduced_input_greater_equal_1.body =
  (some (.ret (.call N.«ops_type» N.«greater_equal» [] (.cons (.call 0 N.«reduce» [] (.cons (.var 0
  N.«left») (.cons (.var 0 N.«mode») .nil))) (.cons (.call 0 N.«reduce» [] (.cons (.var 0
  N.«right») (.cons (.var 0 N.«mode») .nil))) .nil))) .nil)) := rfl
@[pick] theorem reduced_input_greater_equal_1_score : F.reduced_input_greater_equal_1.score = 3 := rfl
@[exec_header] theorem reduced_input_greater_equal_1_isCtor : F.reduced_input_greater_equal_1.isCtor = false := rfl
@[pick] theorem reduced_input_greater_equal_2_tparams : F.reduced_input_greater_equal_2.tparams =
  [N.«Ops», N.«Mode», N.«Rep»] := rfl
@[pick, exec_header] theorem reduced_input_greater_equal_2_params :
  F.reduced_input_greater_equal_2.params = [⟨(.app1 N.«raw_fraction» (.name N.«Rep»)), N.«left»,
  none⟩, ⟨(.name N.«Rep»), N.«right», none⟩] := rfl
@[pick] theorem reduced_input_greater_equal_2_isConst : F.reduced_input_greater_equal_2.isConst = false := rfl
@[exec_header] theorem reduced_input_greater_equal_2_ret : F.reduced_input_greater_equal_2.ret =
  (.name N.«bool») := rfl
@[exec_header] theorem reduced_input_greater_equal_2_body : F.reduced_input_greater_equal_2.body =
  (some (.ret (.call N.«ops_type» N.«greater_equal» [] (.cons (.call 0 N.«reduce» [] (.cons (.var 0
  N.«left») (.cons (.var 0 N.«mode») .nil))) (.cons (.var 0 N.«right») .nil))) .nil)) := rfl
@[pick] theorem reduced_input_greater_equal_2_score : F.reduced_input_greater_equal_2.score = 103 := rfl
@[exec_header] theorem reduced_input_greater_equal_2_isCtor : F.reduced_input_greater_equal_2.isCtor = false := rfl
@[pick] theorem reduced_input_greater_equal_3_tparams : F.reduced_input_greater_equal_3.tparams =
  [N.«Ops», N.«Mode», N.«Rep»] := rfl
@[pick, exec_header] theorem reduced_input_greater_equal_3_params :
  F.reduced_input_greater_equal_3.params = [⟨(.name N.«Rep»), N.«left», none⟩, ⟨(.app1
  N.«raw_fraction» (.name N.«Rep»)), N.«right», none⟩] := rfl
@[pick] theorem reduced_input_greater_equal_3_isConst : F.reduced_input_greater_equal_3.isConst = false := rfl
@[exec_header] theorem reduced_input_greater_equal_3_ret : F.reduced_input_greater_equal_3.ret =
  (.name N.«bool») := rfl
@[exec_header] theorem reduced_input_greater_equal_3_body : F.reduced_input_greater_equal_3.body =
  (some (.ret (.call N.«ops_type» N.«greater_equal» [] (.cons (.var 0 N.«left») (.cons (.call 0
  N.«reduce» [] (.cons (.var 0 N.«right») (.cons (.var 0 N.«mode») .nil))) .nil))) .nil)) := rfl
@[pick] theorem reduced_input_greater_equal_3_score : F.reduced_input_greater_equal_3.score = 103 := rfl
@[exec_header] theorem reduced_input_greater_equal_3_isCtor : F.reduced_input_greater_equal_3.isCtor = false := rfl
@[pick] theorem reduced_output_negate_1_tparams : F.reduced_output_negate_1.tparams = [N.«Ops»,
  N.«Mode», N.«Rep»] := rfl
@[pick, exec_header] theorem reduced_output_negate_1_params : F.reduced_output_negate_1.params =
  [⟨(.app1 N.«raw_fraction» (.name N.«Rep»)), N.«value», none⟩] := rfl
@[pick] theorem reduced_output_negate_1_isConst : F.reduced_output_negate_1.isConst = false := rfl
@[exec_header] theorem reduced_output_negate_1_ret : F.reduced_output_negate_1.ret = (.app1
  N.«raw_fraction» (.name N.«Rep»)) := rfl
@[exec_header] theorem reduced_output_negate_1_body : F.reduced_output_negate_1.body = (some (.ret
  (.call 0 N.«reduce» [] (.cons (.call N.«ops_type» N.«negate» [] (.cons (.var 0 N.«value») .nil))
  (.cons (.var 0 N.«mode») .nil))) .nil)) := rfl
@[pick] theorem reduced_output_negate_1_score : F.reduced_output_negate_1.score = 3 := rfl
@[exec_header] theorem reduced_output_negate_1_isCtor : F.reduced_output_negate_1.isCtor = false := rfl
@[pick] theorem reduced_output_plus_1_tparams : F.reduced_output_plus_1.tparams = [N.«Ops»,
  N.«Mode», N.«Left», N.«Right»] := rfl
@[pick, exec_header] theorem reduced_output_plus_1_params : F.reduced_output_plus_1.params =
  [⟨(.name N.«Left»), N.«left», none⟩, ⟨(.name N.«Right»), N.«right», none⟩] := rfl
@[pick] theorem reduced_output_plus_1_isConst : F.reduced_output_plus_1.isConst = false := rfl
@[exec_header] theorem reduced_output_plus_1_ret : F.reduced_output_plus_1.ret = (.name N.«auto»)
  := rfl
@[exec_header] theorem reduced_output_plus_1_body : F.reduced_output_plus_1.body = (some (.ret
  (.call 0 N.«reduce» [] (.cons (.call N.«ops_type» N.«plus» [] (.cons (.var 0 N.«left») (.cons
  (.var 0 N.«right») .nil))) (.cons (.var 0 N.«mode») .nil))) .nil)) := rfl
@[pick] theorem reduced_output_plus_1_score : F.reduced_output_plus_1.score = 204 := rfl
@[exec_header] theorem reduced_output_plus_1_isCtor : F.reduced_output_plus_1.isCtor = false := rfl
@[pick] theorem reduced_output_minus_1_tparams : F.reduced_output_minus_1.tparams = [N.«Ops»,
  N.«Mode», N.«Left», N.«Right»] := rfl
@[pick, exec_header] theorem reduced_output_minus_1_params : F.reduced_output_minus_1.params =
  [⟨(.name N.«Left»), N.«left», none⟩, ⟨(.name N.«Right»), N.«right», none⟩] := rfl
@[pick] theorem reduced_output_minus_1_isConst : F.reduced_output_minus_1.isConst = false := rfl
@[exec_header] theorem reduced_output_minus_1_ret : F.reduced_output_minus_1.ret = (.name N.«auto»)
  := rfl
@[exec_header] theorem reduced_output_minus_1_body : F.reduced_output_minus_1.body = (some (.ret
  (.call 0 N.«reduce» [] (.cons (.call N.«ops_type» N.«minus» [] (.cons (.var 0 N.«left») (.cons
  (.var 0 N.«right») .nil))) (.cons (.var 0 N.«mode») .nil))) .nil)) := rfl
@[pick] theorem reduced_output_minus_1_score : F.reduced_output_minus_1.score = 204 := rfl
@[exec_header] theorem reduced_output_minus_1_isCtor : F.reduced_output_minus_1.isCtor = false := rfl
@[pick] theorem reduced_output_multiplies_1_tparams : F.reduced_output_multiplies_1.tparams =
  [N.«Ops», N.«Mode», N.«Left», N.«Right»] := rfl
@[pick, exec_header] theorem reduced_output_multiplies_1_params :
  F.reduced_output_multiplies_1.params = [⟨(.name N.«Left»), N.«left», none⟩, ⟨(.name N.«Right»),
  N.«right», none⟩] := rfl
@[pick] theorem reduced_output_multiplies_1_isConst : F.reduced_output_multiplies_1.isConst = false := rfl
@[exec_header] theorem reduced_output_multiplies_1_ret : F.reduced_output_multiplies_1.ret = (.name
  N.«auto») := rfl
@[exec_header] theorem reduced_output_multiplies_1_body : F.reduced_output_multiplies_1.body =
  (some (.ret (.call 0 N.«reduce» [] (.cons (.call N.«ops_type» N.«multiplies» [] (.cons (.var 0
  N.«left») (.cons (.var 0 N.«right») .nil))) (.cons (.var 0 N.«mode») .nil))) .nil)) := rfl
@[pick] theorem reduced_output_multiplies_1_score : F.reduced_output_multiplies_1.score = 204 := rfl
@[exec_header] theorem reduced_output_multiplies_1_isCtor : F.reduced_output_multiplies_1.isCtor = false := rfl
@[pick] theorem reduced_output_divides_1_tparams : F.reduced_output_divides_1.tparams = [N.«Ops»,
  N.«Mode», N.«Left», N.«Right»] := rfl
@[pick, exec_header] theorem reduced_output_divides_1_params : F.reduced_output_divides_1.params =
  [⟨(.name N.«Left»), N.«left», none⟩, ⟨(.name N.«Right»), N.«right», none⟩] := rfl
@[pick] theorem reduced_output_divides_1_isConst : F.reduced_output_divides_1.isConst = false := rfl
@[exec_header] theorem reduced_output_divides_1_ret : F.reduced_output_divides_1.ret = (.name
  N.«auto») := rfl
@[exec_header] theorem reduced_output_divides_1_body : F.reduced_output_divides_1.body = (some
  (.ret (.call 0 N.«reduce» [] (.cons (.call N.«ops_type» N.«divides» [] (.cons (.var 0 N.«left»)
  (.cons (.var 0 N.«right») .nil))) (.cons (.var 0 N.«mode») .nil))) .nil)) := rfl
@[pick] theorem reduced_output_divides_1_score : F.reduced_output_divides_1.score = 204 := rfl
@[exec_header] theorem reduced_output_divides_1_isCtor : F.reduced_output_divides_1.isCtor = false := rfl
@[pick] theorem reduced_output_modulus_1_tparams : F.reduced_output_modulus_1.tparams = [N.«Ops»,
  N.«Mode», N.«Left», N.«Right»] := rfl
@[pick, exec_header] theorem reduced_output_modulus_1_params : F.reduced_output_modulus_1.params =
  [⟨(.name N.«Left»), N.«left», none⟩, ⟨(.name N.«Right»), N.«right», none⟩] := rfl
@[pick] theorem reduced_output_modulus_1_isConst : F.reduced_output_modulus_1.isConst = false := rfl
@[exec_header] theorem reduced_output_modulus_1_ret : F.reduced_output_modulus_1.ret = (.name
  N.«auto») := rfl
@[exec_header] theorem reduced_output_modulus_1_body : F.reduced_output_modulus_1.body = (some
  (.ret (.call 0 N.«reduce» [] (.cons (.call N.«ops_type» N.«modulus» [] (.cons (.var 0 N.«left»)
  (.cons (.var 0 N.«right») .nil))) (.cons (.var 0 N.«mode») .nil))) .nil)) := rfl
@[pick] theorem reduced_output_modulus_1_score : F.reduced_output_modulus_1.score = 204 := rfl
@[exec_header] theorem reduced_output_modulus_1_isCtor : F.reduced_output_modulus_1.isCtor = false := rfl
@[pick] theorem reduced_output_equal_to_1_tparams : F.reduced_output_equal_to_1.tparams = [N.«Ops»,
  N.«Mode», N.«Left», N.«Right»] := rfl
@[pick, exec_header] theorem reduced_output_equal_to_1_params : F.reduced_output_equal_to_1.params
  = [⟨(.name N.«Left»), N.«left», none⟩, ⟨(.name N.«Right»), N.«right», none⟩] := rfl
@[pick] theorem reduced_output_equal_to_1_isConst : F.reduced_output_equal_to_1.isConst = false := rfl
@[exec_header] theorem reduced_output_equal_to_1_ret : F.reduced_output_equal_to_1.ret = (.name
  N.«bool») := rfl
@[exec_header] theorem reduced_output_equal_to_1_body : F.reduced_output_equal_to_1.body = (some
  (.ret (.call N.«ops_type» N.«equal_to» [] (.cons (.var 0 N.«left») (.cons (.var 0 N.«right»)
  .nil))) .nil)) := rfl
@[pick] theorem reduced_output_equal_to_1_score : F.reduced_output_equal_to_1.score = 204 := rfl
@[exec_header] theorem reduced_output_equal_to_1_isCtor : F.reduced_output_equal_to_1.isCtor = false := rfl
@[pick] theorem reduced_output_not_equal_to_1_tparams : F.reduced_output_not_equal_to_1.tparams =
  [N.«Ops», N.«Mode», N.«Left», N.«Right»] := rfl
@[pick, exec_header] theorem reduced_output_not_equal_to_1_params :
  F.reduced_output_not_equal_to_1.params = [⟨(.name N.«Left»), N.«left», none⟩, ⟨(.name N.«Right»),
  N.«right», none⟩] := rfl
@[pick] theorem reduced_output_not_equal_to_1_isConst : F.reduced_output_not_equal_to_1.isConst = false := rfl
@[exec_header] theorem reduced_output_not_equal_to_1_ret : F.reduced_output_not_equal_to_1.ret =
  (.name N.«bool») := rfl
@[exec_header] theorem reduced_output_not_equal_to_1_body : F.reduced_output_not_equal_to_1.body =
  (some (.ret (.call N.«ops_type» N.«not_equal_to» [] (.cons (.var 0 N.«left») (.cons (.var 0
  N.«right») .nil))) .nil)) := rfl
@[pick] theorem reduced_output_not_equal_to_1_score : F.reduced_output_not_equal_to_1.score = 204 := rfl
@[exec_header] theorem reduced_output_not_equal_to_1_isCtor : F.reduced_output_not_equal_to_1.isCtor = false := rfl
@[pick] theorem reduced_output_less_1_tparams : F.reduced_output_less_1.tparams = [N.«Ops»,
  N.«Mode», N.«Left», N.«Right»] := rfl
@[pick, exec_header] theorem reduced_output_less_1_params : F.reduced_output_less_1.params =
  [⟨(.name N.«Left»), N.«left», none⟩, ⟨(.name N.«Right»), N.«right», none⟩] := rfl
@[pick] theorem reduced_output_less_1_isConst : F.reduced_output_less_1.isConst = false := rfl
@[exec_header] theorem reduced_output_less_1_ret : F.reduced_output_less_1.ret = (.name N.«bool»)
  := rfl
@[exec_header] theorem reduced_output_less_1_body : F.reduced_output_less_1.body = (some (.ret
  (.call N.«ops_type» N.«less» [] (.cons (.var 0 N.«left») (.cons (.var 0 N.«right») .nil))) .nil))
  := rfl
@[pick] theorem reduced_output_less_1_score : F.reduced_output_less_1.score = 204 := rfl
@[exec_header] theorem reduced_output_less_1_isCtor : F.reduced_output_less_1.isCtor = false := rfl
@[pick] theorem reduced_output_less_equal_1_tparams : F.reduced_output_less_equal_1.tparams =
  [N.«Ops», N.«Mode», N.«Left», N.«Right»] := rfl
@[pick, exec_header] theorem reduced_output_less_equal_1_params :
  F.reduced_output_less_equal_1.params = [⟨(.name N.«Left»), N.«left», none⟩, ⟨(.name N.«Right»),
  N.«right», none⟩] := rfl
@[pick] theorem reduced_output_less_equal_1_isConst : F.reduced_output_less_equal_1.isConst = false := rfl
@[exec_header] theorem reduced_output_less_equal_1_ret : F.reduced_output_less_equal_1.ret = (.name
  N.«bool») := rfl
@[exec_header] theorem reduced_output_less_equal_1_body : F.reduced_output_less_equal_1.body =
  (some (.ret (.call N.«ops_type» N.«less_equal» [] (.cons (.var 0 N.«left») (.cons (.var 0
  N.«right») .nil))) .nil)) := rfl
@[pick] theorem reduced_output_less_equal_1_score : F.reduced_output_less_equal_1.score = 204 := rfl
@[exec_header] theorem reduced_output_less_equal_1_isCtor : F.reduced_output_less_equal_1.isCtor = false := rfl
@[pick] theorem reduced_output_greater_1_tparams : F.reduced_output_greater_1.tparams = [N.«Ops»,
  N.«Mode», N.«Left», N.«Right»] := rfl
@[pick, exec_header] theorem reduced_output_greater_1_params : F.reduced_output_greater_1.params =
  [⟨(.name N.«Left»), N.«left», none⟩, ⟨(.name N.«Right»), N.«right», none⟩] := rfl
@[pick] theorem reduced_output_greater_1_isConst : F.reduced_output_greater_1.isConst = false := rfl
@[exec_header] theorem reduced_output_greater_1_ret : F.reduced_output_greater_1.ret = (.name
  N.«bool») := rfl
@[exec_header] theorem reduced_output_greater_1_body : F.reduced_output_greater_1.body = (some
  (.ret (.call N.«ops_type» N.«greater» [] (.cons (.var 0 N.«left») (.cons (.var 0 N.«right»)
  .nil))) .nil)) := rfl
@[pick] theorem reduced_output_greater_1_score : F.reduced_output_greater_1.score = 204 := rfl
@[exec_header] theorem reduced_output_greater_1_isCtor : F.reduced_output_greater_1.isCtor = false := rfl
@[pick] theorem reduced_output_greater_equal_1_tparams : F.reduced_output_greater_equal_1.tparams =
  [N.«Ops», N.«Mode», N.«Left», N.«Right»] := rfl
@[pick, exec_header] theorem reduced_output_greater_equal_1_params :
  F.reduced_output_greater_equal_1.params = [⟨(.name N.«Left»), N.«left», none⟩, ⟨(.name
  N.«Right»), N.«right», none⟩] := rfl
@[pick] theorem reduced_output_greater_equal_1_isConst : F.reduced_output_greater_equal_1.isConst = false := rfl
@[exec_header] theorem reduced_output_greater_equal_1_ret : F.reduced_output_greater_equal_1.ret =
  (.name N.«bool») := rfl
@[exec_header] theorem reduced_output_greater_equal_1_body : F.reduced_output_greater_equal_1.body
  = (some (.ret (.call N.«ops_type» N.«greater_equal» [] (.cons (.var 0 N.«left») (.cons (.var 0
  N.«right») .nil))) .nil)) := rfl
@[pick] theorem reduced_output_greater_equal_1_score : F.reduced_output_greater_equal_1.score = 204 := rfl
@[exec_header] theorem reduced_output_greater_equal_1_isCtor : F.reduced_output_greater_equal_1.isCtor = false := rfl
@[pick] theorem fraction_num_1_tparams : F.fraction_num_1.tparams = [N.«Rep», N.«Ops»] := rfl
@[pick, exec_header] theorem fraction_num_1_params : F.fraction_num_1.params = [] := rfl
@[pick] theorem fraction_num_1_isConst : F.fraction_num_1.isConst = true := rfl
@[exec_header] theorem fraction_num_1_ret : F.fraction_num_1.ret = (.name N.«Rep») := rfl
@[exec_header] theorem fraction_num_1_body : F.fraction_num_1.body = (some (.ret (.call 0
  N.«numerator» [] .nil) .nil)) := rfl
@[pick] theorem fraction_num_1_score : F.fraction_num_1.score = 2 := rfl
@[exec_header] theorem fraction_num_1_isCtor : F.fraction_num_1.isCtor = false := rfl
@[pick] theorem fraction_num_2_tparams : F.fraction_num_2.tparams = [N.«Rep», N.«Ops»] := rfl
@[pick, exec_header] theorem fraction_num_2_params : F.fraction_num_2.params = [] := rfl
@[pick] theorem fraction_num_2_isConst : F.fraction_num_2.isConst = false := rfl
@[exec_header] theorem fraction_num_2_ret : F.fraction_num_2.ret = (.name N.«Rep») := rfl
@[exec_header] theorem fraction_num_2_body : F.fraction_num_2.body = (some (.ret (.call 0
  N.«numerator» [] .nil) .nil)) := rfl
@[pick] theorem fraction_num_2_score : F.fraction_num_2.score = 2 := rfl
@[exec_header] theorem fraction_num_2_isCtor : F.fraction_num_2.isCtor = false := rfl
@[pick] theorem fraction_den_1_tparams : F.fraction_den_1.tparams = [N.«Rep», N.«Ops»] := rfl
@[pick, exec_header] theorem fraction_den_1_params : F.fraction_den_1.params = [] := rfl
@[pick] theorem fraction_den_1_isConst : F.fraction_den_1.isConst = true := rfl
@[exec_header] theorem fraction_den_1_ret : F.fraction_den_1.ret = (.name N.«Rep») := rfl
@[exec_header] theorem fraction_den_1_body : F.fraction_den_1.body = (some (.ret (.call 0
  N.«denominator» [] .nil) .nil)) := rfl
@[pick] theorem fraction_den_1_score : F.fraction_den_1.score = 2 := rfl
@[exec_header] theorem fraction_den_1_isCtor : F.fraction_den_1.isCtor = false := rfl
@[pick] theorem fraction_den_2_tparams : F.fraction_den_2.tparams = [N.«Rep», N.«Ops»] := rfl
@[pick, exec_header] theorem fraction_den_2_params : F.fraction_den_2.params = [] := rfl
@[pick] theorem fraction_den_2_isConst : F.fraction_den_2.isConst = false := rfl
@[exec_header] theorem fraction_den_2_ret : F.fraction_den_2.ret = (.name N.«Rep») := rfl
@[exec_header] theorem fraction_den_2_body : F.fraction_den_2.body = (some (.ret (.call 0
  N.«denominator» [] .nil) .nil)) := rfl
@[pick] theorem fraction_den_2_score : F.fraction_den_2.score = 2 := rfl
@[exec_header] theorem fraction_den_2_isCtor : F.fraction_den_2.isCtor = false := rfl
@[pick] theorem fraction_raw_1_tparams : F.fraction_raw_1.tparams = [N.«Rep», N.«Ops»] := rfl
@[pick, exec_header] theorem fraction_raw_1_params : F.fraction_raw_1.params = [] := rfl
@[pick] theorem fraction_raw_1_isConst : F.fraction_raw_1.isConst = true := rfl
@[exec_header] theorem fraction_raw_1_ret : F.fraction_raw_1.ret = (.name N.«raw_fraction_type») :=
  rfl
@[exec_header] theorem fraction_raw_1_body : F.fraction_raw_1.body = (some (.ret (.var 0 N.«raw_»)
  .nil)) := rfl
@[pick] theorem fraction_raw_1_score : F.fraction_raw_1.score = 2 := rfl
@[exec_header] theorem fraction_raw_1_isCtor : F.fraction_raw_1.isCtor = false := rfl
@[pick] theorem fraction_raw_2_tparams : F.fraction_raw_2.tparams = [N.«Rep», N.«Ops»] := rfl
@[pick, exec_header] theorem fraction_raw_2_params : F.fraction_raw_2.params = [] := rfl
@[pick] theorem fraction_raw_2_isConst : F.fraction_raw_2.isConst = false := rfl
@[exec_header] theorem fraction_raw_2_ret : F.fraction_raw_2.ret = (.name N.«raw_fraction_type») :=
  rfl
@[exec_header] theorem fraction_raw_2_body : F.fraction_raw_2.body = (some (.ret (.var 0 N.«raw_»)
  .nil)) := rfl
@[pick] theorem fraction_raw_2_score : F.fraction_raw_2.score = 2 := rfl
@[exec_header] theorem fraction_raw_2_isCtor : F.fraction_raw_2.isCtor = false := rfl
@[pick] theorem op_shl_1_tparams : F.op_shl_1.tparams = [N.«Rep», N.«Ops»] := rfl
@[pick, exec_header] theorem op_shl_1_params : F.op_shl_1.params = [⟨(.name N.«std::ostream»),
  N.«stream», none⟩, ⟨(.app2 N.«fraction» (.name N.«Rep») (.name N.«Ops»)), N.«value», none⟩] :=
  rfl
@[pick] theorem op_shl_1_isConst : F.op_shl_1.isConst = false := rfl
@[exec_header] theorem op_shl_1_ret : F.op_shl_1.ret = (.name N.«std::ostream») := rfl
@[exec_header] theorem op_shl_1_body : F.op_shl_1.body = (some (.ret (.bin .shl (.var 0 N.«stream»)
  (.mem (.var 0 N.«value») N.«raw_»)) .nil)) := rfl
@[pick] theorem op_shl_1_score : F.op_shl_1.score = 2 := rfl
@[exec_header] theorem op_shl_1_isCtor : F.op_shl_1.isCtor = false := rfl
@[pick] theorem fraction_fraction_1_tparams : F.fraction_fraction_1.tparams = [N.«Rep», N.«Ops»] :=
  rfl
@[pick, exec_header] theorem fraction_fraction_1_params : F.fraction_fraction_1.params = [⟨(.name
  N.«raw_fraction_type»), N.«raw», none⟩] := rfl
@[pick] theorem fraction_fraction_1_isConst : F.fraction_fraction_1.isConst = false := rfl
@[exec_header] theorem fraction_fraction_1_ret : F.fraction_fraction_1.ret = (.name N.«void») :=
  rfl
@[exec_header] theorem fraction_fraction_1_body : F.fraction_fraction_1.body = (some (.init
  N.«raw_» (.cons (.var 0 N.«raw») .nil) .nil)) := rfl
@[pick] theorem fraction_fraction_1_score : F.fraction_fraction_1.score = 2 := rfl
@[exec_header] theorem fraction_fraction_1_isCtor : F.fraction_fraction_1.isCtor = true := rfl
@[pick] theorem fraction_fraction_2_tparams : F.fraction_fraction_2.tparams = [N.«Rep», N.«Ops»] :=
  rfl
@[pick, exec_header] theorem fraction_fraction_2_params : F.fraction_fraction_2.params = [⟨(.name
  N.«Rep»), N.«numerator», none⟩, ⟨(.name N.«Rep»), N.«denominator», (some (.num 1))⟩] := rfl
@[pick] theorem fraction_fraction_2_isConst : F.fraction_fraction_2.isConst = false := rfl
@[exec_header] theorem fraction_fraction_2_ret : F.fraction_fraction_2.ret = (.name N.«void») :=
  rfl
@[exec_header] theorem fraction_fraction_2_body : F.fraction_fraction_2.body = (some (.init
  N.«raw_» (.cons (.var 0 N.«numerator») (.cons (.var 0 N.«denominator») .nil)) .nil)) := rfl
@[pick] theorem fraction_fraction_2_score : F.fraction_fraction_2.score = 202 := rfl
@[exec_header] theorem fraction_fraction_2_isCtor : F.fraction_fraction_2.isCtor = true := rfl
@[pick] theorem fraction_fraction_3_tparams : F.fraction_fraction_3.tparams = [N.«Rep», N.«Ops»,
  N.«OtherRep»] := rfl
@[pick, exec_header] theorem fraction_fraction_3_params : F.fraction_fraction_3.params = [⟨(.app2
  N.«fraction» (.name N.«OtherRep») (.name N.«Ops»)), N.«other», none⟩] := rfl
@[pick] theorem fraction_fraction_3_isConst : F.fraction_fraction_3.isConst = false := rfl
@[exec_header] theorem fraction_fraction_3_ret : F.fraction_fraction_3.ret = (.name N.«void») :=
  rfl
@[exec_header] theorem fraction_fraction_3_body : F.fraction_fraction_3.body = (some (.init
  N.«raw_» (.cons (.method (.var 0 N.«other») N.«raw») .nil) .nil)) := rfl
@[pick] theorem fraction_fraction_3_score : F.fraction_fraction_3.score = 3 := rfl
@[exec_header] theorem fraction_fraction_3_isCtor : F.fraction_fraction_3.isCtor = true := rfl
@[pick] theorem fraction_fraction_4_tparams : F.fraction_fraction_4.tparams = [N.«Rep», N.«Ops»,
  N.«OtherRep», N.«OtherOps»] := rfl
@[pick, exec_header] theorem fraction_fraction_4_params : F.fraction_fraction_4.params = [⟨(.app2
  N.«fraction» (.name N.«OtherRep») (.name N.«OtherOps»)), N.«other», none⟩] := rfl
@[pick] theorem fraction_fraction_4_isConst : F.fraction_fraction_4.isConst = false := rfl
@[exec_header] theorem fraction_fraction_4_ret : F.fraction_fraction_4.ret = (.name N.«void») :=
  rfl
@[exec_header] theorem fraction_fraction_4_body : F.fraction_fraction_4.body = (some (.init
  N.«raw_» (.cons (.method (.var 0 N.«other») N.«raw») .nil) .nil)) := rfl
@[pick] theorem fraction_fraction_4_score : F.fraction_fraction_4.score = 4 := rfl
@[exec_header] theorem fraction_fraction_4_isCtor : F.fraction_fraction_4.isCtor = true := rfl
@[pick] theorem fraction_numerator_1_tparams : F.fraction_numerator_1.tparams = [N.«Rep», N.«Ops»]
  := rfl
@[pick, exec_header] theorem fraction_numerator_1_params : F.fraction_numerator_1.params = [] :=
  rfl
@[pick] theorem fraction_numerator_1_isConst : F.fraction_numerator_1.isConst = true := rfl
@[exec_header] theorem fraction_numerator_1_ret : F.fraction_numerator_1.ret = (.name N.«Rep») :=
  rfl
@[exec_header] theorem fraction_numerator_1_body : F.fraction_numerator_1.body = (some (.ret (.mem
  (.var 0 N.«raw_») N.«numerator») .nil)) := rfl
@[pick] theorem fraction_numerator_1_score : F.fraction_numerator_1.score = 2 := rfl
@[exec_header] theorem fraction_numerator_1_isCtor : F.fraction_numerator_1.isCtor = false := rfl
@[pick] theorem fraction_numerator_2_tparams : F.fraction_numerator_2.tparams = [N.«Rep», N.«Ops»]
  := rfl
@[pick, exec_header] theorem fraction_numerator_2_params : F.fraction_numerator_2.params = [] :=
  rfl
@[pick] theorem fraction_numerator_2_isConst : F.fraction_numerator_2.isConst = false := rfl
@[exec_header] theorem fraction_numerator_2_ret : F.fraction_numerator_2.ret = (.name N.«Rep») :=
  rfl
@[exec_header] theorem fraction_numerator_2_body : F.fraction_numerator_2.body = (some (.ret (.mem
  (.var 0 N.«raw_») N.«numerator») .nil)) := rfl
@[pick] theorem fraction_numerator_2_score : F.fraction_numerator_2.score = 2 := rfl
@[exec_header] theorem fraction_numerator_2_isCtor : F.fraction_numerator_2.isCtor = false := rfl
@[pick] theorem fraction_denominator_1_tparams : F.fraction_denominator_1.tparams = [N.«Rep»,
  N.«Ops»] := rfl
@[pick, exec_header] theorem fraction_denominator_1_params : F.fraction_denominator_1.params = []
  := rfl
@[pick] theorem fraction_denominator_1_isConst : F.fraction_denominator_1.isConst = true := rfl
@[exec_header] theorem fraction_denominator_1_ret : F.fraction_denominator_1.ret = (.name N.«Rep»)
  := rfl
@[exec_header] theorem fraction_denominator_1_body : F.fraction_denominator_1.body = (some (.ret
  (.mem (.var 0 N.«raw_») N.«denominator») .nil)) := rfl
@[pick] theorem fraction_denominator_1_score : F.fraction_denominator_1.score = 2 := rfl
@[exec_header] theorem fraction_denominator_1_isCtor : F.fraction_denominator_1.isCtor = false := rfl
@[pick] theorem fraction_denominator_2_tparams : F.fraction_denominator_2.tparams = [N.«Rep»,
  N.«Ops»] := rfl
@[pick, exec_header] theorem fraction_denominator_2_params : F.fraction_denominator_2.params = []
  := rfl
@[pick] theorem fraction_denominator_2_isConst : F.fraction_denominator_2.isConst = false := rfl
@[exec_header] theorem fraction_denominator_2_ret : F.fraction_denominator_2.ret = (.name N.«Rep»)
  := rfl
@[exec_header] theorem fraction_denominator_2_body : F.fraction_denominator_2.body = (some (.ret
  (.mem (.var 0 N.«raw_») N.«denominator») .nil)) := rfl
@[pick] theorem fraction_denominator_2_score : F.fraction_denominator_2.score = 2 := rfl
@[exec_header] theorem fraction_denominator_2_isCtor : F.fraction_denominator_2.isCtor = false := rfl
@[pick] theorem op_add_1_tparams : F.op_add_1.tparams = [N.«Rep», N.«Ops»] := rfl
@[pick, exec_header] theorem op_add_1_params : F.op_add_1.params = [⟨(.app2 N.«fraction» (.name
  N.«Rep») (.name N.«Ops»)), N.«value», none⟩] := rfl
@[pick] theorem op_add_1_isConst : F.op_add_1.isConst = false := rfl
@[exec_header] theorem op_add_1_ret : F.op_add_1.ret = (.app2 N.«fraction» (.name N.«Rep») (.name
  N.«Ops»)) := rfl
@[exec_header] theorem op_add_1_body : F.op_add_1.body = (some (.ret (.var 0 N.«value») .nil)) :=
  rfl
@[pick] theorem op_add_1_score : F.op_add_1.score = 2 := rfl
@[exec_header] theorem op_add_1_isCtor : F.op_add_1.isCtor = false := rfl
@[pick] theorem op_sub_1_tparams : F.op_sub_1.tparams = [N.«Rep», N.«Ops»] := rfl
@[pick, exec_header] theorem op_sub_1_params : F.op_sub_1.params = [⟨(.app2 N.«fraction» (.name
  N.«Rep») (.name N.«Ops»)), N.«value», none⟩] := rfl
@[pick] theorem op_sub_1_isConst : F.op_sub_1.isConst = false := rfl
@[exec_header] theorem op_sub_1_ret : F.op_sub_1.ret = (.app2 N.«fraction» (.name N.«Rep») (.name
  N.«Ops»)) := rfl
@[exec_header] theorem op_sub_1_body : F.op_sub_1.body = (some (.ret (.call N.«Ops» N.«negate» []
  (.cons (.method (.var 0 N.«value») N.«raw») .nil)) .nil)) := rfl
@[pick] theorem op_sub_1_score : F.op_sub_1.score = 2 := rfl
@[exec_header] theorem op_sub_1_isCtor : F.op_sub_1.isCtor = false := rfl
@[pick] theorem op_add_2_tparams : F.op_add_2.tparams = [N.«LeftRep», N.«RightRep», N.«Ops»] := rfl
@[pick, exec_header] theorem op_add_2_params : F.op_add_2.params = [⟨(.app2 N.«fraction» (.name
  N.«LeftRep») (.name N.«Ops»)), N.«left», none⟩, ⟨(.app2 N.«fraction» (.name N.«RightRep») (.name
  N.«Ops»)), N.«right», none⟩] := rfl
@[pick] theorem op_add_2_isConst : F.op_add_2.isConst = false := rfl
@[exec_header] theorem op_add_2_ret : F.op_add_2.ret = (.app2 N.«fraction» (.app2
  N.«std::common_type_t» (.name N.«LeftRep») (.name N.«RightRep»)) (.name N.«Ops»)) := rfl
@[exec_header] theorem op_add_2_body : F.op_add_2.body = (some (.using N.«common_rep_type» (.app2
  N.«std::common_type_t» (.name N.«LeftRep») (.name N.«RightRep»)) (.using N.«common_raw_type»
  (.app1 N.«raw_fraction» (.name N.«common_rep_type»)) (.ite (.call N.«std» N.«is_same_v» [(.name
  N.«LeftRep»), (.name N.«RightRep»)] .nil) (.ret (.call N.«Ops» N.«plus» [] (.cons (.method (.var
  0 N.«left») N.«raw») (.cons (.method (.var 0 N.«right») N.«raw») .nil))) .nil) (.ite (.call
  N.«std» N.«is_same_v» [(.name N.«LeftRep»), (.name N.«common_rep_type»)] .nil) (.ret (.call
  N.«Ops» N.«plus» [] (.cons (.method (.var 0 N.«left») N.«raw») (.cons (.cast (.name
  N.«common_raw_type») (.method (.var 0 N.«right») N.«raw»)) .nil))) .nil) (.ite (.call N.«std»
  N.«is_same_v» [(.name N.«RightRep»), (.name N.«common_rep_type»)] .nil) (.ret (.call N.«Ops»
  N.«plus» [] (.cons (.cast (.name N.«common_raw_type») (.method (.var 0 N.«left») N.«raw»)) (.cons
  (.method (.var 0 N.«right») N.«raw») .nil))) .nil) (.ret (.call N.«Ops» N.«plus» [] (.cons (.cast
  (.name N.«common_raw_type») (.method (.var 0 N.«left») N.«raw»)) (.cons (.cast (.name
  N.«common_raw_type») (.method (.var 0 N.«right») N.«raw»)) .nil))) .nil) .nil) .nil) .nil)))) :=
  rfl
@[pick] theorem op_add_2_score : F.op_add_2.score = 3 := rfl
@[exec_header] theorem op_add_2_isCtor : F.op_add_2.isCtor = false := rfl
@[pick] theorem op_add_3_tparams : F.op_add_3.tparams = [N.«LeftRep», N.«RightRep», N.«Ops»] := rfl
@[pick, exec_header] theorem op_add_3_params : F.op_add_3.params = [⟨(.app2 N.«fraction» (.name
  N.«LeftRep») (.name N.«Ops»)), N.«left», none⟩, ⟨(.name N.«RightRep»), N.«right», none⟩] := rfl
@[pick] theorem op_add_3_isConst : F.op_add_3.isConst = false := rfl
@[exec_header] theorem op_add_3_ret : F.op_add_3.ret = (.app2 N.«fraction» (.app2
  N.«std::common_type_t» (.name N.«LeftRep») (.name N.«RightRep»)) (.name N.«Ops»)) := rfl
@[exec_header] theorem op_add_3_body : F.op_add_3.body = (some (.using N.«common_rep_type» (.app2
  N.«std::common_type_t» (.name N.«LeftRep») (.name N.«RightRep»)) (.using N.«common_raw_type»
  (.app1 N.«raw_fraction» (.name N.«common_rep_type»)) (.ite (.call N.«std» N.«is_same_v» [(.name
  N.«LeftRep»), (.name N.«RightRep»)] .nil) (.ret (.call N.«Ops» N.«plus» [] (.cons (.method (.var
  0 N.«left») N.«raw») (.cons (.var 0 N.«right») .nil))) .nil) (.ite (.call N.«std» N.«is_same_v»
  [(.name N.«LeftRep»), (.name N.«common_rep_type»)] .nil) (.ret (.call N.«Ops» N.«plus» [] (.cons
  (.method (.var 0 N.«left») N.«raw») (.cons (.cast (.name N.«common_rep_type») (.var 0 N.«right»))
  .nil))) .nil) (.ite (.call N.«std» N.«is_same_v» [(.name N.«RightRep»), (.name
  N.«common_rep_type»)] .nil) (.ret (.call N.«Ops» N.«plus» [] (.cons (.cast (.name
  N.«common_raw_type») (.method (.var 0 N.«left») N.«raw»)) (.cons (.var 0 N.«right») .nil))) .nil)
  (.ret (.call N.«Ops» N.«plus» [] (.cons (.cast (.name N.«common_raw_type») (.method (.var 0
  N.«left») N.«raw»)) (.cons (.cast (.name N.«common_rep_type») (.var 0 N.«right»)) .nil))) .nil)
  .nil) .nil) .nil)))) := rfl
@[pick] theorem op_add_3_score : F.op_add_3.score = 103 := rfl
@[exec_header] theorem op_add_3_isCtor : F.op_add_3.isCtor = false := rfl
@[pick] theorem op_add_4_tparams : F.op_add_4.tparams = [N.«LeftRep», N.«RightRep», N.«Ops»] := rfl
@[pick, exec_header] theorem op_add_4_params : F.op_add_4.params = [⟨(.name N.«LeftRep»), N.«left»,
  none⟩, ⟨(.app2 N.«fraction» (.name N.«RightRep») (.name N.«Ops»)), N.«right», none⟩] := rfl
@[pick] theorem op_add_4_isConst : F.op_add_4.isConst = false := rfl
@[exec_header] theorem op_add_4_ret : F.op_add_4.ret = (.app2 N.«fraction» (.app2
  N.«std::common_type_t» (.name N.«LeftRep») (.name N.«RightRep»)) (.name N.«Ops»)) := rfl
@[exec_header] theorem op_add_4_body : F.op_add_4.body = (some (.using N.«common_rep_type» (.app2
  N.«std::common_type_t» (.name N.«LeftRep») (.name N.«RightRep»)) (.using N.«common_raw_type»
  (.app1 N.«raw_fraction» (.name N.«common_rep_type»)) (.ite (.call N.«std» N.«is_same_v» [(.name
  N.«LeftRep»), (.name N.«RightRep»)] .nil) (.ret (.call N.«Ops» N.«plus» [] (.cons (.var 0
  N.«left») (.cons (.method (.var 0 N.«right») N.«raw») .nil))) .nil) (.ite (.call N.«std»
  N.«is_same_v» [(.name N.«LeftRep»), (.name N.«common_rep_type»)] .nil) (.ret (.call N.«Ops»
  N.«plus» [] (.cons (.var 0 N.«left») (.cons (.cast (.name N.«common_raw_type») (.method (.var 0
  N.«right») N.«raw»)) .nil))) .nil) (.ite (.call N.«std» N.«is_same_v» [(.name N.«RightRep»),
  (.name N.«common_rep_type»)] .nil) (.ret (.call N.«Ops» N.«plus» [] (.cons (.cast (.name
  N.«common_rep_type») (.var 0 N.«left»)) (.cons (.method (.var 0 N.«right») N.«raw») .nil))) .nil)
  (.ret (.call N.«Ops» N.«plus» [] (.cons (.cast (.name N.«common_rep_type») (.var 0 N.«left»))
  (.cons (.cast (.name N.«common_raw_type») (.method (.var 0 N.«right») N.«raw»)) .nil))) .nil)
  .nil) .nil) .nil)))) := rfl
@[pick] theorem op_add_4_score : F.op_add_4.score = 103 := rfl
@[exec_header] theorem op_add_4_isCtor : F.op_add_4.isCtor = false := rfl
@[pick] theorem op_sub_2_tparams : F.op_sub_2.tparams = [N.«LeftRep», N.«RightRep», N.«Ops»] := rfl
@[pick, exec_header] theorem op_sub_2_params : F.op_sub_2.params = [⟨(.app2 N.«fraction» (.name
  N.«LeftRep») (.name N.«Ops»)), N.«left», none⟩, ⟨(.app2 N.«fraction» (.name N.«RightRep») (.name
  N.«Ops»)), N.«right», none⟩] := rfl
@[pick] theorem op_sub_2_isConst : F.op_sub_2.isConst = false := rfl
@[exec_header] theorem op_sub_2_ret : F.op_sub_2.ret = (.app2 N.«fraction» (.app2
  N.«std::common_type_t» (.name N.«LeftRep») (.name N.«RightRep»)) (.name N.«Ops»)) := rfl
@[exec_header] theorem op_sub_2_body : F.op_sub_2.body = (some (.using N.«common_rep_type» (.app2
  N.«std::common_type_t» (.name N.«LeftRep») (.name N.«RightRep»)) (.using N.«common_raw_type»
  (.app1 N.«raw_fraction» (.name N.«common_rep_type»)) (.ite (.call N.«std» N.«is_same_v» [(.name
  N.«LeftRep»), (.name N.«RightRep»)] .nil) (.ret (.call N.«Ops» N.«minus» [] (.cons (.method (.var
  0 N.«left») N.«raw») (.cons (.method (.var 0 N.«right») N.«raw») .nil))) .nil) (.ite (.call
  N.«std» N.«is_same_v» [(.name N.«LeftRep»), (.name N.«common_rep_type»)] .nil) (.ret (.call
  N.«Ops» N.«minus» [] (.cons (.method (.var 0 N.«left») N.«raw») (.cons (.cast (.name
  N.«common_raw_type») (.method (.var 0 N.«right») N.«raw»)) .nil))) .nil) (.ite (.call N.«std»
  N.«is_same_v» [(.name N.«RightRep»), (.name N.«common_rep_type»)] .nil) (.ret (.call N.«Ops»
  N.«minus» [] (.cons (.cast (.name N.«common_raw_type») (.method (.var 0 N.«left») N.«raw»))
  (.cons (.method (.var 0 N.«right») N.«raw») .nil))) .nil) (.ret (.call N.«Ops» N.«minus» []
  (.cons (.cast (.name N.«common_raw_type») (.method (.var 0 N.«left») N.«raw»)) (.cons (.cast
  (.name N.«common_raw_type») (.method (.var 0 N.«right») N.«raw»)) .nil))) .nil) .nil) .nil)
  .nil)))) := rfl
@[pick] theorem op_sub_2_score : F.op_sub_2.score = 3 := rfl
@[exec_header] theorem op_sub_2_isCtor : F.op_sub_2.isCtor = false := rfl
@[pick] theorem op_sub_3_tparams : F.op_sub_3.tparams = [N.«LeftRep», N.«RightRep», N.«Ops»] := rfl
@[pick, exec_header] theorem op_sub_3_params : F.op_sub_3.params = [⟨(.app2 N.«fraction» (.name
  N.«LeftRep») (.name N.«Ops»)), N.«left», none⟩, ⟨(.name N.«RightRep»), N.«right», none⟩] := rfl
@[pick] theorem op_sub_3_isConst : F.op_sub_3.isConst = false := rfl
@[exec_header] theorem op_sub_3_ret : F.op_sub_3.ret = (.app2 N.«fraction» (.app2
  N.«std::common_type_t» (.name N.«LeftRep») (.name N.«RightRep»)) (.name N.«Ops»)) := rfl
@[exec_header] theorem op_sub_3_body : F.op_sub_3.body = (some (.using N.«common_rep_type» (.app2
  N.«std::common_type_t» (.name N.«LeftRep») (.name N.«RightRep»)) (.using N.«common_raw_type»
  (.app1 N.«raw_fraction» (.name N.«common_rep_type»)) (.ite (.call N.«std» N.«is_same_v» [(.name
  N.«LeftRep»), (.name N.«RightRep»)] .nil) (.ret (.call N.«Ops» N.«minus» [] (.cons (.method (.var
  0 N.«left») N.«raw») (.cons (.var 0 N.«right») .nil))) .nil) (.ite (.call N.«std» N.«is_same_v»
  [(.name N.«LeftRep»), (.name N.«common_rep_type»)] .nil) (.ret (.call N.«Ops» N.«minus» [] (.cons
  (.method (.var 0 N.«left») N.«raw») (.cons (.cast (.name N.«common_rep_type») (.var 0 N.«right»))
  .nil))) .nil) (.ite (.call N.«std» N.«is_same_v» [(.name N.«RightRep»), (.name
  N.«common_rep_type»)] .nil) (.ret (.call N.«Ops» N.«minus» [] (.cons (.cast (.name
  N.«common_raw_type») (.method (.var 0 N.«left») N.«raw»)) (.cons (.var 0 N.«right») .nil))) .nil)
  (.ret (.call N.«Ops» N.«minus» [] (.cons (.cast (.name N.«common_raw_type») (.method (.var 0
  N.«left») N.«raw»)) (.cons (.cast (.name N.«common_rep_type») (.var 0 N.«right»)) .nil))) .nil)
  .nil) .nil) .nil)))) := rfl
@[pick] theorem op_sub_3_score : F.op_sub_3.score = 103 := rfl
@[exec_header] theorem op_sub_3_isCtor : F.op_sub_3.isCtor = false := rfl
@[pick] theorem op_sub_4_tparams : F.op_sub_4.tparams = [N.«LeftRep», N.«RightRep», N.«Ops»] := rfl
@[pick, exec_header] theorem op_sub_4_params : F.op_sub_4.params = [⟨(.name N.«LeftRep»), N.«left»,
  none⟩, ⟨(.app2 N.«fraction» (.name N.«RightRep») (.name N.«Ops»)), N.«right», none⟩] := rfl
@[pick] theorem op_sub_4_isConst : F.op_sub_4.isConst = false := rfl
@[exec_header] theorem op_sub_4_ret : F.op_sub_4.ret = (.app2 N.«fraction» (.app2
  N.«std::common_type_t» (.name N.«LeftRep») (.name N.«RightRep»)) (.name N.«Ops»)) := rfl
@[exec_header] theorem op_sub_4_body : F.op_sub_4.body = (some (.using N.«common_rep_type» (.app2
  N.«std::common_type_t» (.name N.«LeftRep») (.name N.«RightRep»)) (.using N.«common_raw_type»
  (.app1 N.«raw_fraction» (.name N.«common_rep_type»)) (.ite (.call N.«std» N.«is_same_v» [(.name
  N.«LeftRep»), (.name N.«RightRep»)] .nil) (.ret (.call N.«Ops» N.«minus» [] (.cons (.var 0
  N.«left») (.cons (.method (.var 0 N.«right») N.«raw») .nil))) .nil) (.ite (.call N.«std»
  N.«is_same_v» [(.name N.«LeftRep»), (.name N.«common_rep_type»)] .nil) (.ret (.call N.«Ops»
  N.«minus» [] (.cons (.var 0 N.«left») (.cons (.cast (.name N.«common_raw_type») (.method (.var 0
  N.«right») N.«raw»)) .nil))) .nil) (.ite (.call N.«std» N.«is_same_v» [(.name N.«RightRep»),
  (.name N.«common_rep_type»)] .nil) (.ret (.call N.«Ops» N.«minus» [] (.cons (.cast (.name
  N.«common_rep_type») (.var 0 N.«left»)) (.cons (.method (.var 0 N.«right») N.«raw») .nil))) .nil)
  (.ret (.call N.«Ops» N.«minus» [] (.cons (.cast (.name N.«common_rep_type») (.var 0 N.«left»))
  (.cons (.cast (.name N.«common_raw_type») (.method (.var 0 N.«right») N.«raw»)) .nil))) .nil)
  .nil) .nil) .nil)))) := rfl
@[pick] theorem op_sub_4_score : F.op_sub_4.score = 103 := rfl
@[exec_header] theorem op_sub_4_isCtor : F.op_sub_4.isCtor = false := rfl
@[pick] theorem op_mul_1_tparams : F.op_mul_1.tparams = [N.«LeftRep», N.«RightRep», N.«Ops»] := rfl
@[pick, exec_header] theorem op_mul_1_params : F.op_mul_1.params = [⟨(.app2 N.«fraction» (.name
  N.«LeftRep») (.name N.«Ops»)), N.«left», none⟩, ⟨(.app2 N.«fraction» (.name N.«RightRep») (.name
  N.«Ops»)), N.«right», none⟩] := rfl
@[pick] theorem op_mul_1_isConst : F.op_mul_1.isConst = false := rfl
@[exec_header] theorem op_mul_1_ret : F.op_mul_1.ret = (.app2 N.«fraction» (.app2
  N.«std::common_type_t» (.name N.«LeftRep») (.name N.«RightRep»)) (.name N.«Ops»)) := rfl
@[exec_header] theorem op_mul_1_body : F.op_mul_1.body = (some (.using N.«common_rep_type» (.app2
  N.«std::common_type_t» (.name N.«LeftRep») (.name N.«RightRep»)) (.using N.«common_raw_type»
  (.app1 N.«raw_fraction» (.name N.«common_rep_type»)) (.ite (.call N.«std» N.«is_same_v» [(.name
  N.«LeftRep»), (.name N.«RightRep»)] .nil) (.ret (.call N.«Ops» N.«multiplies» [] (.cons (.method
  (.var 0 N.«left») N.«raw») (.cons (.method (.var 0 N.«right») N.«raw») .nil))) .nil) (.ite (.call
  N.«std» N.«is_same_v» [(.name N.«LeftRep»), (.name N.«common_rep_type»)] .nil) (.ret (.call
  N.«Ops» N.«multiplies» [] (.cons (.method (.var 0 N.«left») N.«raw») (.cons (.cast (.name
  N.«common_raw_type») (.method (.var 0 N.«right») N.«raw»)) .nil))) .nil) (.ite (.call N.«std»
  N.«is_same_v» [(.name N.«RightRep»), (.name N.«common_rep_type»)] .nil) (.ret (.call N.«Ops»
  N.«multiplies» [] (.cons (.cast (.name N.«common_raw_type») (.method (.var 0 N.«left») N.«raw»))
  (.cons (.method (.var 0 N.«right») N.«raw») .nil))) .nil) (.ret (.call N.«Ops» N.«multiplies» []
  (.cons (.cast (.name N.«common_raw_type») (.method (.var 0 N.«left») N.«raw»)) (.cons (.cast
  (.name N.«common_raw_type») (.method (.var 0 N.«right») N.«raw»)) .nil))) .nil) .nil) .nil)
  .nil)))) := rfl
@[pick] theorem op_mul_1_score : F.op_mul_1.score = 3 := rfl
@[exec_header] theorem op_mul_1_isCtor : F.op_mul_1.isCtor = false := rfl
@[pick] theorem op_mul_2_tparams : F.op_mul_2.tparams = [N.«LeftRep», N.«RightRep», N.«Ops»] := rfl
@[pick, exec_header] theorem op_mul_2_params : F.op_mul_2.params = [⟨(.app2 N.«fraction» (.name
  N.«LeftRep») (.name N.«Ops»)), N.«left», none⟩, ⟨(.name N.«RightRep»), N.«right», none⟩] := rfl
@[pick] theorem op_mul_2_isConst : F.op_mul_2.isConst = false := rfl
@[exec_header] theorem op_mul_2_ret : F.op_mul_2.ret = (.app2 N.«fraction» (.app2
  N.«std::common_type_t» (.name N.«LeftRep») (.name N.«RightRep»)) (.name N.«Ops»)) := rfl
@[exec_header] theorem op_mul_2_body : F.op_mul_2.body = (some (.using N.«common_rep_type» (.app2
  N.«std::common_type_t» (.name N.«LeftRep») (.name N.«RightRep»)) (.using N.«common_raw_type»
  (.app1 N.«raw_fraction» (.name N.«common_rep_type»)) (.ite (.call N.«std» N.«is_same_v» [(.name
  N.«LeftRep»), (.name N.«RightRep»)] .nil) (.ret (.call N.«Ops» N.«multiplies» [] (.cons (.method
  (.var 0 N.«left») N.«raw») (.cons (.var 0 N.«right») .nil))) .nil) (.ite (.call N.«std»
  N.«is_same_v» [(.name N.«LeftRep»), (.name N.«common_rep_type»)] .nil) (.ret (.call N.«Ops»
  N.«multiplies» [] (.cons (.method (.var 0 N.«left») N.«raw») (.cons (.cast (.name
  N.«common_rep_type») (.var 0 N.«right»)) .nil))) .nil) (.ite (.call N.«std» N.«is_same_v» [(.name
  N.«RightRep»), (.name N.«common_rep_type»)] .nil) (.ret (.call N.«Ops» N.«multiplies» [] (.cons
  (.cast (.name N.«common_raw_type») (.method (.var 0 N.«left») N.«raw»)) (.cons (.var 0 N.«right»)
  .nil))) .nil) (.ret (.call N.«Ops» N.«multiplies» [] (.cons (.cast (.name N.«common_raw_type»)
  (.method (.var 0 N.«left») N.«raw»)) (.cons (.cast (.name N.«common_rep_type») (.var 0
  N.«right»)) .nil))) .nil) .nil) .nil) .nil)))) := rfl
@[pick] theorem op_mul_2_score : F.op_mul_2.score = 103 := rfl
@[exec_header] theorem op_mul_2_isCtor : F.op_mul_2.isCtor = false := rfl
@[pick] theorem op_mul_3_tparams : F.op_mul_3.tparams = [N.«LeftRep», N.«RightRep», N.«Ops»] := rfl
@[pick, exec_header] theorem op_mul_3_params : F.op_mul_3.params = [⟨(.name N.«LeftRep»), N.«left»,
  none⟩, ⟨(.app2 N.«fraction» (.name N.«RightRep») (.name N.«Ops»)), N.«right», none⟩] := rfl
@[pick] theorem op_mul_3_isConst : F.op_mul_3.isConst = false := rfl
@[exec_header] theorem op_mul_3_ret : F.op_mul_3.ret = (.app2 N.«fraction» (.app2
  N.«std::common_type_t» (.name N.«LeftRep») (.name N.«RightRep»)) (.name N.«Ops»)) := rfl
@[exec_header] theorem op_mul_3_body : F.op_mul_3.body = (some (.using N.«common_rep_type» (.app2
  N.«std::common_type_t» (.name N.«LeftRep») (.name N.«RightRep»)) (.using N.«common_raw_type»
  (.app1 N.«raw_fraction» (.name N.«common_rep_type»)) (.ite (.call N.«std» N.«is_same_v» [(.name
  N.«LeftRep»), (.name N.«RightRep»)] .nil) (.ret (.call N.«Ops» N.«multiplies» [] (.cons (.var 0
  N.«left») (.cons (.method (.var 0 N.«right») N.«raw») .nil))) .nil) (.ite (.call N.«std»
  N.«is_same_v» [(.name N.«LeftRep»), (.name N.«common_rep_type»)] .nil) (.ret (.call N.«Ops»
  N.«multiplies» [] (.cons (.var 0 N.«left») (.cons (.cast (.name N.«common_raw_type») (.method
  (.var 0 N.«right») N.«raw»)) .nil))) .nil) (.ite (.call N.«std» N.«is_same_v» [(.name
  N.«RightRep»), (.name N.«common_rep_type»)] .nil) (.ret (.call N.«Ops» N.«multiplies» [] (.cons
  (.cast (.name N.«common_rep_type») (.var 0 N.«left»)) (.cons (.method (.var 0 N.«right») N.«raw»)
  .nil))) .nil) (.ret (.call N.«Ops» N.«multiplies» [] (.cons (.cast (.name N.«common_rep_type»)
  (.var 0 N.«left»)) (.cons (.cast (.name N.«common_raw_type») (.method (.var 0 N.«right»)
  N.«raw»)) .nil))) .nil) .nil) .nil) .nil)))) := rfl
@[pick] theorem op_mul_3_score : F.op_mul_3.score = 103 := rfl
@[exec_header] theorem op_mul_3_isCtor : F.op_mul_3.isCtor = false := rfl
@[pick] theorem op_div_1_tparams : F.op_div_1.tparams = [N.«LeftRep», N.«RightRep», N.«Ops»] := rfl
@[pick, exec_header] theorem op_div_1_params : F.op_div_1.params = [⟨(.app2 N.«fraction» (.name
  N.«LeftRep») (.name N.«Ops»)), N.«left», none⟩, ⟨(.app2 N.«fraction» (.name N.«RightRep») (.name
  N.«Ops»)), N.«right», none⟩] := rfl
@[pick] theorem op_div_1_isConst : F.op_div_1.isConst = false := rfl
@[exec_header] theorem op_div_1_ret : F.op_div_1.ret = (.app2 N.«fraction» (.app2
  N.«std::common_type_t» (.name N.«LeftRep») (.name N.«RightRep»)) (.name N.«Ops»)) := rfl
@[exec_header] theorem op_div_1_body : F.op_div_1.body = (some (.using N.«common_rep_type» (.app2
  N.«std::common_type_t» (.name N.«LeftRep») (.name N.«RightRep»)) (.using N.«common_raw_type»
  (.app1 N.«raw_fraction» (.name N.«common_rep_type»)) (.ite (.call N.«std» N.«is_same_v» [(.name
  N.«LeftRep»), (.name N.«RightRep»)] .nil) (.ret (.call N.«Ops» N.«divides» [] (.cons (.method
  (.var 0 N.«left») N.«raw») (.cons (.method (.var 0 N.«right») N.«raw») .nil))) .nil) (.ite (.call
  N.«std» N.«is_same_v» [(.name N.«LeftRep»), (.name N.«common_rep_type»)] .nil) (.ret (.call
  N.«Ops» N.«divides» [] (.cons (.method (.var 0 N.«left») N.«raw») (.cons (.cast (.name
  N.«common_raw_type») (.method (.var 0 N.«right») N.«raw»)) .nil))) .nil) (.ite (.call N.«std»
  N.«is_same_v» [(.name N.«RightRep»), (.name N.«common_rep_type»)] .nil) (.ret (.call N.«Ops»
  N.«divides» [] (.cons (.cast (.name N.«common_raw_type») (.method (.var 0 N.«left») N.«raw»))
  (.cons (.method (.var 0 N.«right») N.«raw») .nil))) .nil) (.ret (.call N.«Ops» N.«divides» []
  (.cons (.cast (.name N.«common_raw_type») (.method (.var 0 N.«left») N.«raw»)) (.cons (.cast
  (.name N.«common_raw_type») (.method (.var 0 N.«right») N.«raw»)) .nil))) .nil) .nil) .nil)
  .nil)))) := rfl
@[pick] theorem op_div_1_score : F.op_div_1.score = 3 := rfl
@[exec_header] theorem op_div_1_isCtor : F.op_div_1.isCtor = false := rfl
@[pick] theorem op_div_2_tparams : F.op_div_2.tparams = [N.«LeftRep», N.«RightRep», N.«Ops»] := rfl
@[pick, exec_header] theorem op_div_2_params : F.op_div_2.params = [⟨(.app2 N.«fraction» (.name
  N.«LeftRep») (.name N.«Ops»)), N.«left», none⟩, ⟨(.name N.«RightRep»), N.«right», none⟩] := rfl
@[pick] theorem op_div_2_isConst : F.op_div_2.isConst = false := rfl
@[exec_header] theorem op_div_2_ret : F.op_div_2.ret = (.app2 N.«fraction» (.app2
  N.«std::common_type_t» (.name N.«LeftRep») (.name N.«RightRep»)) (.name N.«Ops»)) := rfl
@[exec_header] theorem op_div_2_body : F.op_div_2.body = (some (.using N.«common_rep_type» (.app2
  N.«std::common_type_t» (.name N.«LeftRep») (.name N.«RightRep»)) (.using N.«common_raw_type»
  (.app1 N.«raw_fraction» (.name N.«common_rep_type»)) (.ite (.call N.«std» N.«is_same_v» [(.name
  N.«LeftRep»), (.name N.«RightRep»)] .nil) (.ret (.call N.«Ops» N.«divides» [] (.cons (.method
  (.var 0 N.«left») N.«raw») (.cons (.var 0 N.«right») .nil))) .nil) (.ite (.call N.«std»
  N.«is_same_v» [(.name N.«LeftRep»), (.name N.«common_rep_type»)] .nil) (.ret (.call N.«Ops»
  N.«divides» [] (.cons (.method (.var 0 N.«left») N.«raw») (.cons (.cast (.name
  N.«common_rep_type») (.var 0 N.«right»)) .nil))) .nil) (.ite (.call N.«std» N.«is_same_v» [(.name
  N.«RightRep»), (.name N.«common_rep_type»)] .nil) (.ret (.call N.«Ops» N.«divides» [] (.cons
  (.cast (.name N.«common_raw_type») (.method (.var 0 N.«left») N.«raw»)) (.cons (.var 0 N.«right»)
  .nil))) .nil) (.ret (.call N.«Ops» N.«divides» [] (.cons (.cast (.name N.«common_raw_type»)
  (.method (.var 0 N.«left») N.«raw»)) (.cons (.cast (.name N.«common_rep_type») (.var 0
  N.«right»)) .nil))) .nil) .nil) .nil) .nil)))) := rfl
@[pick] theorem op_div_2_score : F.op_div_2.score = 103 := rfl
@[exec_header] theorem op_div_2_isCtor : F.op_div_2.isCtor = false := rfl
@[pick] theorem op_div_3_tparams : F.op_div_3.tparams = [N.«LeftRep», N.«RightRep», N.«Ops»] := rfl
@[pick, exec_header] theorem op_div_3_params : F.op_div_3.params = [⟨(.name N.«LeftRep»), N.«left»,
  none⟩, ⟨(.app2 N.«fraction» (.name N.«RightRep») (.name N.«Ops»)), N.«right», none⟩] := rfl
@[pick] theorem op_div_3_isConst : F.op_div_3.isConst = false := rfl
@[exec_header] theorem op_div_3_ret : F.op_div_3.ret = (.app2 N.«fraction» (.app2
  N.«std::common_type_t» (.name N.«LeftRep») (.name N.«RightRep»)) (.name N.«Ops»)) := rfl
@[exec_header] theorem op_div_3_body : F.op_div_3.body = (some (.using N.«common_rep_type» (.app2
  N.«std::common_type_t» (.name N.«LeftRep») (.name N.«RightRep»)) (.using N.«common_raw_type»
  (.app1 N.«raw_fraction» (.name N.«common_rep_type»)) (.ite (.call N.«std» N.«is_same_v» [(.name
  N.«LeftRep»), (.name N.«RightRep»)] .nil) (.ret (.call N.«Ops» N.«divides» [] (.cons (.var 0
  N.«left») (.cons (.method (.var 0 N.«right») N.«raw») .nil))) .nil) (.ite (.call N.«std»
  N.«is_same_v» [(.name N.«LeftRep»), (.name N.«common_rep_type»)] .nil) (.ret (.call N.«Ops»
  N.«divides» [] (.cons (.var 0 N.«left») (.cons (.cast (.name N.«common_raw_type») (.method (.var
  0 N.«right») N.«raw»)) .nil))) .nil) (.ite (.call N.«std» N.«is_same_v» [(.name N.«RightRep»),
  (.name N.«common_rep_type»)] .nil) (.ret (.call N.«Ops» N.«divides» [] (.cons (.cast (.name
  N.«common_rep_type») (.var 0 N.«left»)) (.cons (.method (.var 0 N.«right») N.«raw») .nil))) .nil)
  (.ret (.call N.«Ops» N.«divides» [] (.cons (.cast (.name N.«common_rep_type») (.var 0 N.«left»))
  (.cons (.cast (.name N.«common_raw_type») (.method (.var 0 N.«right») N.«raw»)) .nil))) .nil)
  .nil) .nil) .nil)))) := rfl
@[pick] theorem op_div_3_score : F.op_div_3.score = 103 := rfl
@[exec_header] theorem op_div_3_isCtor : F.op_div_3.isCtor = false := rfl
@[pick] theorem op_mod_1_tparams : F.op_mod_1.tparams = [N.«LeftRep», N.«RightRep», N.«Ops»] := rfl
@[pick, exec_header] theorem op_mod_1_params : F.op_mod_1.params = [⟨(.app2 N.«fraction» (.name
  N.«LeftRep») (.name N.«Ops»)), N.«left», none⟩, ⟨(.app2 N.«fraction» (.name N.«RightRep») (.name
  N.«Ops»)), N.«right», none⟩] := rfl
@[pick] theorem op_mod_1_isConst : F.op_mod_1.isConst = false := rfl
@[exec_header] theorem op_mod_1_ret : F.op_mod_1.ret = (.app2 N.«fraction» (.app2
  N.«std::common_type_t» (.name N.«LeftRep») (.name N.«RightRep»)) (.name N.«Ops»)) := rfl
@[exec_header] theorem op_mod_1_body : F.op_mod_1.body = (some (.using N.«common_rep_type» (.app2
  N.«std::common_type_t» (.name N.«LeftRep») (.name N.«RightRep»)) (.using N.«common_raw_type»
  (.app1 N.«raw_fraction» (.name N.«common_rep_type»)) (.ite (.call N.«std» N.«is_same_v» [(.name
  N.«LeftRep»), (.name N.«RightRep»)] .nil) (.ret (.call N.«Ops» N.«modulus» [] (.cons (.method
  (.var 0 N.«left») N.«raw») (.cons (.method (.var 0 N.«right») N.«raw») .nil))) .nil) (.ite (.call
  N.«std» N.«is_same_v» [(.name N.«LeftRep»), (.name N.«common_rep_type»)] .nil) (.ret (.call
  N.«Ops» N.«modulus» [] (.cons (.method (.var 0 N.«left») N.«raw») (.cons (.cast (.name
  N.«common_raw_type») (.method (.var 0 N.«right») N.«raw»)) .nil))) .nil) (.ite (.call N.«std»
  N.«is_same_v» [(.name N.«RightRep»), (.name N.«common_rep_type»)] .nil) (.ret (.call N.«Ops»
  N.«modulus» [] (.cons (.cast (.name N.«common_raw_type») (.method (.var 0 N.«left») N.«raw»))
  (.cons (.method (.var 0 N.«right») N.«raw») .nil))) .nil) (.ret (.call N.«Ops» N.«modulus» []
  (.cons (.cast (.name N.«common_raw_type») (.method (.var 0 N.«left») N.«raw»)) (.cons (.cast
  (.name N.«common_raw_type») (.method (.var 0 N.«right») N.«raw»)) .nil))) .nil) .nil) .nil)
  .nil)))) := rfl
@[pick] theorem op_mod_1_score : F.op_mod_1.score = 3 := rfl
@[exec_header] theorem op_mod_1_isCtor : F.op_mod_1.isCtor = false := rfl
@[pick] theorem op_mod_2_tparams : F.op_mod_2.tparams = [N.«LeftRep», N.«RightRep», N.«Ops»] := rfl
@[pick, exec_header] theorem op_mod_2_params : F.op_mod_2.params = [⟨(.app2 N.«fraction» (.name
  N.«LeftRep») (.name N.«Ops»)), N.«left», none⟩, ⟨(.name N.«RightRep»), N.«right», none⟩] := rfl
@[pick] theorem op_mod_2_isConst : F.op_mod_2.isConst = false := rfl
@[exec_header] theorem op_mod_2_ret : F.op_mod_2.ret = (.app2 N.«fraction» (.app2
  N.«std::common_type_t» (.name N.«LeftRep») (.name N.«RightRep»)) (.name N.«Ops»)) := rfl
@[exec_header] theorem op_mod_2_body : F.op_mod_2.body = (some (.using N.«common_rep_type» (.app2
  N.«std::common_type_t» (.name N.«LeftRep») (.name N.«RightRep»)) (.using N.«common_raw_type»
  (.app1 N.«raw_fraction» (.name N.«common_rep_type»)) (.ite (.call N.«std» N.«is_same_v» [(.name
  N.«LeftRep»), (.name N.«RightRep»)] .nil) (.ret (.call N.«Ops» N.«modulus» [] (.cons (.method
  (.var 0 N.«left») N.«raw») (.cons (.var 0 N.«right») .nil))) .nil) (.ite (.call N.«std»
  N.«is_same_v» [(.name N.«LeftRep»), (.name N.«common_rep_type»)] .nil) (.ret (.call N.«Ops»
  N.«modulus» [] (.cons (.method (.var 0 N.«left») N.«raw») (.cons (.cast (.name
  N.«common_rep_type») (.var 0 N.«right»)) .nil))) .nil) (.ite (.call N.«std» N.«is_same_v» [(.name
  N.«RightRep»), (.name N.«common_rep_type»)] .nil) (.ret (.call N.«Ops» N.«modulus» [] (.cons
  (.cast (.name N.«common_raw_type») (.method (.var 0 N.«left») N.«raw»)) (.cons (.var 0 N.«right»)
  .nil))) .nil) (.ret (.call N.«Ops» N.«modulus» [] (.cons (.cast (.name N.«common_raw_type»)
  (.method (.var 0 N.«left») N.«raw»)) (.cons (.cast (.name N.«common_rep_type») (.var 0
  N.«right»)) .nil))) .nil) .nil) .nil) .nil)))) := rfl
@[pick] theorem op_mod_2_score : F.op_mod_2.score = 103 := rfl
@[exec_header] theorem op_mod_2_isCtor : F.op_mod_2.isCtor = false := rfl
@[pick] theorem op_mod_3_tparams : F.op_mod_3.tparams = [N.«LeftRep», N.«RightRep», N.«Ops»] := rfl
@[pick, exec_header] theorem op_mod_3_params : F.op_mod_3.params = [⟨(.name N.«LeftRep»), N.«left»,
  none⟩, ⟨(.app2 N.«fraction» (.name N.«RightRep») (.name N.«Ops»)), N.«right», none⟩] := rfl
@[pick] theorem op_mod_3_isConst : F.op_mod_3.isConst = false := rfl
@[exec_header] theorem op_mod_3_ret : F.op_mod_3.ret = (.app2 N.«fraction» (.app2
  N.«std::common_type_t» (.name N.«LeftRep») (.name N.«RightRep»)) (.name N.«Ops»)) := rfl
@[exec_header] theorem op_mod_3_body : F.op_mod_3.body = (some (.using N.«common_rep_type» (.app2
  N.«std::common_type_t» (.name N.«LeftRep») (.name N.«RightRep»)) (.using N.«common_raw_type»
  (.app1 N.«raw_fraction» (.name N.«common_rep_type»)) (.ite (.call N.«std» N.«is_same_v» [(.name
  N.«LeftRep»), (.name N.«RightRep»)] .nil) (.ret (.call N.«Ops» N.«modulus» [] (.cons (.var 0
  N.«left») (.cons (.method (.var 0 N.«right») N.«raw») .nil))) .nil) (.ite (.call N.«std»
  N.«is_same_v» [(.name N.«LeftRep»), (.name N.«common_rep_type»)] .nil) (.ret (.call N.«Ops»
  N.«modulus» [] (.cons (.var 0 N.«left») (.cons (.cast (.name N.«common_raw_type») (.method (.var
  0 N.«right») N.«raw»)) .nil))) .nil) (.ite (.call N.«std» N.«is_same_v» [(.name N.«RightRep»),
  (.name N.«common_rep_type»)] .nil) (.ret (.call N.«Ops» N.«modulus» [] (.cons (.cast (.name
  N.«common_rep_type») (.var 0 N.«left»)) (.cons (.method (.var 0 N.«right») N.«raw») .nil))) .nil)
  (.ret (.call N.«Ops» N.«modulus» [] (.cons (.cast (.name N.«common_rep_type») (.var 0 N.«left»))
  (.cons (.cast (.name N.«common_raw_type») (.method (.var 0 N.«right») N.«raw»)) .nil))) .nil)
  .nil) .nil) .nil)))) := rfl
@[pick] theorem op_mod_3_score : F.op_mod_3.score = 103 := rfl
@[exec_header] theorem op_mod_3_isCtor : F.op_mod_3.isCtor = false := rfl
@[pick] theorem op_addEq_1_tparams : F.op_addEq_1.tparams = [N.«LeftRep», N.«RightRep», N.«Ops»] :=
  rfl
@[pick, exec_header] theorem op_addEq_1_params : F.op_addEq_1.params = [⟨(.app2 N.«fraction» (.name
  N.«LeftRep») (.name N.«Ops»)), N.«left», none⟩, ⟨(.app2 N.«fraction» (.name N.«RightRep») (.name
  N.«Ops»)), N.«right», none⟩] := rfl
@[pick] theorem op_addEq_1_isConst : F.op_addEq_1.isConst = false := rfl
@[exec_header] theorem op_addEq_1_ret : F.op_addEq_1.ret = (.app2 N.«fraction» (.name N.«LeftRep»)
  (.name N.«Ops»)) := rfl
@[exec_header] theorem op_addEq_1_body : F.op_addEq_1.body = (some (.ite (.call N.«std»
  N.«is_same_v» [(.name N.«LeftRep»), (.name N.«RightRep»)] .nil) (.retAssign N.«left» (.bin .add
  (.var 0 N.«left») (.var 0 N.«right»)) .nil) (.retAssign N.«left» (.bin .add (.var 0 N.«left»)
  (.call 0 N.«fraction» [(.name N.«LeftRep»), (.name N.«Ops»)] (.cons (.var 0 N.«right») .nil)))
  .nil) .nil)) := rfl
@[pick] theorem op_addEq_1_score : F.op_addEq_1.score = 3 := rfl
@[exec_header] theorem op_addEq_1_isCtor : F.op_addEq_1.isCtor = false := rfl
@[pick] theorem op_addEq_2_tparams : F.op_addEq_2.tparams = [N.«LeftRep», N.«RightRep», N.«Ops»] :=
  rfl
@[pick, exec_header] theorem op_addEq_2_params : F.op_addEq_2.params = [⟨(.app2 N.«fraction» (.name
  N.«LeftRep») (.name N.«Ops»)), N.«left», none⟩, ⟨(.name N.«RightRep»), N.«right», none⟩] := rfl
@[pick] theorem op_addEq_2_isConst : F.op_addEq_2.isConst = false := rfl
@[exec_header] theorem op_addEq_2_ret : F.op_addEq_2.ret = (.app2 N.«fraction» (.name N.«LeftRep»)
  (.name N.«Ops»)) := rfl
@[exec_header] theorem op_addEq_2_body : F.op_addEq_2.body = (some (.ite (.call N.«std»
  N.«is_same_v» [(.name N.«LeftRep»), (.name N.«RightRep»)] .nil) (.retAssign N.«left» (.bin .add
  (.var 0 N.«left») (.var 0 N.«right»)) .nil) (.retAssign N.«left» (.bin .add (.var 0 N.«left»)
  (.cast (.name N.«LeftRep») (.var 0 N.«right»))) .nil) .nil)) := rfl
@[pick] theorem op_addEq_2_score : F.op_addEq_2.score = 103 := rfl
@[exec_header] theorem op_addEq_2_isCtor : F.op_addEq_2.isCtor = false := rfl
@[pick] theorem op_subEq_1_tparams : F.op_subEq_1.tparams = [N.«LeftRep», N.«RightRep», N.«Ops»] :=
  rfl
@[pick, exec_header] theorem op_subEq_1_params : F.op_subEq_1.params = [⟨(.app2 N.«fraction» (.name
  N.«LeftRep») (.name N.«Ops»)), N.«left», none⟩, ⟨(.app2 N.«fraction» (.name N.«RightRep») (.name
  N.«Ops»)), N.«right», none⟩] := rfl
@[pick] theorem op_subEq_1_isConst : F.op_subEq_1.isConst = false := rfl
@[exec_header] theorem op_subEq_1_ret : F.op_subEq_1.ret = (.app2 N.«fraction» (.name N.«LeftRep»)
  (.name N.«Ops»)) := rfl
@[exec_header] theorem op_subEq_1_body : F.op_subEq_1.body = (some (.ite (.call N.«std»
  N.«is_same_v» [(.name N.«LeftRep»), (.name N.«RightRep»)] .nil) (.retAssign N.«left» (.bin .sub
  (.var 0 N.«left») (.var 0 N.«right»)) .nil) (.retAssign N.«left» (.bin .sub (.var 0 N.«left»)
  (.call 0 N.«fraction» [(.name N.«LeftRep»), (.name N.«Ops»)] (.cons (.var 0 N.«right») .nil)))
  .nil) .nil)) := rfl
@[pick] theorem op_subEq_1_score : F.op_subEq_1.score = 3 := rfl
@[exec_header] theorem op_subEq_1_isCtor : F.op_subEq_1.isCtor = false := rfl
@[pick] theorem op_subEq_2_tparams : F.op_subEq_2.tparams = [N.«LeftRep», N.«RightRep», N.«Ops»] :=
  rfl
@[pick, exec_header] theorem op_subEq_2_params : F.op_subEq_2.params = [⟨(.app2 N.«fraction» (.name
  N.«LeftRep») (.name N.«Ops»)), N.«left», none⟩, ⟨(.name N.«RightRep»), N.«right», none⟩] := rfl
@[pick] theorem op_subEq_2_isConst : F.op_subEq_2.isConst = false := rfl
@[exec_header] theorem op_subEq_2_ret : F.op_subEq_2.ret = (.app2 N.«fraction» (.name N.«LeftRep»)
  (.name N.«Ops»)) := rfl
@[exec_header] theorem op_subEq_2_body : F.op_subEq_2.body = (some (.ite (.call N.«std»
  N.«is_same_v» [(.name N.«LeftRep»), (.name N.«RightRep»)] .nil) (.retAssign N.«left» (.bin .sub
  (.var 0 N.«left») (.var 0 N.«right»)) .nil) (.retAssign N.«left» (.bin .sub (.var 0 N.«left»)
  (.cast (.name N.«LeftRep») (.var 0 N.«right»))) .nil) .nil)) := rfl
@[pick] theorem op_subEq_2_score : F.op_subEq_2.score = 103 := rfl
@[exec_header] theorem op_subEq_2_isCtor : F.op_subEq_2.isCtor = false := rfl
@[pick] theorem op_mulEq_1_tparams : F.op_mulEq_1.tparams = [N.«LeftRep», N.«RightRep», N.«Ops»] :=
  rfl
@[pick, exec_header] theorem op_mulEq_1_params : F.op_mulEq_1.params = [⟨(.app2 N.«fraction» (.name
  N.«LeftRep») (.name N.«Ops»)), N.«left», none⟩, ⟨(.app2 N.«fraction» (.name N.«RightRep») (.name
  N.«Ops»)), N.«right», none⟩] := rfl
@[pick] theorem op_mulEq_1_isConst : F.op_mulEq_1.isConst = false := rfl
@[exec_header] theorem op_mulEq_1_ret : F.op_mulEq_1.ret = (.app2 N.«fraction» (.name N.«LeftRep»)
  (.name N.«Ops»)) := rfl
@[exec_header] theorem op_mulEq_1_body : F.op_mulEq_1.body = (some (.ite (.call N.«std»
  N.«is_same_v» [(.name N.«LeftRep»), (.name N.«RightRep»)] .nil) (.retAssign N.«left» (.bin .mul
  (.var 0 N.«left») (.var 0 N.«right»)) .nil) (.retAssign N.«left» (.bin .mul (.var 0 N.«left»)
  (.call 0 N.«fraction» [(.name N.«LeftRep»), (.name N.«Ops»)] (.cons (.var 0 N.«right») .nil)))
  .nil) .nil)) := rfl
@[pick] theorem op_mulEq_1_score : F.op_mulEq_1.score = 3 := rfl
@[exec_header] theorem op_mulEq_1_isCtor : F.op_mulEq_1.isCtor = false := rfl
@[pick] theorem op_mulEq_2_tparams : F.op_mulEq_2.tparams = [N.«LeftRep», N.«RightRep», N.«Ops»] :=
  rfl
@[pick, exec_header] theorem op_mulEq_2_params : F.op_mulEq_2.params = [⟨(.app2 N.«fraction» (.name
  N.«LeftRep») (.name N.«Ops»)), N.«left», none⟩, ⟨(.name N.«RightRep»), N.«right», none⟩] := rfl
@[pick] theorem op_mulEq_2_isConst : F.op_mulEq_2.isConst = false := rfl
@[exec_header] theorem op_mulEq_2_ret : F.op_mulEq_2.ret = (.app2 N.«fraction» (.name N.«LeftRep»)
  (.name N.«Ops»)) := rfl
@[exec_header] theorem op_mulEq_2_body : F.op_mulEq_2.body = (some (.ite (.call N.«std»
  N.«is_same_v» [(.name N.«LeftRep»), (.name N.«RightRep»)] .nil) (.retAssign N.«left» (.bin .mul
  (.var 0 N.«left») (.var 0 N.«right»)) .nil) (.retAssign N.«left» (.bin .mul (.var 0 N.«left»)
  (.cast (.name N.«LeftRep») (.var 0 N.«right»))) .nil) .nil)) := rfl
@[pick] theorem op_mulEq_2_score : F.op_mulEq_2.score = 103 := rfl
@[exec_header] theorem op_mulEq_2_isCtor : F.op_mulEq_2.isCtor = false := rfl
@[pick] theorem op_divEq_1_tparams : F.op_divEq_1.tparams = [N.«LeftRep», N.«RightRep», N.«Ops»] :=
  rfl
@[pick, exec_header] theorem op_divEq_1_params : F.op_divEq_1.params = [⟨(.app2 N.«fraction» (.name
  N.«LeftRep») (.name N.«Ops»)), N.«left», none⟩, ⟨(.app2 N.«fraction» (.name N.«RightRep») (.name
  N.«Ops»)), N.«right», none⟩] := rfl
@[pick] theorem op_divEq_1_isConst : F.op_divEq_1.isConst = false := rfl
@[exec_header] theorem op_divEq_1_ret : F.op_divEq_1.ret = (.app2 N.«fraction» (.name N.«LeftRep»)
  (.name N.«Ops»)) := rfl
@[exec_header] theorem op_divEq_1_body : F.op_divEq_1.body = (some (.ite (.call N.«std»
  N.«is_same_v» [(.name N.«LeftRep»), (.name N.«RightRep»)] .nil) (.retAssign N.«left» (.bin .div
  (.var 0 N.«left») (.var 0 N.«right»)) .nil) (.retAssign N.«left» (.bin .div (.var 0 N.«left»)
  (.call 0 N.«fraction» [(.name N.«LeftRep»), (.name N.«Ops»)] (.cons (.var 0 N.«right») .nil)))
  .nil) .nil)) := rfl
@[pick] theorem op_divEq_1_score : F.op_divEq_1.score = 3 := rfl
@[exec_header] theorem op_divEq_1_isCtor : F.op_divEq_1.isCtor = false := rfl
@[pick] theorem op_divEq_2_tparams : F.op_divEq_2.tparams = [N.«LeftRep», N.«RightRep», N.«Ops»] :=
  rfl
@[pick, exec_header] theorem op_divEq_2_params : F.op_divEq_2.params = [⟨(.app2 N.«fraction» (.name
  N.«LeftRep») (.name N.«Ops»)), N.«left», none⟩, ⟨(.name N.«RightRep»), N.«right», none⟩] := rfl
@[pick] theorem op_divEq_2_isConst : F.op_divEq_2.isConst = false := rfl
@[exec_header] theorem op_divEq_2_ret : F.op_divEq_2.ret = (.app2 N.«fraction» (.name N.«LeftRep»)
  (.name N.«Ops»)) := rfl
@[exec_header] theorem op_divEq_2_body : F.op_divEq_2.body = (some (.ite (.call N.«std»
  N.«is_same_v» [(.name N.«LeftRep»), (.name N.«RightRep»)] .nil) (.retAssign N.«left» (.bin .div
  (.var 0 N.«left») (.var 0 N.«right»)) .nil) (.retAssign N.«left» (.bin .div (.var 0 N.«left»)
  (.cast (.name N.«LeftRep») (.var 0 N.«right»))) .nil) .nil)) := rfl
@[pick] theorem op_divEq_2_score : F.op_divEq_2.score = 103 := rfl
@[exec_header] theorem op_divEq_2_isCtor : F.op_divEq_2.isCtor = false := rfl
@[pick] theorem op_modEq_1_tparams : F.op_modEq_1.tparams = [N.«LeftRep», N.«RightRep», N.«Ops»] :=
  rfl
@[pick, exec_header] theorem op_modEq_1_params : F.op_modEq_1.params = [⟨(.app2 N.«fraction» (.name
  N.«LeftRep») (.name N.«Ops»)), N.«left», none⟩, ⟨(.app2 N.«fraction» (.name N.«RightRep») (.name
  N.«Ops»)), N.«right», none⟩] := rfl
@[pick] theorem op_modEq_1_isConst : F.op_modEq_1.isConst = false := rfl
@[exec_header] theorem op_modEq_1_ret : F.op_modEq_1.ret = (.app2 N.«fraction» (.name N.«LeftRep»)
  (.name N.«Ops»)) := rfl
@[exec_header] theorem op_modEq_1_body : F.op_modEq_1.body = (some (.ite (.call N.«std»
  N.«is_same_v» [(.name N.«LeftRep»), (.name N.«RightRep»)] .nil) (.retAssign N.«left» (.bin .mod
  (.var 0 N.«left») (.var 0 N.«right»)) .nil) (.retAssign N.«left» (.bin .mod (.var 0 N.«left»)
  (.call 0 N.«fraction» [(.name N.«LeftRep»), (.name N.«Ops»)] (.cons (.var 0 N.«right») .nil)))
  .nil) .nil)) := rfl
@[pick] theorem op_modEq_1_score : F.op_modEq_1.score = 3 := rfl
@[exec_header] theorem op_modEq_1_isCtor : F.op_modEq_1.isCtor = false := rfl
@[pick] theorem op_modEq_2_tparams : F.op_modEq_2.tparams = [N.«LeftRep», N.«RightRep», N.«Ops»] :=
  rfl
@[pick, exec_header] theorem op_modEq_2_params : F.op_modEq_2.params = [⟨(.app2 N.«fraction» (.name
  N.«LeftRep») (.name N.«Ops»)), N.«left», none⟩, ⟨(.name N.«RightRep»), N.«right», none⟩] := rfl
@[pick] theorem op_modEq_2_isConst : F.op_modEq_2.isConst = false := rfl
@[exec_header] theorem op_modEq_2_ret : F.op_modEq_2.ret = (.app2 N.«fraction» (.name N.«LeftRep»)
  (.name N.«Ops»)) := rfl
@[exec_header] theorem op_modEq_2_body : F.op_modEq_2.body = (some (.ite (.call N.«std»
  N.«is_same_v» [(.name N.«LeftRep»), (.name N.«RightRep»)] .nil) (.retAssign N.«left» (.bin .mod
  (.var 0 N.«left») (.var 0 N.«right»)) .nil) (.retAssign N.«left» (.bin .mod (.var 0 N.«left»)
  (.cast (.name N.«LeftRep») (.var 0 N.«right»))) .nil) .nil)) := rfl
@[pick] theorem op_modEq_2_score : F.op_modEq_2.score = 103 := rfl
@[exec_header] theorem op_modEq_2_isCtor : F.op_modEq_2.isCtor = false := rfl
@[pick] theorem op_eq_1_tparams : F.op_eq_1.tparams = [N.«LeftRep», N.«RightRep», N.«Ops»] := rfl
@[pick, exec_header] theorem op_eq_1_params : F.op_eq_1.params = [⟨(.app2 N.«fraction» (.name
  N.«LeftRep») (.name N.«Ops»)), N.«left», none⟩, ⟨(.app2 N.«fraction» (.name N.«RightRep») (.name
  N.«Ops»)), N.«right», none⟩] := rfl
@[pick] theorem op_eq_1_isConst : F.op_eq_1.isConst = false := rfl
@[exec_header] theorem op_eq_1_ret : F.op_eq_1.ret = (.name N.«bool») := rfl
@[exec_header] theorem op_eq_1_body : F.op_eq_1.body = (some (.using N.«common_rep_type» (.app2
  N.«std::common_type_t» (.name N.«LeftRep») (.name N.«RightRep»)) (.using N.«common_raw_type»
  (.app1 N.«raw_fraction» (.name N.«common_rep_type»)) (.ite (.call N.«std» N.«is_same_v» [(.name
  N.«LeftRep»), (.name N.«RightRep»)] .nil) (.ret (.call N.«Ops» N.«equal_to» [] (.cons (.method
  (.var 0 N.«left») N.«raw») (.cons (.method (.var 0 N.«right») N.«raw») .nil))) .nil) (.ite (.call
  N.«std» N.«is_same_v» [(.name N.«LeftRep»), (.name N.«common_rep_type»)] .nil) (.ret (.call
  N.«Ops» N.«equal_to» [] (.cons (.method (.var 0 N.«left») N.«raw») (.cons (.cast (.name
  N.«common_raw_type») (.method (.var 0 N.«right») N.«raw»)) .nil))) .nil) (.ite (.call N.«std»
  N.«is_same_v» [(.name N.«RightRep»), (.name N.«common_rep_type»)] .nil) (.ret (.call N.«Ops»
  N.«equal_to» [] (.cons (.cast (.name N.«common_raw_type») (.method (.var 0 N.«left») N.«raw»))
  (.cons (.method (.var 0 N.«right») N.«raw») .nil))) .nil) (.ret (.call N.«Ops» N.«equal_to» []
  (.cons (.cast (.name N.«common_raw_type») (.method (.var 0 N.«left») N.«raw»)) (.cons (.cast
  (.name N.«common_raw_type») (.method (.var 0 N.«right») N.«raw»)) .nil))) .nil) .nil) .nil)
  .nil)))) := rfl
@[pick] theorem op_eq_1_score : F.op_eq_1.score = 3 := rfl
@[exec_header] theorem op_eq_1_isCtor : F.op_eq_1.isCtor = false := rfl
@[pick] theorem op_eq_2_tparams : F.op_eq_2.tparams = [N.«LeftRep», N.«RightRep», N.«Ops»] := rfl
@[pick, exec_header] theorem op_eq_2_params : F.op_eq_2.params = [⟨(.app2 N.«fraction» (.name
  N.«LeftRep») (.name N.«Ops»)), N.«left», none⟩, ⟨(.name N.«RightRep»), N.«right», none⟩] := rfl
@[pick] theorem op_eq_2_isConst : F.op_eq_2.isConst = false := rfl
@[exec_header] theorem op_eq_2_ret : F.op_eq_2.ret = (.name N.«bool») := rfl
@[exec_header] theorem op_eq_2_body : F.op_eq_2.body = (some (.using N.«common_rep_type» (.app2
  N.«std::common_type_t» (.name N.«LeftRep») (.name N.«RightRep»)) (.using N.«common_raw_type»
  (.app1 N.«raw_fraction» (.name N.«common_rep_type»)) (.ite (.call N.«std» N.«is_same_v» [(.name
  N.«LeftRep»), (.name N.«RightRep»)] .nil) (.ret (.call N.«Ops» N.«equal_to» [] (.cons (.method
  (.var 0 N.«left») N.«raw») (.cons (.var 0 N.«right») .nil))) .nil) (.ite (.call N.«std»
  N.«is_same_v» [(.name N.«LeftRep»), (.name N.«common_rep_type»)] .nil) (.ret (.call N.«Ops»
  N.«equal_to» [] (.cons (.method (.var 0 N.«left») N.«raw») (.cons (.cast (.name
  N.«common_rep_type») (.var 0 N.«right»)) .nil))) .nil) (.ite (.call N.«std» N.«is_same_v» [(.name
  N.«RightRep»), (.name N.«common_rep_type»)] .nil) (.ret (.call N.«Ops» N.«equal_to» [] (.cons
  (.cast (.name N.«common_raw_type») (.method (.var 0 N.«left») N.«raw»)) (.cons (.var 0 N.«right»)
  .nil))) .nil) (.ret (.call N.«Ops» N.«equal_to» [] (.cons (.cast (.name N.«common_raw_type»)
  (.method (.var 0 N.«left») N.«raw»)) (.cons (.cast (.name N.«common_rep_type») (.var 0
  N.«right»)) .nil))) .nil) .nil) .nil) .nil)))) := rfl
@[pick] theorem op_eq_2_score : F.op_eq_2.score = 103 := rfl
@[exec_header] theorem op_eq_2_isCtor : F.op_eq_2.isCtor = false := rfl
@[pick] theorem op_eq_3_tparams : F.op_eq_3.tparams = [N.«LeftRep», N.«RightRep», N.«Ops»] := rfl
@[pick, exec_header] theorem op_eq_3_params : F.op_eq_3.params = [⟨(.name N.«LeftRep»), N.«left»,
  none⟩, ⟨(.app2 N.«fraction» (.name N.«RightRep») (.name N.«Ops»)), N.«right», none⟩] := rfl
@[pick] theorem op_eq_3_isConst : F.op_eq_3.isConst = false := rfl
@[exec_header] theorem op_eq_3_ret : F.op_eq_3.ret = (.name N.«bool») := rfl
@[exec_header] theorem op_eq_3_body : F.op_eq_3.body = (some (.using N.«common_rep_type» (.app2
  N.«std::common_type_t» (.name N.«LeftRep») (.name N.«RightRep»)) (.using N.«common_raw_type»
  (.app1 N.«raw_fraction» (.name N.«common_rep_type»)) (.ite (.call N.«std» N.«is_same_v» [(.name
  N.«LeftRep»), (.name N.«RightRep»)] .nil) (.ret (.call N.«Ops» N.«equal_to» [] (.cons (.var 0
  N.«left») (.cons (.method (.var 0 N.«right») N.«raw») .nil))) .nil) (.ite (.call N.«std»
  N.«is_same_v» [(.name N.«LeftRep»), (.name N.«common_rep_type»)] .nil) (.ret (.call N.«Ops»
  N.«equal_to» [] (.cons (.var 0 N.«left») (.cons (.cast (.name N.«common_raw_type») (.method (.var
  0 N.«right») N.«raw»)) .nil))) .nil) (.ite (.call N.«std» N.«is_same_v» [(.name N.«RightRep»),
  (.name N.«common_rep_type»)] .nil) (.ret (.call N.«Ops» N.«equal_to» [] (.cons (.cast (.name
  N.«common_rep_type») (.var 0 N.«left»)) (.cons (.method (.var 0 N.«right») N.«raw») .nil))) .nil)
  (.ret (.call N.«Ops» N.«equal_to» [] (.cons (.cast (.name N.«common_rep_type») (.var 0 N.«left»))
  (.cons (.cast (.name N.«common_raw_type») (.method (.var 0 N.«right») N.«raw»)) .nil))) .nil)
  .nil) .nil) .nil)))) := rfl
@[pick] theorem op_eq_3_score : F.op_eq_3.score = 103 := rfl
@[exec_header] theorem op_eq_3_isCtor : F.op_eq_3.isCtor = false := rfl
@[pick] theorem op_ne_1_tparams : F.op_ne_1.tparams = [N.«LeftRep», N.«RightRep», N.«Ops»] := rfl
@[pick, exec_header] theorem op_ne_1_params : F.op_ne_1.params = [⟨(.app2 N.«fraction» (.name
  N.«LeftRep») (.name N.«Ops»)), N.«left», none⟩, ⟨(.app2 N.«fraction» (.name N.«RightRep») (.name
  N.«Ops»)), N.«right», none⟩] := rfl
@[pick] theorem op_ne_1_isConst : F.op_ne_1.isConst = false := rfl
@[exec_header] theorem op_ne_1_ret : F.op_ne_1.ret = (.name N.«bool») := rfl
@[exec_header] theorem op_ne_1_body : F.op_ne_1.body = (some (.using N.«common_rep_type» (.app2
  N.«std::common_type_t» (.name N.«LeftRep») (.name N.«RightRep»)) (.using N.«common_raw_type»
  (.app1 N.«raw_fraction» (.name N.«common_rep_type»)) (.ite (.call N.«std» N.«is_same_v» [(.name
  N.«LeftRep»), (.name N.«RightRep»)] .nil) (.ret (.call N.«Ops» N.«not_equal_to» [] (.cons
  (.method (.var 0 N.«left») N.«raw») (.cons (.method (.var 0 N.«right») N.«raw») .nil))) .nil)
  (.ite (.call N.«std» N.«is_same_v» [(.name N.«LeftRep»), (.name N.«common_rep_type»)] .nil) (.ret
  (.call N.«Ops» N.«not_equal_to» [] (.cons (.method (.var 0 N.«left») N.«raw») (.cons (.cast
  (.name N.«common_raw_type») (.method (.var 0 N.«right») N.«raw»)) .nil))) .nil) (.ite (.call
  N.«std» N.«is_same_v» [(.name N.«RightRep»), (.name N.«common_rep_type»)] .nil) (.ret (.call
  N.«Ops» N.«not_equal_to» [] (.cons (.cast (.name N.«common_raw_type») (.method (.var 0 N.«left»)
  N.«raw»)) (.cons (.method (.var 0 N.«right») N.«raw») .nil))) .nil) (.ret (.call N.«Ops»
  N.«not_equal_to» [] (.cons (.cast (.name N.«common_raw_type») (.method (.var 0 N.«left»)
  N.«raw»)) (.cons (.cast (.name N.«common_raw_type») (.method (.var 0 N.«right») N.«raw»)) .nil)))
  .nil) .nil) .nil) .nil)))) := rfl
@[pick] theorem op_ne_1_score : F.op_ne_1.score = 3 := rfl
@[exec_header] theorem op_ne_1_isCtor : F.op_ne_1.isCtor = false := rfl
@[pick] theorem op_ne_2_tparams : F.op_ne_2.tparams = [N.«LeftRep», N.«RightRep», N.«Ops»] := rfl
@[pick, exec_header] theorem op_ne_2_params : F.op_ne_2.params = [⟨(.app2 N.«fraction» (.name
  N.«LeftRep») (.name N.«Ops»)), N.«left», none⟩, ⟨(.name N.«RightRep»), N.«right», none⟩] := rfl
@[pick] theorem op_ne_2_isConst : F.op_ne_2.isConst = false := rfl
@[exec_header] theorem op_ne_2_ret : F.op_ne_2.ret = (.name N.«bool») := rfl
@[exec_header] theorem op_ne_2_body : F.op_ne_2.body = (some (.using N.«common_rep_type» (.app2
  N.«std::common_type_t» (.name N.«LeftRep») (.name N.«RightRep»)) (.using N.«common_raw_type»
  (.app1 N.«raw_fraction» (.name N.«common_rep_type»)) (.ite (.call N.«std» N.«is_same_v» [(.name
  N.«LeftRep»), (.name N.«RightRep»)] .nil) (.ret (.call N.«Ops» N.«not_equal_to» [] (.cons
  (.method (.var 0 N.«left») N.«raw») (.cons (.var 0 N.«right») .nil))) .nil) (.ite (.call N.«std»
  N.«is_same_v» [(.name N.«LeftRep»), (.name N.«common_rep_type»)] .nil) (.ret (.call N.«Ops»
  N.«not_equal_to» [] (.cons (.method (.var 0 N.«left») N.«raw») (.cons (.cast (.name
  N.«common_rep_type») (.var 0 N.«right»)) .nil))) .nil) (.ite (.call N.«std» N.«is_same_v» [(.name
  N.«RightRep»), (.name N.«common_rep_type»)] .nil) (.ret (.call N.«Ops» N.«not_equal_to» [] (.cons
  (.cast (.name N.«common_raw_type») (.method (.var 0 N.«left») N.«raw»)) (.cons (.var 0 N.«right»)
  .nil))) .nil) (.ret (.call N.«Ops» N.«not_equal_to» [] (.cons (.cast (.name N.«common_raw_type»)
  (.method (.var 0 N.«left») N.«raw»)) (.cons (.cast (.name N.«common_rep_type») (.var 0
  N.«right»)) .nil))) .nil) .nil) .nil) .nil)))) := rfl
@[pick] theorem op_ne_2_score : F.op_ne_2.score = 103 := rfl
@[exec_header] theorem op_ne_2_isCtor : F.op_ne_2.isCtor = false := rfl
@[pick] theorem op_ne_3_tparams : F.op_ne_3.tparams = [N.«LeftRep», N.«RightRep», N.«Ops»] := rfl
@[pick, exec_header] theorem op_ne_3_params : F.op_ne_3.params = [⟨(.name N.«LeftRep»), N.«left»,
  none⟩, ⟨(.app2 N.«fraction» (.name N.«RightRep») (.name N.«Ops»)), N.«right», none⟩] := rfl
@[pick] theorem op_ne_3_isConst : F.op_ne_3.isConst = false := rfl
@[exec_header] theorem op_ne_3_ret : F.op_ne_3.ret = (.name N.«bool») := rfl
@[exec_header] theorem op_ne_3_body : F.op_ne_3.body = (some (.using N.«common_rep_type» (.app2
  N.«std::common_type_t» (.name N.«LeftRep») (.name N.«RightRep»)) (.using N.«common_raw_type»
  (.app1 N.«raw_fraction» (.name N.«common_rep_type»)) (.ite (.call N.«std» N.«is_same_v» [(.name
  N.«LeftRep»), (.name N.«RightRep»)] .nil) (.ret (.call N.«Ops» N.«not_equal_to» [] (.cons (.var 0
  N.«left») (.cons (.method (.var 0 N.«right») N.«raw») .nil))) .nil) (.ite (.call N.«std»
  N.«is_same_v» [(.name N.«LeftRep»), (.name N.«common_rep_type»)] .nil) (.ret (.call N.«Ops»
  N.«not_equal_to» [] (.cons (.var 0 N.«left») (.cons (.cast (.name N.«common_raw_type») (.method
  (.var 0 N.«right») N.«raw»)) .nil))) .nil) (.ite (.call N.«std» N.«is_same_v» [(.name
  N.«RightRep»), (.name N.«common_rep_type»)] .nil) (.ret (.call N.«Ops» N.«not_equal_to» [] (.cons
  (.cast (.name N.«common_rep_type») (.var 0 N.«left»)) (.cons (.method (.var 0 N.«right») N.«raw»)
  .nil))) .nil) (.ret (.call N.«Ops» N.«not_equal_to» [] (.cons (.cast (.name N.«common_rep_type»)
  (.var 0 N.«left»)) (.cons (.cast (.name N.«common_raw_type») (.method (.var 0 N.«right»)
  N.«raw»)) .nil))) .nil) .nil) .nil) .nil)))) := rfl
@[pick] theorem op_ne_3_score : F.op_ne_3.score = 103 := rfl
@[exec_header] theorem op_ne_3_isCtor : F.op_ne_3.isCtor = false := rfl
@[pick] theorem op_lt_1_tparams : F.op_lt_1.tparams = [N.«LeftRep», N.«RightRep», N.«Ops»] := rfl
@[pick, exec_header] theorem op_lt_1_params : F.op_lt_1.params = [⟨(.app2 N.«fraction» (.name
  N.«LeftRep») (.name N.«Ops»)), N.«left», none⟩, ⟨(.app2 N.«fraction» (.name N.«RightRep») (.name
  N.«Ops»)), N.«right», none⟩] := rfl
@[pick] theorem op_lt_1_isConst : F.op_lt_1.isConst = false := rfl
@[exec_header] theorem op_lt_1_ret : F.op_lt_1.ret = (.name N.«bool») := rfl
@[exec_header] theorem op_lt_1_body : F.op_lt_1.body = (some (.using N.«common_rep_type» (.app2
  N.«std::common_type_t» (.name N.«LeftRep») (.name N.«RightRep»)) (.using N.«common_raw_type»
  (.app1 N.«raw_fraction» (.name N.«common_rep_type»)) (.ite (.call N.«std» N.«is_same_v» [(.name
  N.«LeftRep»), (.name N.«RightRep»)] .nil) (.ret (.call N.«Ops» N.«less» [] (.cons (.method (.var
  0 N.«left») N.«raw») (.cons (.method (.var 0 N.«right») N.«raw») .nil))) .nil) (.ite (.call
  N.«std» N.«is_same_v» [(.name N.«LeftRep»), (.name N.«common_rep_type»)] .nil) (.ret (.call
  N.«Ops» N.«less» [] (.cons (.method (.var 0 N.«left») N.«raw») (.cons (.cast (.name
  N.«common_raw_type») (.method (.var 0 N.«right») N.«raw»)) .nil))) .nil) (.ite (.call N.«std»
  N.«is_same_v» [(.name N.«RightRep»), (.name N.«common_rep_type»)] .nil) (.ret (.call N.«Ops»
  N.«less» [] (.cons (.cast (.name N.«common_raw_type») (.method (.var 0 N.«left») N.«raw»)) (.cons
  (.method (.var 0 N.«right») N.«raw») .nil))) .nil) (.ret (.call N.«Ops» N.«less» [] (.cons (.cast
  (.name N.«common_raw_type») (.method (.var 0 N.«left») N.«raw»)) (.cons (.cast (.name
  N.«common_raw_type») (.method (.var 0 N.«right») N.«raw»)) .nil))) .nil) .nil) .nil) .nil)))) :=
  rfl
@[pick] theorem op_lt_1_score : F.op_lt_1.score = 3 := rfl
@[exec_header] theorem op_lt_1_isCtor : F.op_lt_1.isCtor = false := rfl
@[pick] theorem op_lt_2_tparams : F.op_lt_2.tparams = [N.«LeftRep», N.«RightRep», N.«Ops»] := rfl
@[pick, exec_header] theorem op_lt_2_params : F.op_lt_2.params = [⟨(.app2 N.«fraction» (.name
  N.«LeftRep») (.name N.«Ops»)), N.«left», none⟩, ⟨(.name N.«RightRep»), N.«right», none⟩] := rfl
@[pick] theorem op_lt_2_isConst : F.op_lt_2.isConst = false := rfl
@[exec_header] theorem op_lt_2_ret : F.op_lt_2.ret = (.name N.«bool») := rfl
@[exec_header] theorem op_lt_2_body : F.op_lt_2.body = (some (.using N.«common_rep_type» (.app2
  N.«std::common_type_t» (.name N.«LeftRep») (.name N.«RightRep»)) (.using N.«common_raw_type»
  (.app1 N.«raw_fraction» (.name N.«common_rep_type»)) (.ite (.call N.«std» N.«is_same_v» [(.name
  N.«LeftRep»), (.name N.«RightRep»)] .nil) (.ret (.call N.«Ops» N.«less» [] (.cons (.method (.var
  0 N.«left») N.«raw») (.cons (.var 0 N.«right») .nil))) .nil) (.ite (.call N.«std» N.«is_same_v»
  [(.name N.«LeftRep»), (.name N.«common_rep_type»)] .nil) (.ret (.call N.«Ops» N.«less» [] (.cons
  (.method (.var 0 N.«left») N.«raw») (.cons (.cast (.name N.«common_rep_type») (.var 0 N.«right»))
  .nil))) .nil) (.ite (.call N.«std» N.«is_same_v» [(.name N.«RightRep»), (.name
  N.«common_rep_type»)] .nil) (.ret (.call N.«Ops» N.«less» [] (.cons (.cast (.name
  N.«common_raw_type») (.method (.var 0 N.«left») N.«raw»)) (.cons (.var 0 N.«right») .nil))) .nil)
  (.ret (.call N.«Ops» N.«less» [] (.cons (.cast (.name N.«common_raw_type») (.method (.var 0
  N.«left») N.«raw»)) (.cons (.cast (.name N.«common_rep_type») (.var 0 N.«right»)) .nil))) .nil)
  .nil) .nil) .nil)))) := rfl
@[pick] theorem op_lt_2_score : F.op_lt_2.score = 103 := rfl
@[exec_header] theorem op_lt_2_isCtor : F.op_lt_2.isCtor = false := rfl
@[pick] theorem op_lt_3_tparams : F.op_lt_3.tparams = [N.«LeftRep», N.«RightRep», N.«Ops»] := rfl
@[pick, exec_header] theorem op_lt_3_params : F.op_lt_3.params = [⟨(.name N.«LeftRep»), N.«left»,
  none⟩, ⟨(.app2 N.«fraction» (.name N.«RightRep») (.name N.«Ops»)), N.«right», none⟩] := rfl
@[pick] theorem op_lt_3_isConst : F.op_lt_3.isConst = false := rfl
@[exec_header] theorem op_lt_3_ret : F.op_lt_3.ret = (.name N.«bool») := rfl
@[exec_header] theorem op_lt_3_body : F.op_lt_3.body = (some (.using N.«common_rep_type» (.app2
  N.«std::common_type_t» (.name N.«LeftRep») (.name N.«RightRep»)) (.using N.«common_raw_type»
  (.app1 N.«raw_fraction» (.name N.«common_rep_type»)) (.ite (.call N.«std» N.«is_same_v» [(.name
  N.«LeftRep»), (.name N.«RightRep»)] .nil) (.ret (.call N.«Ops» N.«less» [] (.cons (.var 0
  N.«left») (.cons (.method (.var 0 N.«right») N.«raw») .nil))) .nil) (.ite (.call N.«std»
  N.«is_same_v» [(.name N.«LeftRep»), (.name N.«common_rep_type»)] .nil) (.ret (.call N.«Ops»
  N.«less» [] (.cons (.var 0 N.«left») (.cons (.cast (.name N.«common_raw_type») (.method (.var 0
  N.«right») N.«raw»)) .nil))) .nil) (.ite (.call N.«std» N.«is_same_v» [(.name N.«RightRep»),
  (.name N.«common_rep_type»)] .nil) (.ret (.call N.«Ops» N.«less» [] (.cons (.cast (.name
  N.«common_rep_type») (.var 0 N.«left»)) (.cons (.method (.var 0 N.«right») N.«raw») .nil))) .nil)
  (.ret (.call N.«Ops» N.«less» [] (.cons (.cast (.name N.«common_rep_type») (.var 0 N.«left»))
  (.cons (.cast (.name N.«common_raw_type») (.method (.var 0 N.«right») N.«raw»)) .nil))) .nil)
  .nil) .nil) .nil)))) := rfl
@[pick] theorem op_lt_3_score : F.op_lt_3.score = 103 := rfl
@[exec_header] theorem op_lt_3_isCtor : F.op_lt_3.isCtor = false := rfl
@[pick] theorem op_le_1_tparams : F.op_le_1.tparams = [N.«LeftRep», N.«RightRep», N.«Ops»] := rfl
@[pick, exec_header] theorem op_le_1_params : F.op_le_1.params = [⟨(.app2 N.«fraction» (.name
  N.«LeftRep») (.name N.«Ops»)), N.«left», none⟩, ⟨(.app2 N.«fraction» (.name N.«RightRep») (.name
  N.«Ops»)), N.«right», none⟩] := rfl
@[pick] theorem op_le_1_isConst : F.op_le_1.isConst = false := rfl
@[exec_header] theorem op_le_1_ret : F.op_le_1.ret = (.name N.«bool») := rfl
@[exec_header] theorem op_le_1_body : F.op_le_1.body = (some (.using N.«common_rep_type» (.app2
  N.«std::common_type_t» (.name N.«LeftRep») (.name N.«RightRep»)) (.using N.«common_raw_type»
  (.app1 N.«raw_fraction» (.name N.«common_rep_type»)) (.ite (.call N.«std» N.«is_same_v» [(.name
  N.«LeftRep»), (.name N.«RightRep»)] .nil) (.ret (.call N.«Ops» N.«less_equal» [] (.cons (.method
  (.var 0 N.«left») N.«raw») (.cons (.method (.var 0 N.«right») N.«raw») .nil))) .nil) (.ite (.call
  N.«std» N.«is_same_v» [(.name N.«LeftRep»), (.name N.«common_rep_type»)] .nil) (.ret (.call
  N.«Ops» N.«less_equal» [] (.cons (.method (.var 0 N.«left») N.«raw») (.cons (.cast (.name
  N.«common_raw_type») (.method (.var 0 N.«right») N.«raw»)) .nil))) .nil) (.ite (.call N.«std»
  N.«is_same_v» [(.name N.«RightRep»), (.name N.«common_rep_type»)] .nil) (.ret (.call N.«Ops»
  N.«less_equal» [] (.cons (.cast (.name N.«common_raw_type») (.method (.var 0 N.«left») N.«raw»))
  (.cons (.method (.var 0 N.«right») N.«raw») .nil))) .nil) (.ret (.call N.«Ops» N.«less_equal» []
  (.cons (.cast (.name N.«common_raw_type») (.method (.var 0 N.«left») N.«raw»)) (.cons (.cast
  (.name N.«common_raw_type») (.method (.var 0 N.«right») N.«raw»)) .nil))) .nil) .nil) .nil)
  .nil)))) := rfl
@[pick] theorem op_le_1_score : F.op_le_1.score = 3 := rfl
@[exec_header] theorem op_le_1_isCtor : F.op_le_1.isCtor = false := rfl
@[pick] theorem op_le_2_tparams : F.op_le_2.tparams = [N.«LeftRep», N.«RightRep», N.«Ops»] := rfl
@[pick, exec_header] theorem op_le_2_params : F.op_le_2.params = [⟨(.app2 N.«fraction» (.name
  N.«LeftRep») (.name N.«Ops»)), N.«left», none⟩, ⟨(.name N.«RightRep»), N.«right», none⟩] := rfl
@[pick] theorem op_le_2_isConst : F.op_le_2.isConst = false := rfl
@[exec_header] theorem op_le_2_ret : F.op_le_2.ret = (.name N.«bool») := rfl
@[exec_header] theorem op_le_2_body : F.op_le_2.body = (some (.using N.«common_rep_type» (.app2
  N.«std::common_type_t» (.name N.«LeftRep») (.name N.«RightRep»)) (.using N.«common_raw_type»
  (.app1 N.«raw_fraction» (.name N.«common_rep_type»)) (.ite (.call N.«std» N.«is_same_v» [(.name
  N.«LeftRep»), (.name N.«RightRep»)] .nil) (.ret (.call N.«Ops» N.«less_equal» [] (.cons (.method
  (.var 0 N.«left») N.«raw») (.cons (.var 0 N.«right») .nil))) .nil) (.ite (.call N.«std»
  N.«is_same_v» [(.name N.«LeftRep»), (.name N.«common_rep_type»)] .nil) (.ret (.call N.«Ops»
  N.«less_equal» [] (.cons (.method (.var 0 N.«left») N.«raw») (.cons (.cast (.name
  N.«common_rep_type») (.var 0 N.«right»)) .nil))) .nil) (.ite (.call N.«std» N.«is_same_v» [(.name
  N.«RightRep»), (.name N.«common_rep_type»)] .nil) (.ret (.call N.«Ops» N.«less_equal» [] (.cons
  (.cast (.name N.«common_raw_type») (.method (.var 0 N.«left») N.«raw»)) (.cons (.var 0 N.«right»)
  .nil))) .nil) (.ret (.call N.«Ops» N.«less_equal» [] (.cons (.cast (.name N.«common_raw_type»)
  (.method (.var 0 N.«left») N.«raw»)) (.cons (.cast (.name N.«common_rep_type») (.var 0
  N.«right»)) .nil))) .nil) .nil) .nil) .nil)))) := rfl
@[pick] theorem op_le_2_score : F.op_le_2.score = 103 := rfl
@[exec_header] theorem op_le_2_isCtor : F.op_le_2.isCtor = false := rfl
@[pick] theorem op_le_3_tparams : F.op_le_3.tparams = [N.«LeftRep», N.«RightRep», N.«Ops»] := rfl
@[pick, exec_header] theorem op_le_3_params : F.op_le_3.params = [⟨(.name N.«LeftRep»), N.«left»,
  none⟩, ⟨(.app2 N.«fraction» (.name N.«RightRep») (.name N.«Ops»)), N.«right», none⟩] := rfl
@[pick] theorem op_le_3_isConst : F.op_le_3.isConst = false := rfl
@[exec_header] theorem op_le_3_ret : F.op_le_3.ret = (.name N.«bool») := rfl
@[exec_header] theorem op_le_3_body : F.op_le_3.body = (some (.using N.«common_rep_type» (.app2
  N.«std::common_type_t» (.name N.«LeftRep») (.name N.«RightRep»)) (.using N.«common_raw_type»
  (.app1 N.«raw_fraction» (.name N.«common_rep_type»)) (.ite (.call N.«std» N.«is_same_v» [(.name
  N.«LeftRep»), (.name N.«RightRep»)] .nil) (.ret (.call N.«Ops» N.«less_equal» [] (.cons (.var 0
  N.«left») (.cons (.method (.var 0 N.«right») N.«raw») .nil))) .nil) (.ite (.call N.«std»
  N.«is_same_v» [(.name N.«LeftRep»), (.name N.«common_rep_type»)] .nil) (.ret (.call N.«Ops»
  N.«less_equal» [] (.cons (.var 0 N.«left») (.cons (.cast (.name N.«common_raw_type») (.method
  (.var 0 N.«right») N.«raw»)) .nil))) .nil) (.ite (.call N.«std» N.«is_same_v» [(.name
  N.«RightRep»), (.name N.«common_rep_type»)] .nil) (.ret (.call N.«Ops» N.«less_equal» [] (.cons
  (.cast (.name N.«common_rep_type») (.var 0 N.«left»)) (.cons (.method (.var 0 N.«right») N.«raw»)
  .nil))) .nil) (.ret (.call N.«Ops» N.«less_equal» [] (.cons (.cast (.name N.«common_rep_type»)
  (.var 0 N.«left»)) (.cons (.cast (.name N.«common_raw_type») (.method (.var 0 N.«right»)
  N.«raw»)) .nil))) .nil) .nil) .nil) .nil)))) := rfl
@[pick] theorem op_le_3_score : F.op_le_3.score = 103 := rfl
@[exec_header] theorem op_le_3_isCtor : F.op_le_3.isCtor = false := rfl
@[pick] theorem op_gt_1_tparams : F.op_gt_1.tparams = [N.«LeftRep», N.«RightRep», N.«Ops»] := rfl
@[pick, exec_header] theorem op_gt_1_params : F.op_gt_1.params = [⟨(.app2 N.«fraction» (.name
  N.«LeftRep») (.name N.«Ops»)), N.«left», none⟩, ⟨(.app2 N.«fraction» (.name N.«RightRep») (.name
  N.«Ops»)), N.«right», none⟩] := rfl
@[pick] theorem op_gt_1_isConst : F.op_gt_1.isConst = false := rfl
@[exec_header] theorem op_gt_1_ret : F.op_gt_1.ret = (.name N.«bool») := rfl
@[exec_header] theorem op_gt_1_body : F.op_gt_1.body = (some (.using N.«common_rep_type» (.app2
  N.«std::common_type_t» (.name N.«LeftRep») (.name N.«RightRep»)) (.using N.«common_raw_type»
  (.app1 N.«raw_fraction» (.name N.«common_rep_type»)) (.ite (.call N.«std» N.«is_same_v» [(.name
  N.«LeftRep»), (.name N.«RightRep»)] .nil) (.ret (.call N.«Ops» N.«greater» [] (.cons (.method
  (.var 0 N.«left») N.«raw») (.cons (.method (.var 0 N.«right») N.«raw») .nil))) .nil) (.ite (.call
  N.«std» N.«is_same_v» [(.name N.«LeftRep»), (.name N.«common_rep_type»)] .nil) (.ret (.call
  N.«Ops» N.«greater» [] (.cons (.method (.var 0 N.«left») N.«raw») (.cons (.cast (.name
  N.«common_raw_type») (.method (.var 0 N.«right») N.«raw»)) .nil))) .nil) (.ite (.call N.«std»
  N.«is_same_v» [(.name N.«RightRep»), (.name N.«common_rep_type»)] .nil) (.ret (.call N.«Ops»
  N.«greater» [] (.cons (.cast (.name N.«common_raw_type») (.method (.var 0 N.«left») N.«raw»))
  (.cons (.method (.var 0 N.«right») N.«raw») .nil))) .nil) (.ret (.call N.«Ops» N.«greater» []
  (.cons (.cast (.name N.«common_raw_type») (.method (.var 0 N.«left») N.«raw»)) (.cons (.cast
  (.name N.«common_raw_type») (.method (.var 0 N.«right») N.«raw»)) .nil))) .nil) .nil) .nil)
  .nil)))) := rfl
@[pick] theorem op_gt_1_score : F.op_gt_1.score = 3 := rfl
@[exec_header] theorem op_gt_1_isCtor : F.op_gt_1.isCtor = false := rfl
@[pick] theorem op_gt_2_tparams : F.op_gt_2.tparams = [N.«LeftRep», N.«RightRep», N.«Ops»] := rfl
@[pick, exec_header] theorem op_gt_2_params : F.op_gt_2.params = [⟨(.app2 N.«fraction» (.name
  N.«LeftRep») (.name N.«Ops»)), N.«left», none⟩, ⟨(.name N.«RightRep»), N.«right», none⟩] := rfl
@[pick] theorem op_gt_2_isConst : F.op_gt_2.isConst = false := rfl
@[exec_header] theorem op_gt_2_ret : F.op_gt_2.ret = (.name N.«bool») := rfl
@[exec_header] theorem op_gt_2_body : F.op_gt_2.body = (some (.using N.«common_rep_type» (.app2
  N.«std::common_type_t» (.name N.«LeftRep») (.name N.«RightRep»)) (.using N.«common_raw_type»
  (.app1 N.«raw_fraction» (.name N.«common_rep_type»)) (.ite (.call N.«std» N.«is_same_v» [(.name
  N.«LeftRep»), (.name N.«RightRep»)] .nil) (.ret (.call N.«Ops» N.«greater» [] (.cons (.method
  (.var 0 N.«left») N.«raw») (.cons (.var 0 N.«right») .nil))) .nil) (.ite (.call N.«std»
  N.«is_same_v» [(.name N.«LeftRep»), (.name N.«common_rep_type»)] .nil) (.ret (.call N.«Ops»
  N.«greater» [] (.cons (.method (.var 0 N.«left») N.«raw») (.cons (.cast (.name
  N.«common_rep_type») (.var 0 N.«right»)) .nil))) .nil) (.ite (.call N.«std» N.«is_same_v» [(.name
  N.«RightRep»), (.name N.«common_rep_type»)] .nil) (.ret (.call N.«Ops» N.«greater» [] (.cons
  (.cast (.name N.«common_raw_type») (.method (.var 0 N.«left») N.«raw»)) (.cons (.var 0 N.«right»)
  .nil))) .nil) (.ret (.call N.«Ops» N.«greater» [] (.cons (.cast (.name N.«common_raw_type»)
  (.method (.var 0 N.«left») N.«raw»)) (.cons (.cast (.name N.«common_rep_type») (.var 0
  N.«right»)) .nil))) .nil) .nil) .nil) .nil)))) := rfl
@[pick] theorem op_gt_2_score : F.op_gt_2.score = 103 := rfl
@[exec_header] theorem op_gt_2_isCtor : F.op_gt_2.isCtor = false := rfl
@[pick] theorem op_gt_3_tparams : F.op_gt_3.tparams = [N.«LeftRep», N.«RightRep», N.«Ops»] := rfl
@[pick, exec_header] theorem op_gt_3_params : F.op_gt_3.params = [⟨(.name N.«LeftRep»), N.«left»,
  none⟩, ⟨(.app2 N.«fraction» (.name N.«RightRep») (.name N.«Ops»)), N.«right», none⟩] := rfl
@[pick] theorem op_gt_3_isConst : F.op_gt_3.isConst = false := rfl
@[exec_header] theorem op_gt_3_ret : F.op_gt_3.ret = (.name N.«bool») := rfl
@[exec_header] theorem op_gt_3_body : F.op_gt_3.body = (some (.using N.«common_rep_type» (.app2
  N.«std::common_type_t» (.name N.«LeftRep») (.name N.«RightRep»)) (.using N.«common_raw_type»
  (.app1 N.«raw_fraction» (.name N.«common_rep_type»)) (.ite (.call N.«std» N.«is_same_v» [(.name
  N.«LeftRep»), (.name N.«RightRep»)] .nil) (.ret (.call N.«Ops» N.«greater» [] (.cons (.var 0
  N.«left») (.cons (.method (.var 0 N.«right») N.«raw») .nil))) .nil) (.ite (.call N.«std»
  N.«is_same_v» [(.name N.«LeftRep»), (.name N.«common_rep_type»)] .nil) (.ret (.call N.«Ops»
  N.«greater» [] (.cons (.var 0 N.«left») (.cons (.cast (.name N.«common_raw_type») (.method (.var
  0 N.«right») N.«raw»)) .nil))) .nil) (.ite (.call N.«std» N.«is_same_v» [(.name N.«RightRep»),
  (.name N.«common_rep_type»)] .nil) (.ret (.call N.«Ops» N.«greater» [] (.cons (.cast (.name
  N.«common_rep_type») (.var 0 N.«left»)) (.cons (.method (.var 0 N.«right») N.«raw») .nil))) .nil)
  (.ret (.call N.«Ops» N.«greater» [] (.cons (.cast (.name N.«common_rep_type») (.var 0 N.«left»))
  (.cons (.cast (.name N.«common_raw_type») (.method (.var 0 N.«right») N.«raw»)) .nil))) .nil)
  .nil) .nil) .nil)))) := rfl
@[pick] theorem op_gt_3_score : F.op_gt_3.score = 103 := rfl
@[exec_header] theorem op_gt_3_isCtor : F.op_gt_3.isCtor = false := rfl
@[pick] theorem op_ge_1_tparams : F.op_ge_1.tparams = [N.«LeftRep», N.«RightRep», N.«Ops»] := rfl
@[pick, exec_header] theorem op_ge_1_params : F.op_ge_1.params = [⟨(.app2 N.«fraction» (.name
  N.«LeftRep») (.name N.«Ops»)), N.«left», none⟩, ⟨(.app2 N.«fraction» (.name N.«RightRep») (.name
  N.«Ops»)), N.«right», none⟩] := rfl
@[pick] theorem op_ge_1_isConst : F.op_ge_1.isConst = false := rfl
@[exec_header] theorem op_ge_1_ret : F.op_ge_1.ret = (.name N.«bool») := rfl
@[exec_header] theorem op_ge_1_body : F.op_ge_1.body = (some (.using N.«common_rep_type» (.app2
  N.«std::common_type_t» (.name N.«LeftRep») (.name N.«RightRep»)) (.using N.«common_raw_type»
  (.app1 N.«raw_fraction» (.name N.«common_rep_type»)) (.ite (.call N.«std» N.«is_same_v» [(.name
  N.«LeftRep»), (.name N.«RightRep»)] .nil) (.ret (.call N.«Ops» N.«greater_equal» [] (.cons
  (.method (.var 0 N.«left») N.«raw») (.cons (.method (.var 0 N.«right») N.«raw») .nil))) .nil)
  (.ite (.call N.«std» N.«is_same_v» [(.name N.«LeftRep»), (.name N.«common_rep_type»)] .nil) (.ret
  (.call N.«Ops» N.«greater_equal» [] (.cons (.method (.var 0 N.«left») N.«raw») (.cons (.cast
  (.name N.«common_raw_type») (.method (.var 0 N.«right») N.«raw»)) .nil))) .nil) (.ite (.call
  N.«std» N.«is_same_v» [(.name N.«RightRep»), (.name N.«common_rep_type»)] .nil) (.ret (.call
  N.«Ops» N.«greater_equal» [] (.cons (.cast (.name N.«common_raw_type») (.method (.var 0 N.«left»)
  N.«raw»)) (.cons (.method (.var 0 N.«right») N.«raw») .nil))) .nil) (.ret (.call N.«Ops»
  N.«greater_equal» [] (.cons (.cast (.name N.«common_raw_type») (.method (.var 0 N.«left»)
  N.«raw»)) (.cons (.cast (.name N.«common_raw_type») (.method (.var 0 N.«right») N.«raw»)) .nil)))
  .nil) .nil) .nil) .nil)))) := rfl
@[pick] theorem op_ge_1_score : F.op_ge_1.score = 3 := rfl
@[exec_header] theorem op_ge_1_isCtor : F.op_ge_1.isCtor = false := rfl
@[pick] theorem op_ge_2_tparams : F.op_ge_2.tparams = [N.«LeftRep», N.«RightRep», N.«Ops»] := rfl
@[pick, exec_header] theorem op_ge_2_params : F.op_ge_2.params = [⟨(.app2 N.«fraction» (.name
  N.«LeftRep») (.name N.«Ops»)), N.«left», none⟩, ⟨(.name N.«RightRep»), N.«right», none⟩] := rfl
@[pick] theorem op_ge_2_isConst : F.op_ge_2.isConst = false := rfl
@[exec_header] theorem op_ge_2_ret : F.op_ge_2.ret = (.name N.«bool») := rfl
@[exec_header] theorem op_ge_2_body : F.op_ge_2.body = (some (.using N.«common_rep_type» (.app2
  N.«std::common_type_t» (.name N.«LeftRep») (.name N.«RightRep»)) (.using N.«common_raw_type»
  (.app1 N.«raw_fraction» (.name N.«common_rep_type»)) (.ite (.call N.«std» N.«is_same_v» [(.name
  N.«LeftRep»), (.name N.«RightRep»)] .nil) (.ret (.call N.«Ops» N.«greater_equal» [] (.cons
  (.method (.var 0 N.«left») N.«raw») (.cons (.var 0 N.«right») .nil))) .nil) (.ite (.call N.«std»
  N.«is_same_v» [(.name N.«LeftRep»), (.name N.«common_rep_type»)] .nil) (.ret (.call N.«Ops»
  N.«greater_equal» [] (.cons (.method (.var 0 N.«left») N.«raw») (.cons (.cast (.name
  N.«common_rep_type») (.var 0 N.«right»)) .nil))) .nil) (.ite (.call N.«std» N.«is_same_v» [(.name
  N.«RightRep»), (.name N.«common_rep_type»)] .nil) (.ret (.call N.«Ops» N.«greater_equal» []
  (.cons (.cast (.name N.«common_raw_type») (.method (.var 0 N.«left») N.«raw»)) (.cons (.var 0
  N.«right») .nil))) .nil) (.ret (.call N.«Ops» N.«greater_equal» [] (.cons (.cast (.name
  N.«common_raw_type») (.method (.var 0 N.«left») N.«raw»)) (.cons (.cast (.name
  N.«common_rep_type») (.var 0 N.«right»)) .nil))) .nil) .nil) .nil) .nil)))) := rfl
@[pick] theorem op_ge_2_score : F.op_ge_2.score = 103 := rfl
@[exec_header] theorem op_ge_2_isCtor : F.op_ge_2.isCtor = false := rfl
@[pick] theorem op_ge_3_tparams : F.op_ge_3.tparams = [N.«LeftRep», N.«RightRep», N.«Ops»] := rfl
@[pick, exec_header] theorem op_ge_3_params : F.op_ge_3.params = [⟨(.name N.«LeftRep»), N.«left»,
  none⟩, ⟨(.app2 N.«fraction» (.name N.«RightRep») (.name N.«Ops»)), N.«right», none⟩] := rfl
@[pick] theorem op_ge_3_isConst : F.op_ge_3.isConst = false := rfl
@[exec_header] theorem op_ge_3_ret : F.op_ge_3.ret = (.name N.«bool») := rfl
@[exec_header] theorem op_ge_3_body : F.op_ge_3.body = (some (.using N.«common_rep_type» (.app2
  N.«std::common_type_t» (.name N.«LeftRep») (.name N.«RightRep»)) (.using N.«common_raw_type»
  (.app1 N.«raw_fraction» (.name N.«common_rep_type»)) (.ite (.call N.«std» N.«is_same_v» [(.name
  N.«LeftRep»), (.name N.«RightRep»)] .nil) (.ret (.call N.«Ops» N.«greater_equal» [] (.cons (.var
  0 N.«left») (.cons (.method (.var 0 N.«right») N.«raw») .nil))) .nil) (.ite (.call N.«std»
  N.«is_same_v» [(.name N.«LeftRep»), (.name N.«common_rep_type»)] .nil) (.ret (.call N.«Ops»
  N.«greater_equal» [] (.cons (.var 0 N.«left») (.cons (.cast (.name N.«common_raw_type») (.method
  (.var 0 N.«right») N.«raw»)) .nil))) .nil) (.ite (.call N.«std» N.«is_same_v» [(.name
  N.«RightRep»), (.name N.«common_rep_type»)] .nil) (.ret (.call N.«Ops» N.«greater_equal» []
  (.cons (.cast (.name N.«common_rep_type») (.var 0 N.«left»)) (.cons (.method (.var 0 N.«right»)
  N.«raw») .nil))) .nil) (.ret (.call N.«Ops» N.«greater_equal» [] (.cons (.cast (.name
  N.«common_rep_type») (.var 0 N.«left»)) (.cons (.cast (.name N.«common_raw_type») (.method (.var
  0 N.«right») N.«raw»)) .nil))) .nil) .nil) .nil) .nil)))) := rfl
@[pick] theorem op_ge_3_score : F.op_ge_3.score = 103 := rfl
@[exec_header] theorem op_ge_3_isCtor : F.op_ge_3.isCtor = false := rfl
@[pick] theorem is_defined_2_tparams : F.is_defined_2.tparams = [N.«Rep», N.«Ops»] := rfl
@[pick, exec_header] theorem is_defined_2_params : F.is_defined_2.params = [⟨(.app2 N.«fraction»
  (.name N.«Rep») (.name N.«Ops»)), N.«value», none⟩] := rfl
@[pick] theorem is_defined_2_isConst : F.is_defined_2.isConst = false := rfl
@[exec_header] theorem is_defined_2_ret : F.is_defined_2.ret = (.name N.«bool») := rfl
@[exec_header] theorem is_defined_2_body : F.is_defined_2.body = (some (.ret (.call 0
  N.«is_defined» [] (.cons (.method (.var 0 N.«value») N.«raw») .nil)) .nil)) := rfl
@[pick] theorem is_defined_2_score : F.is_defined_2.score = 2 := rfl
@[exec_header] theorem is_defined_2_isCtor : F.is_defined_2.isCtor = false := rfl
@[pick] theorem is_undefined_2_tparams : F.is_undefined_2.tparams = [N.«Rep», N.«Ops»] := rfl
@[pick, exec_header] theorem is_undefined_2_params : F.is_undefined_2.params = [⟨(.app2
  N.«fraction» (.name N.«Rep») (.name N.«Ops»)), N.«value», none⟩] := rfl
@[pick] theorem is_undefined_2_isConst : F.is_undefined_2.isConst = false := rfl
@[exec_header] theorem is_undefined_2_ret : F.is_undefined_2.ret = (.name N.«bool») := rfl
@[exec_header] theorem is_undefined_2_body : F.is_undefined_2.body = (some (.ret (.call 0
  N.«is_undefined» [] (.cons (.method (.var 0 N.«value») N.«raw») .nil)) .nil)) := rfl
@[pick] theorem is_undefined_2_score : F.is_undefined_2.score = 2 := rfl
@[exec_header] theorem is_undefined_2_isCtor : F.is_undefined_2.isCtor = false := rfl
@[pick] theorem is_positive_2_tparams : F.is_positive_2.tparams = [N.«Rep», N.«Ops»] := rfl
@[pick, exec_header] theorem is_positive_2_params : F.is_positive_2.params = [⟨(.app2 N.«fraction»
  (.name N.«Rep») (.name N.«Ops»)), N.«value», none⟩] := rfl
@[pick] theorem is_positive_2_isConst : F.is_positive_2.isConst = false := rfl
@[exec_header] theorem is_positive_2_ret : F.is_positive_2.ret = (.name N.«bool») := rfl
@[exec_header] theorem is_positive_2_body : F.is_positive_2.body = (some (.ret (.call 0
  N.«is_positive» [] (.cons (.method (.var 0 N.«value») N.«raw») .nil)) .nil)) := rfl
@[pick] theorem is_positive_2_score : F.is_positive_2.score = 2 := rfl
@[exec_header] theorem is_positive_2_isCtor : F.is_positive_2.isCtor = false := rfl
@[pick] theorem is_non_negative_2_tparams : F.is_non_negative_2.tparams = [N.«Rep», N.«Ops»] := rfl
@[pick, exec_header] theorem is_non_negative_2_params : F.is_non_negative_2.params = [⟨(.app2
  N.«fraction» (.name N.«Rep») (.name N.«Ops»)), N.«value», none⟩] := rfl
@[pick] theorem is_non_negative_2_isConst : F.is_non_negative_2.isConst = false := rfl
@[exec_header] theorem is_non_negative_2_ret : F.is_non_negative_2.ret = (.name N.«bool») := rfl
@[exec_header] theorem is_non_negative_2_body : F.is_non_negative_2.body = (some (.ret (.call 0
  N.«is_non_negative» [] (.cons (.method (.var 0 N.«value») N.«raw») .nil)) .nil)) := rfl
@[pick] theorem is_non_negative_2_score : F.is_non_negative_2.score = 2 := rfl
@[exec_header] theorem is_non_negative_2_isCtor : F.is_non_negative_2.isCtor = false := rfl
@[pick] theorem is_zero_2_tparams : F.is_zero_2.tparams = [N.«Rep», N.«Ops»] := rfl
@[pick, exec_header] theorem is_zero_2_params : F.is_zero_2.params = [⟨(.app2 N.«fraction» (.name
  N.«Rep») (.name N.«Ops»)), N.«value», none⟩] := rfl
@[pick] theorem is_zero_2_isConst : F.is_zero_2.isConst = false := rfl
@[exec_header] theorem is_zero_2_ret : F.is_zero_2.ret = (.name N.«bool») := rfl
@[exec_header] theorem is_zero_2_body : F.is_zero_2.body = (some (.ret (.call 0 N.«is_zero» []
  (.cons (.method (.var 0 N.«value») N.«raw») .nil)) .nil)) := rfl
@[pick] theorem is_zero_2_score : F.is_zero_2.score = 2 := rfl
@[exec_header] theorem is_zero_2_isCtor : F.is_zero_2.isCtor = false := rfl
@[pick] theorem is_non_positive_2_tparams : F.is_non_positive_2.tparams = [N.«Rep», N.«Ops»] := rfl
@[pick, exec_header] theorem is_non_positive_2_params : F.is_non_positive_2.params = [⟨(.app2
  N.«fraction» (.name N.«Rep») (.name N.«Ops»)), N.«value», none⟩] := rfl
@[pick] theorem is_non_positive_2_isConst : F.is_non_positive_2.isConst = false := rfl
@[exec_header] theorem is_non_positive_2_ret : F.is_non_positive_2.ret = (.name N.«bool») := rfl
@[exec_header] theorem is_non_positive_2_body : F.is_non_positive_2.body = (some (.ret (.call 0
  N.«is_non_positive» [] (.cons (.method (.var 0 N.«value») N.«raw») .nil)) .nil)) := rfl
@[pick] theorem is_non_positive_2_score : F.is_non_positive_2.score = 2 := rfl
@[exec_header] theorem is_non_positive_2_isCtor : F.is_non_positive_2.isCtor = false := rfl
@[pick] theorem is_negative_2_tparams : F.is_negative_2.tparams = [N.«Rep», N.«Ops»] := rfl
@[pick, exec_header] theorem is_negative_2_params : F.is_negative_2.params = [⟨(.app2 N.«fraction»
  (.name N.«Rep») (.name N.«Ops»)), N.«value», none⟩] := rfl
@[pick] theorem is_negative_2_isConst : F.is_negative_2.isConst = false := rfl
@[exec_header] theorem is_negative_2_ret : F.is_negative_2.ret = (.name N.«bool») := rfl
@[exec_header] theorem is_negative_2_body : F.is_negative_2.body = (some (.ret (.call 0
  N.«is_negative» [] (.cons (.method (.var 0 N.«value») N.«raw») .nil)) .nil)) := rfl
@[pick] theorem is_negative_2_score : F.is_negative_2.score = 2 := rfl
@[exec_header] theorem is_negative_2_isCtor : F.is_negative_2.isCtor = false := rfl
@[pick] theorem is_integer_2_tparams : F.is_integer_2.tparams = [N.«Rep», N.«Ops»] := rfl
@[pick, exec_header] theorem is_integer_2_params : F.is_integer_2.params = [⟨(.app2 N.«fraction»
  (.name N.«Rep») (.name N.«Ops»)), N.«value», none⟩] := rfl
@[pick] theorem is_integer_2_isConst : F.is_integer_2.isConst = false := rfl
@[exec_header] theorem is_integer_2_ret : F.is_integer_2.ret = (.name N.«bool») := rfl
@[exec_header] theorem is_integer_2_body : F.is_integer_2.body = (some (.ret (.call 0
  N.«is_integer» [] (.cons (.method (.var 0 N.«value») N.«raw») .nil)) .nil)) := rfl
@[pick] theorem is_integer_2_score : F.is_integer_2.score = 2 := rfl
@[exec_header] theorem is_integer_2_isCtor : F.is_integer_2.isCtor = false := rfl
@[pick] theorem is_unit_fraction_2_tparams : F.is_unit_fraction_2.tparams = [N.«Rep», N.«Ops»] :=
  rfl
@[pick, exec_header] theorem is_unit_fraction_2_params : F.is_unit_fraction_2.params = [⟨(.app2
  N.«fraction» (.name N.«Rep») (.name N.«Ops»)), N.«value», none⟩] := rfl
@[pick] theorem is_unit_fraction_2_isConst : F.is_unit_fraction_2.isConst = false := rfl
@[exec_header] theorem is_unit_fraction_2_ret : F.is_unit_fraction_2.ret = (.name N.«bool») := rfl
@[exec_header] theorem is_unit_fraction_2_body : F.is_unit_fraction_2.body = (some (.ret (.call 0
  N.«is_unit_fraction» [] (.cons (.method (.var 0 N.«value») N.«raw») .nil)) .nil)) := rfl
@[pick] theorem is_unit_fraction_2_score : F.is_unit_fraction_2.score = 2 := rfl
@[exec_header] theorem is_unit_fraction_2_isCtor : F.is_unit_fraction_2.isCtor = false := rfl
@[pick] theorem is_reduced_ignore_signs_2_tparams : F.is_reduced_ignore_signs_2.tparams = [N.«Rep»,
  N.«Ops»] := rfl
@[pick, exec_header] theorem is_reduced_ignore_signs_2_params : F.is_reduced_ignore_signs_2.params
  = [⟨(.app2 N.«fraction» (.name N.«Rep») (.name N.«Ops»)), N.«value», none⟩] := rfl
@[pick] theorem is_reduced_ignore_signs_2_isConst : F.is_reduced_ignore_signs_2.isConst = false := rfl
@[exec_header] theorem is_reduced_ignore_signs_2_ret : F.is_reduced_ignore_signs_2.ret = (.name
  N.«bool») := rfl
@[exec_header] theorem is_reduced_ignore_signs_2_body : F.is_reduced_ignore_signs_2.body = (some
  (.ret (.call 0 N.«is_reduced_ignore_signs» [] (.cons (.method (.var 0 N.«value») N.«raw») .nil))
  .nil)) := rfl
@[pick] theorem is_reduced_ignore_signs_2_score : F.is_reduced_ignore_signs_2.score = 2 := rfl
@[exec_header] theorem is_reduced_ignore_signs_2_isCtor : F.is_reduced_ignore_signs_2.isCtor = false := rfl
@[pick] theorem is_reduced_2_tparams : F.is_reduced_2.tparams = [N.«Rep», N.«Ops»] := rfl
@[pick, exec_header] theorem is_reduced_2_params : F.is_reduced_2.params = [⟨(.app2 N.«fraction»
  (.name N.«Rep») (.name N.«Ops»)), N.«value», none⟩] := rfl
@[pick] theorem is_reduced_2_isConst : F.is_reduced_2.isConst = false := rfl
@[exec_header] theorem is_reduced_2_ret : F.is_reduced_2.ret = (.name N.«bool») := rfl
@[exec_header] theorem is_reduced_2_body : F.is_reduced_2.body = (some (.ret (.call 0
  N.«is_reduced» [] (.cons (.method (.var 0 N.«value») N.«raw») .nil)) .nil)) := rfl
@[pick] theorem is_reduced_2_score : F.is_reduced_2.score = 2 := rfl
@[exec_header] theorem is_reduced_2_isCtor : F.is_reduced_2.isCtor = false := rfl
@[pick] theorem is_proper_2_tparams : F.is_proper_2.tparams = [N.«Rep», N.«Ops»] := rfl
@[pick, exec_header] theorem is_proper_2_params : F.is_proper_2.params = [⟨(.app2 N.«fraction»
  (.name N.«Rep») (.name N.«Ops»)), N.«value», none⟩] := rfl
@[pick] theorem is_proper_2_isConst : F.is_proper_2.isConst = false := rfl
@[exec_header] theorem is_proper_2_ret : F.is_proper_2.ret = (.name N.«bool») := rfl
@[exec_header] theorem is_proper_2_body : F.is_proper_2.body = (some (.ret (.call 0 N.«is_proper»
  [] (.cons (.method (.var 0 N.«value») N.«raw») .nil)) .nil)) := rfl
@[pick] theorem is_proper_2_score : F.is_proper_2.score = 2 := rfl
@[exec_header] theorem is_proper_2_isCtor : F.is_proper_2.isCtor = false := rfl
@[pick] theorem is_improper_2_tparams : F.is_improper_2.tparams = [N.«Rep», N.«Ops»] := rfl
@[pick, exec_header] theorem is_improper_2_params : F.is_improper_2.params = [⟨(.app2 N.«fraction»
  (.name N.«Rep») (.name N.«Ops»)), N.«value», none⟩] := rfl
@[pick] theorem is_improper_2_isConst : F.is_improper_2.isConst = false := rfl
@[exec_header] theorem is_improper_2_ret : F.is_improper_2.ret = (.name N.«bool») := rfl
@[exec_header] theorem is_improper_2_body : F.is_improper_2.body = (some (.ret (.call 0
  N.«is_improper» [] (.cons (.method (.var 0 N.«value») N.«raw») .nil)) .nil)) := rfl
@[pick] theorem is_improper_2_score : F.is_improper_2.score = 2 := rfl
@[exec_header] theorem is_improper_2_isCtor : F.is_improper_2.isCtor = false := rfl
@[pick] theorem are_identical_2_tparams : F.are_identical_2.tparams = [N.«Rep», N.«LeftOps»,
  N.«RightOps»] := rfl
@[pick, exec_header] theorem are_identical_2_params : F.are_identical_2.params = [⟨(.app2
  N.«fraction» (.name N.«Rep») (.name N.«LeftOps»)), N.«left», none⟩, ⟨(.app2 N.«fraction» (.name
  N.«Rep») (.name N.«RightOps»)), N.«right», none⟩] := rfl
@[pick] theorem are_identical_2_isConst : F.are_identical_2.isConst = false := rfl
@[exec_header] theorem are_identical_2_ret : F.are_identical_2.ret = (.name N.«bool») := rfl
@[exec_header] theorem are_identical_2_body : F.are_identical_2.body = (some (.ret (.call 0
  N.«are_identical» [] (.cons (.method (.var 0 N.«left») N.«raw») (.cons (.method (.var 0
  N.«right») N.«raw») .nil))) .nil)) := rfl
@[pick] theorem are_identical_2_score : F.are_identical_2.score = 3 := rfl
@[exec_header] theorem are_identical_2_isCtor : F.are_identical_2.isCtor = false := rfl
@[pick] theorem are_different_2_tparams : F.are_different_2.tparams = [N.«Rep», N.«LeftOps»,
  N.«RightOps»] := rfl
@[pick, exec_header] theorem are_different_2_params : F.are_different_2.params = [⟨(.app2
  N.«fraction» (.name N.«Rep») (.name N.«LeftOps»)), N.«left», none⟩, ⟨(.app2 N.«fraction» (.name
  N.«Rep») (.name N.«RightOps»)), N.«right», none⟩] := rfl
@[pick] theorem are_different_2_isConst : F.are_different_2.isConst = false := rfl
@[exec_header] theorem are_different_2_ret : F.are_different_2.ret = (.name N.«bool») := rfl
@[exec_header] theorem are_different_2_body : F.are_different_2.body = (some (.ret (.call 0
  N.«are_different» [] (.cons (.method (.var 0 N.«left») N.«raw») (.cons (.method (.var 0
  N.«right») N.«raw») .nil))) .nil)) := rfl
@[pick] theorem are_different_2_score : F.are_different_2.score = 3 := rfl
@[exec_header] theorem are_different_2_isCtor : F.are_different_2.isCtor = false := rfl
@[pick] theorem reciprocal_2_tparams : F.reciprocal_2.tparams = [N.«Rep», N.«Ops»] := rfl
@[pick, exec_header] theorem reciprocal_2_params : F.reciprocal_2.params = [⟨(.app2 N.«fraction»
  (.name N.«Rep») (.name N.«Ops»)), N.«value», none⟩] := rfl
@[pick] theorem reciprocal_2_isConst : F.reciprocal_2.isConst = false := rfl
@[exec_header] theorem reciprocal_2_ret : F.reciprocal_2.ret = (.app2 N.«fraction» (.name N.«Rep»)
  (.name N.«Ops»)) := rfl
@[exec_header] theorem reciprocal_2_body : F.reciprocal_2.body = (some (.ret (.call 0
  N.«reciprocal» [] (.cons (.method (.var 0 N.«value») N.«raw») .nil)) .nil)) := rfl
@[pick] theorem reciprocal_2_score : F.reciprocal_2.score = 2 := rfl
@[exec_header] theorem reciprocal_2_isCtor : F.reciprocal_2.isCtor = false := rfl
@[pick] theorem normalize_signs_2_tparams : F.normalize_signs_2.tparams = [N.«Rep», N.«Ops»] := rfl
@[pick, exec_header] theorem normalize_signs_2_params : F.normalize_signs_2.params = [⟨(.app2
  N.«fraction» (.name N.«Rep») (.name N.«Ops»)), N.«value», none⟩] := rfl
@[pick] theorem normalize_signs_2_isConst : F.normalize_signs_2.isConst = false := rfl
@[exec_header] theorem normalize_signs_2_ret : F.normalize_signs_2.ret = (.app2 N.«fraction» (.name
  N.«Rep») (.name N.«Ops»)) := rfl
@[exec_header] theorem normalize_signs_2_body : F.normalize_signs_2.body = (some (.ret (.call 0
  N.«normalize_signs» [] (.cons (.method (.var 0 N.«value») N.«raw») .nil)) .nil)) := rfl
@[pick] theorem normalize_signs_2_score : F.normalize_signs_2.score = 2 := rfl
@[exec_header] theorem normalize_signs_2_isCtor : F.normalize_signs_2.isCtor = false := rfl
@[pick] theorem reduce_2_tparams : F.reduce_2.tparams = [N.«Rep», N.«Ops»] := rfl
@[pick, exec_header] theorem reduce_2_params : F.reduce_2.params = [⟨(.app2 N.«fraction» (.name
  N.«Rep») (.name N.«Ops»)), N.«value», none⟩, ⟨(.name N.«reduce_mode»), N.«mode», (some (.var
  N.«reduce_mode» N.«normalize_signs»))⟩] := rfl
@[pick] theorem reduce_2_isConst : F.reduce_2.isConst = false := rfl
@[exec_header] theorem reduce_2_ret : F.reduce_2.ret = (.app2 N.«fraction» (.name N.«Rep») (.name
  N.«Ops»)) := rfl
@[exec_header] theorem reduce_2_body : F.reduce_2.body = (some (.ret (.call 0 N.«reduce» [] (.cons
  (.method (.var 0 N.«value») N.«raw») (.cons (.var 0 N.«mode») .nil))) .nil)) := rfl
@[pick] theorem reduce_2_score : F.reduce_2.score = 2 := rfl
@[exec_header] theorem reduce_2_isCtor : F.reduce_2.isCtor = false := rfl
@[pick] theorem reduce_normalize_signs_2_tparams : F.reduce_normalize_signs_2.tparams = [N.«Rep»,
  N.«Ops»] := rfl
@[pick, exec_header] theorem reduce_normalize_signs_2_params : F.reduce_normalize_signs_2.params =
  [⟨(.app2 N.«fraction» (.name N.«Rep») (.name N.«Ops»)), N.«value», none⟩] := rfl
@[pick] theorem reduce_normalize_signs_2_isConst : F.reduce_normalize_signs_2.isConst = false := rfl
@[exec_header] theorem reduce_normalize_signs_2_ret : F.reduce_normalize_signs_2.ret = (.app2
  N.«fraction» (.name N.«Rep») (.name N.«Ops»)) := rfl
@[exec_header] theorem reduce_normalize_signs_2_body : F.reduce_normalize_signs_2.body = (some
  (.ret (.call 0 N.«reduce_normalize_signs» [] (.cons (.method (.var 0 N.«value») N.«raw») .nil))
  .nil)) := rfl
@[pick] theorem reduce_normalize_signs_2_score : F.reduce_normalize_signs_2.score = 2 := rfl
@[exec_header] theorem reduce_normalize_signs_2_isCtor : F.reduce_normalize_signs_2.isCtor = false := rfl
@[pick] theorem reduce_ignore_signs_2_tparams : F.reduce_ignore_signs_2.tparams = [N.«Rep»,
  N.«Ops»] := rfl
@[pick, exec_header] theorem reduce_ignore_signs_2_params : F.reduce_ignore_signs_2.params =
  [⟨(.app2 N.«fraction» (.name N.«Rep») (.name N.«Ops»)), N.«value», none⟩] := rfl
@[pick] theorem reduce_ignore_signs_2_isConst : F.reduce_ignore_signs_2.isConst = false := rfl
@[exec_header] theorem reduce_ignore_signs_2_ret : F.reduce_ignore_signs_2.ret = (.app2
  N.«fraction» (.name N.«Rep») (.name N.«Ops»)) := rfl
@[exec_header] theorem reduce_ignore_signs_2_body : F.reduce_ignore_signs_2.body = (some (.ret
  (.call 0 N.«reduce_ignore_signs» [] (.cons (.method (.var 0 N.«value») N.«raw») .nil)) .nil)) :=
  rfl
@[pick] theorem reduce_ignore_signs_2_score : F.reduce_ignore_signs_2.score = 2 := rfl
@[exec_header] theorem reduce_ignore_signs_2_isCtor : F.reduce_ignore_signs_2.isCtor = false := rfl
@[pick] theorem abs_1_tparams : F.abs_1.tparams = [N.«Rep», N.«Ops»] := rfl
@[pick, exec_header] theorem abs_1_params : F.abs_1.params = [⟨(.app2 N.«fraction» (.name N.«Rep»)
  (.name N.«Ops»)), N.«value», none⟩] := rfl
@[pick] theorem abs_1_isConst : F.abs_1.isConst = false := rfl
@[exec_header] theorem abs_1_ret : F.abs_1.ret = (.app2 N.«fraction» (.name N.«Rep») (.name
  N.«Ops»)) := rfl
@[exec_header] theorem abs_1_body : F.abs_1.body = (some (.ret (.cond (.call 0 N.«is_non_negative»
  [] (.cons (.var 0 N.«value») .nil)) (.var 0 N.«value») (.un .neg (.var 0 N.«value»))) .nil)) :=
  rfl
@[pick] theorem abs_1_score : F.abs_1.score = 2 := rfl
@[exec_header] theorem abs_1_isCtor : F.abs_1.isCtor = false := rfl
@[pick] theorem to_whole_1_tparams : F.to_whole_1.tparams = [N.«Rep», N.«Ops»] := rfl
@[pick, exec_header] theorem to_whole_1_params : F.to_whole_1.params = [⟨(.app2 N.«fraction» (.name
  N.«Rep») (.name N.«Ops»)), N.«value», none⟩, ⟨(.name N.«round_mode»), N.«mode», (some (.var
  N.«round_mode» N.«round»))⟩] := rfl
@[pick] theorem to_whole_1_isConst : F.to_whole_1.isConst = false := rfl
@[exec_header] theorem to_whole_1_ret : F.to_whole_1.ret = (.name N.«Rep») := rfl
@[exec_header] theorem to_whole_1_body : F.to_whole_1.body = (some (.switch (.var 0 N.«mode»)
  (.case (.var N.«round_mode» N.«trunc») (.ret (.call 0 N.«trunc» [] (.cons (.var 0 N.«value»)
  .nil)) (.case (.var N.«round_mode» N.«ceil») (.ret (.call 0 N.«ceil» [] (.cons (.var 0 N.«value»)
  .nil)) (.case (.var N.«round_mode» N.«floor») (.ret (.call 0 N.«floor» [] (.cons (.var 0
  N.«value») .nil)) (.case (.var N.«round_mode» N.«round») (.ret (.call 0 N.«round» [] (.cons (.var
  0 N.«value») .nil)) .nil)))))))) (.ret (.call 0 N.«to_whole» [] (.cons (.var 0 N.«value») .nil))
  .nil))) := rfl
@[pick] theorem to_whole_1_score : F.to_whole_1.score = 2 := rfl
@[exec_header] theorem to_whole_1_isCtor : F.to_whole_1.isCtor = false := rfl
@[pick] theorem trunc_1_tparams : F.trunc_1.tparams = [N.«Rep», N.«Ops»] := rfl
@[pick, exec_header] theorem trunc_1_params : F.trunc_1.params = [⟨(.app2 N.«fraction» (.name
  N.«Rep») (.name N.«Ops»)), N.«value», none⟩] := rfl
@[pick] theorem trunc_1_isConst : F.trunc_1.isConst = false := rfl
@[exec_header] theorem trunc_1_ret : F.trunc_1.ret = (.name N.«Rep») := rfl
@[exec_header] theorem trunc_1_body : F.trunc_1.body = (some (.ret (.bin .div (.method (.var 0
  N.«value») N.«numerator») (.method (.var 0 N.«value») N.«denominator»)) .nil)) := rfl
@[pick] theorem trunc_1_score : F.trunc_1.score = 2 := rfl
@[exec_header] theorem trunc_1_isCtor : F.trunc_1.isCtor = false := rfl
@[pick] theorem ceil_1_tparams : F.ceil_1.tparams = [N.«Rep», N.«Ops»] := rfl
@[pick, exec_header] theorem ceil_1_params : F.ceil_1.params = [⟨(.app2 N.«fraction» (.name
  N.«Rep») (.name N.«Ops»)), N.«value», none⟩] := rfl
@[pick] theorem ceil_1_isConst : F.ceil_1.isConst = false := rfl
@[exec_header] theorem ceil_1_ret : F.ceil_1.ret = (.name N.«Rep») := rfl
@[exec_header] theorem ceil_1_body : F.ceil_1.body = (some (.decl N.«truncated» (.call 0 N.«trunc»
  [] (.cons (.var 0 N.«value») .nil)) (.ret (.cond (.bin .or (.call 0 N.«is_integer» [] (.cons
  (.var 0 N.«value») .nil)) (.bin .lt (.var 0 N.«truncated») (.call 0 N.«_0» [(.name N.«Rep»)]
  .nil))) (.var 0 N.«truncated») (.bin .add (.var 0 N.«truncated») (.call 0 N.«_1» [(.name
  N.«Rep»)] .nil))) .nil))) := rfl
@[pick] theorem ceil_1_score : F.ceil_1.score = 2 := rfl
@[exec_header] theorem ceil_1_isCtor : F.ceil_1.isCtor = false := rfl
@[pick] theorem floor_1_tparams : F.floor_1.tparams = [N.«Rep», N.«Ops»] := rfl
@[pick, exec_header] theorem floor_1_params : F.floor_1.params = [⟨(.app2 N.«fraction» (.name
  N.«Rep») (.name N.«Ops»)), N.«value», none⟩] := rfl
@[pick] theorem floor_1_isConst : F.floor_1.isConst = false := rfl
@[exec_header] theorem floor_1_ret : F.floor_1.ret = (.name N.«Rep») := rfl
@[exec_header] theorem floor_1_body : F.floor_1.body = (some (.decl N.«truncated» (.call 0
  N.«trunc» [] (.cons (.var 0 N.«value») .nil)) (.ret (.cond (.bin .or (.call 0 N.«is_integer» []
  (.cons (.var 0 N.«value») .nil)) (.bin .ge (.var 0 N.«truncated») (.call 0 N.«_0» [(.name
  N.«Rep»)] .nil))) (.var 0 N.«truncated») (.bin .sub (.var 0 N.«truncated») (.call 0 N.«_1»
  [(.name N.«Rep»)] .nil))) .nil))) := rfl
@[pick] theorem floor_1_score : F.floor_1.score = 2 := rfl
@[exec_header] theorem floor_1_isCtor : F.floor_1.isCtor = false := rfl
@[pick] theorem round_1_tparams : F.round_1.tparams = [N.«Rep», N.«Ops»] := rfl
@[pick, exec_header] theorem round_1_params : F.round_1.params = [⟨(.app2 N.«fraction» (.name
  N.«Rep») (.name N.«Ops»)), N.«value», none⟩] := rfl
@[pick] theorem round_1_isConst : F.round_1.isConst = false := rfl
@[exec_header] theorem round_1_ret : F.round_1.ret = (.name N.«Rep») := rfl
@[exec_header] theorem round_1_body : F.round_1.body = (some (.decl N.«floored» (.call 0 N.«floor»
  [] (.cons (.var 0 N.«value») .nil)) (.ret (.cond (.bin .lt (.bin .sub (.var 0 N.«value») (.var 0
  N.«floored»)) (.call 0 N.«fraction» [(.name N.«Rep»), (.name N.«Ops»)] (.cons (.call 0 N.«_1»
  [(.name N.«Rep»)] .nil) (.cons (.call 0 N.«_2» [(.name N.«Rep»)] .nil) .nil)))) (.var 0
  N.«floored») (.bin .add (.var 0 N.«floored») (.call 0 N.«_1» [(.name N.«Rep»)] .nil))) .nil))) :=
  rfl
@[pick] theorem round_1_score : F.round_1.score = 2 := rfl
@[exec_header] theorem round_1_isCtor : F.round_1.isCtor = false := rfl
@[pick] theorem redenominate_1_tparams : F.redenominate_1.tparams = [N.«Rep», N.«Ops»] := rfl
@[pick, exec_header] theorem redenominate_1_params : F.redenominate_1.params = [⟨(.app2
  N.«fraction» (.name N.«Rep») (.name N.«Ops»)), N.«value», none⟩, ⟨(.name N.«Rep»),
  N.«new_denominator», none⟩, ⟨(.name N.«round_mode»), N.«mode», (some (.var N.«round_mode»
  N.«round»))⟩] := rfl
@[pick] theorem redenominate_1_isConst : F.redenominate_1.isConst = false := rfl
@[exec_header] theorem redenominate_1_ret : F.redenominate_1.ret = (.app2 N.«fraction» (.name
  N.«Rep») (.name N.«Ops»)) := rfl
@[exec_header] theorem redenominate_1_body : F.redenominate_1.body = (some (.switch (.var 0
  N.«mode») (.case (.var N.«round_mode» N.«trunc») (.ret (.call 0 N.«trunc_redenominate» [] (.cons
  (.var 0 N.«value») (.cons (.var 0 N.«new_denominator») .nil))) (.case (.var N.«round_mode»
  N.«ceil») (.ret (.call 0 N.«ceil_redenominate» [] (.cons (.var 0 N.«value») (.cons (.var 0
  N.«new_denominator») .nil))) (.case (.var N.«round_mode» N.«floor») (.ret (.call 0
  N.«floor_redenominate» [] (.cons (.var 0 N.«value») (.cons (.var 0 N.«new_denominator») .nil)))
  (.case (.var N.«round_mode» N.«round») (.ret (.call 0 N.«round_redenominate» [] (.cons (.var 0
  N.«value») (.cons (.var 0 N.«new_denominator») .nil))) .nil)))))))) (.ret (.call 0
  N.«redenominate» [] (.cons (.var 0 N.«value») (.cons (.var 0 N.«new_denominator») .nil))) .nil)))
  := rfl
@[pick] theorem redenominate_1_score : F.redenominate_1.score = 102 := rfl
@[exec_header] theorem redenominate_1_isCtor : F.redenominate_1.isCtor = false := rfl
@[pick] theorem trunc_redenominate_1_tparams : F.trunc_redenominate_1.tparams = [N.«Rep», N.«Ops»]
  := rfl
@[pick, exec_header] theorem trunc_redenominate_1_params : F.trunc_redenominate_1.params = [⟨(.app2
  N.«fraction» (.name N.«Rep») (.name N.«Ops»)), N.«value», none⟩, ⟨(.name N.«Rep»),
  N.«denominator», none⟩] := rfl
@[pick] theorem trunc_redenominate_1_isConst : F.trunc_redenominate_1.isConst = false := rfl
@[exec_header] theorem trunc_redenominate_1_ret : F.trunc_redenominate_1.ret = (.app2 N.«fraction»
  (.name N.«Rep») (.name N.«Ops»)) := rfl
@[exec_header] theorem trunc_redenominate_1_body : F.trunc_redenominate_1.body = (some (.retBrace
  (.cons (.call 0 N.«trunc» [] (.cons (.bin .mul (.var 0 N.«value») (.var 0 N.«denominator»))
  .nil)) (.cons (.var 0 N.«denominator») .nil)) .nil)) := rfl
@[pick] theorem trunc_redenominate_1_score : F.trunc_redenominate_1.score = 102 := rfl
@[exec_header] theorem trunc_redenominate_1_isCtor : F.trunc_redenominate_1.isCtor = false := rfl
@[pick] theorem ceil_redenominate_1_tparams : F.ceil_redenominate_1.tparams = [N.«Rep», N.«Ops»] :=
  rfl
@[pick, exec_header] theorem ceil_redenominate_1_params : F.ceil_redenominate_1.params = [⟨(.app2
  N.«fraction» (.name N.«Rep») (.name N.«Ops»)), N.«value», none⟩, ⟨(.name N.«Rep»),
  N.«denominator», none⟩] := rfl
@[pick] theorem ceil_redenominate_1_isConst : F.ceil_redenominate_1.isConst = false := rfl
@[exec_header] theorem ceil_redenominate_1_ret : F.ceil_redenominate_1.ret = (.app2 N.«fraction»
  (.name N.«Rep») (.name N.«Ops»)) := rfl
@[exec_header] theorem ceil_redenominate_1_body : F.ceil_redenominate_1.body = (some (.retBrace
  (.cons (.cond (.bin .ge (.var 0 N.«denominator») (.call 0 N.«_0» [(.name N.«Rep»)] .nil)) (.call
  0 N.«ceil» [] (.cons (.bin .mul (.var 0 N.«value») (.var 0 N.«denominator»)) .nil)) (.un .neg
  (.call 0 N.«ceil» [] (.cons (.bin .mul (.var 0 N.«value») (.un .neg (.var 0 N.«denominator»)))
  .nil)))) (.cons (.var 0 N.«denominator») .nil)) .nil)) := rfl
@[pick] theorem ceil_redenominate_1_score : F.ceil_redenominate_1.score = 102 := rfl
@[exec_header] theorem ceil_redenominate_1_isCtor : F.ceil_redenominate_1.isCtor = false := rfl
@[pick] theorem floor_redenominate_1_tparams : F.floor_redenominate_1.tparams = [N.«Rep», N.«Ops»]
  := rfl
@[pick, exec_header] theorem floor_redenominate_1_params : F.floor_redenominate_1.params = [⟨(.app2
  N.«fraction» (.name N.«Rep») (.name N.«Ops»)), N.«value», none⟩, ⟨(.name N.«Rep»),
  N.«denominator», none⟩] := rfl
@[pick] theorem floor_redenominate_1_isConst : F.floor_redenominate_1.isConst = false := rfl
@[exec_header] theorem floor_redenominate_1_ret : F.floor_redenominate_1.ret = (.app2 N.«fraction»
  (.name N.«Rep») (.name N.«Ops»)) := rfl
@[exec_header] theorem floor_redenominate_1_body : F.floor_redenominate_1.body = (some (.retBrace
  (.cons (.cond (.bin .ge (.var 0 N.«denominator») (.call 0 N.«_0» [(.name N.«Rep»)] .nil)) (.call
  0 N.«floor» [] (.cons (.bin .mul (.var 0 N.«value») (.var 0 N.«denominator»)) .nil)) (.un .neg
  (.call 0 N.«floor» [] (.cons (.bin .mul (.var 0 N.«value») (.un .neg (.var 0 N.«denominator»)))
  .nil)))) (.cons (.var 0 N.«denominator») .nil)) .nil)) := rfl
@[pick] theorem floor_redenominate_1_score : F.floor_redenominate_1.score = 102 := rfl
@[exec_header] theorem floor_redenominate_1_isCtor : F.floor_redenominate_1.isCtor = false := rfl
@[pick] theorem round_redenominate_1_tparams : F.round_redenominate_1.tparams = [N.«Rep», N.«Ops»]
  := rfl
@[pick, exec_header] theorem round_redenominate_1_params : F.round_redenominate_1.params = [⟨(.app2
  N.«fraction» (.name N.«Rep») (.name N.«Ops»)), N.«value», none⟩, ⟨(.name N.«Rep»),
  N.«denominator», none⟩] := rfl
@[pick] theorem round_redenominate_1_isConst : F.round_redenominate_1.isConst = false := rfl
@[exec_header] theorem round_redenominate_1_ret : F.round_redenominate_1.ret = (.app2 N.«fraction»
  (.name N.«Rep») (.name N.«Ops»)) := rfl
@[exec_header] theorem round_redenominate_1_body : F.round_redenominate_1.body = (some (.retBrace
  (.cons (.call 0 N.«round» [] (.cons (.bin .mul (.var 0 N.«value») (.var 0 N.«denominator»))
  .nil)) (.cons (.var 0 N.«denominator») .nil)) .nil)) := rfl
@[pick] theorem round_redenominate_1_score : F.round_redenominate_1.score = 102 := rfl
@[exec_header] theorem round_redenominate_1_isCtor : F.round_redenominate_1.isCtor = false := rfl
@[pick] theorem pow2_1_tparams : F.pow2_1.tparams = [N.«Rep», N.«Ops»] := rfl
@[pick, exec_header] theorem pow2_1_params : F.pow2_1.params = [⟨(.name N.«int»), N.«exponent»,
  none⟩] := rfl
@[pick] theorem pow2_1_isConst : F.pow2_1.isConst = false := rfl
@[exec_header] theorem pow2_1_ret : F.pow2_1.ret = (.app2 N.«fraction» (.name N.«Rep») (.name
  N.«Ops»)) := rfl
@[exec_header] theorem pow2_1_body : F.pow2_1.body = (some (.ret (.cond (.bin .ge (.var 0
  N.«exponent») (.num 0)) (.call 0 N.«fraction» [(.name N.«Rep»), (.name N.«Ops»)] (.cons (.call
  N.«math_utilities» N.«pow2» [] (.cons (.cast (.name N.«Rep») (.var 0 N.«exponent»)) .nil)) .nil))
  (.call 0 N.«fraction» [(.name N.«Rep»), (.name N.«Ops»)] (.cons (.call 0 N.«_1» [(.name N.«Rep»)]
  .nil) (.cons (.call N.«math_utilities» N.«pow2» [] (.cons (.cast (.name N.«Rep») (.un .neg (.var
  0 N.«exponent»))) .nil)) .nil)))) .nil)) := rfl
@[pick] theorem pow2_1_score : F.pow2_1.score = 2 := rfl
@[exec_header] theorem pow2_1_isCtor : F.pow2_1.isCtor = false := rfl
@[pick] theorem pow_1_tparams : F.pow_1.tparams = [N.«Rep», N.«Ops»] := rfl
@[pick, exec_header] theorem pow_1_params : F.pow_1.params = [⟨(.name N.«Rep»), N.«base», none⟩,
  ⟨(.name N.«int»), N.«exponent», none⟩] := rfl
@[pick] theorem pow_1_isConst : F.pow_1.isConst = false := rfl
@[exec_header] theorem pow_1_ret : F.pow_1.ret = (.app2 N.«fraction» (.name N.«Rep») (.name
  N.«Ops»)) := rfl
@[exec_header] theorem pow_1_body : F.pow_1.body = (some (.ret (.cond (.bin .ge (.var 0
  N.«exponent») (.num 0)) (.call 0 N.«fraction» [(.name N.«Rep»), (.name N.«Ops»)] (.cons (.call
  N.«math_utilities» N.«pow» [] (.cons (.var 0 N.«base») (.cons (.cast (.name N.«Rep») (.var 0
  N.«exponent»)) .nil))) .nil)) (.call 0 N.«fraction» [(.name N.«Rep»), (.name N.«Ops»)] (.cons
  (.call 0 N.«_1» [(.name N.«Rep»)] .nil) (.cons (.call N.«math_utilities» N.«pow» [] (.cons (.var
  0 N.«base») (.cons (.cast (.name N.«Rep») (.un .neg (.var 0 N.«exponent»))) .nil))) .nil))))
  .nil)) := rfl
@[pick] theorem pow_1_score : F.pow_1.score = 102 := rfl
@[exec_header] theorem pow_1_isCtor : F.pow_1.isCtor = false := rfl
@[pick] theorem mixed_number_mixed_number_1_tparams : F.mixed_number_mixed_number_1.tparams =
  [N.«WRep», N.«FRep», N.«Ops»] := rfl
@[pick, exec_header] theorem mixed_number_mixed_number_1_params :
  F.mixed_number_mixed_number_1.params = [⟨(.name N.«whole_type»), N.«whole», none⟩, ⟨(.name
  N.«fractional_type»), N.«fractional», (some .braces)⟩] := rfl
@[pick] theorem mixed_number_mixed_number_1_isConst : F.mixed_number_mixed_number_1.isConst = false := rfl
@[exec_header] theorem mixed_number_mixed_number_1_ret : F.mixed_number_mixed_number_1.ret = (.name
  N.«void») := rfl
@[exec_header] theorem mixed_number_mixed_number_1_body : F.mixed_number_mixed_number_1.body =
  (some (.init N.«whole_» (.cons (.var 0 N.«whole») .nil) (.init N.«fractional_» (.cons (.var 0
  N.«fractional») .nil) (.callSelf N.«fix» .nil)))) := rfl
@[pick] theorem mixed_number_mixed_number_1_score : F.mixed_number_mixed_number_1.score = 3 := rfl
@[exec_header] theorem mixed_number_mixed_number_1_isCtor : F.mixed_number_mixed_number_1.isCtor = true := rfl
@[pick] theorem mixed_number_mixed_number_2_tparams : F.mixed_number_mixed_number_2.tparams =
  [N.«WRep», N.«FRep», N.«Ops», N.«OtherFRep»] := rfl
@[pick, exec_header] theorem mixed_number_mixed_number_2_params :
  F.mixed_number_mixed_number_2.params = [⟨(.app2 N.«fraction» (.name N.«OtherFRep») (.name
  N.«ops_type»)), N.«value», none⟩] := rfl
@[pick] theorem mixed_number_mixed_number_2_isConst : F.mixed_number_mixed_number_2.isConst = false := rfl
@[exec_header] theorem mixed_number_mixed_number_2_ret : F.mixed_number_mixed_number_2.ret = (.name
  N.«void») := rfl
@[exec_header] theorem mixed_number_mixed_number_2_body : F.mixed_number_mixed_number_2.body =
  (some (.init N.«whole_» (.cons (.call 0 N.«whole_type» [] (.cons (.call 0 N.«trunc» [] (.cons
  (.var 0 N.«value») .nil)) .nil)) .nil) (.init N.«fractional_» (.cons (.call 0 N.«fractional_type»
  [] (.cons (.bin .sub (.var 0 N.«value») (.cast (.name N.«OtherFRep») (.var 0 N.«whole_»))) .nil))
  .nil) .nil))) := rfl
@[pick] theorem mixed_number_mixed_number_2_score : F.mixed_number_mixed_number_2.score = 4 := rfl
@[exec_header] theorem mixed_number_mixed_number_2_isCtor : F.mixed_number_mixed_number_2.isCtor = true := rfl
@[pick] theorem mixed_number_mixed_number_3_tparams : F.mixed_number_mixed_number_3.tparams =
  [N.«WRep», N.«FRep», N.«Ops», N.«OtherFRep», N.«OtherOps»] := rfl
@[pick, exec_header] theorem mixed_number_mixed_number_3_params :
  F.mixed_number_mixed_number_3.params = [⟨(.app2 N.«fraction» (.name N.«OtherFRep») (.name
  N.«OtherOps»)), N.«value», none⟩] := rfl
@[pick] theorem mixed_number_mixed_number_3_isConst : F.mixed_number_mixed_number_3.isConst = false := rfl
@[exec_header] theorem mixed_number_mixed_number_3_ret : F.mixed_number_mixed_number_3.ret = (.name
  N.«void») := rfl
@[exec_header] theorem mixed_number_mixed_number_3_body : F.mixed_number_mixed_number_3.body =
  (some (.init N.«mixed_number» (.cons (.call 0 N.«fraction» [(.name N.«OtherFRep»), (.name
  N.«Ops»)] (.cons (.var 0 N.«value») .nil)) .nil) .nil)) := rfl
@[pick] theorem mixed_number_mixed_number_3_score : F.mixed_number_mixed_number_3.score = 5 := rfl
@[exec_header] theorem mixed_number_mixed_number_3_isCtor : F.mixed_number_mixed_number_3.isCtor = true := rfl
@[pick] theorem mixed_number_as_fraction_1_tparams : F.mixed_number_as_fraction_1.tparams =
  [N.«WRep», N.«FRep», N.«Ops»] := rfl
@[pick, exec_header] theorem mixed_number_as_fraction_1_params :
  F.mixed_number_as_fraction_1.params = [] := rfl
@[pick] theorem mixed_number_as_fraction_1_isConst : F.mixed_number_as_fraction_1.isConst = true := rfl
@[exec_header] theorem mixed_number_as_fraction_1_ret : F.mixed_number_as_fraction_1.ret = (.app2
  N.«fraction» (.name N.«common_rep_type») (.name N.«ops_type»)) := rfl
@[exec_header] theorem mixed_number_as_fraction_1_body : F.mixed_number_as_fraction_1.body = (some
  (.ret (.bin .add (.call 0 N.«common_rep_type» [] (.cons (.var 0 N.«whole_») .nil)) (.call 0
  N.«fraction» [(.name N.«common_rep_type»), (.name N.«ops_type»)] (.cons (.var 0 N.«fractional_»)
  .nil))) .nil)) := rfl
@[pick] theorem mixed_number_as_fraction_1_score : F.mixed_number_as_fraction_1.score = 3 := rfl
@[exec_header] theorem mixed_number_as_fraction_1_isCtor : F.mixed_number_as_fraction_1.isCtor = false := rfl
@[pick] theorem mixed_number_conversion_1_tparams : F.mixed_number_conversion_1.tparams =
  [N.«WRep», N.«FRep», N.«Ops»] := rfl
@[pick, exec_header] theorem mixed_number_conversion_1_params : F.mixed_number_conversion_1.params
  = [] := rfl
@[pick] theorem mixed_number_conversion_1_isConst : F.mixed_number_conversion_1.isConst = true := rfl
@[exec_header] theorem mixed_number_conversion_1_ret : F.mixed_number_conversion_1.ret = (.app2
  N.«fraction» (.name N.«common_rep_type») (.name N.«ops_type»)) := rfl
@[exec_header] theorem mixed_number_conversion_1_body : F.mixed_number_conversion_1.body = (some
  (.ret (.call 0 N.«as_fraction» [] .nil) .nil)) := rfl
@[pick] theorem mixed_number_conversion_1_score : F.mixed_number_conversion_1.score = 3 := rfl
@[exec_header] theorem mixed_number_conversion_1_isCtor : F.mixed_number_conversion_1.isCtor = false := rfl
@[pick] theorem mixed_number_whole_1_tparams : F.mixed_number_whole_1.tparams = [N.«WRep»,
  N.«FRep», N.«Ops»] := rfl
@[pick, exec_header] theorem mixed_number_whole_1_params : F.mixed_number_whole_1.params = [] :=
  rfl
@[pick] theorem mixed_number_whole_1_isConst : F.mixed_number_whole_1.isConst = true := rfl
@[exec_header] theorem mixed_number_whole_1_ret : F.mixed_number_whole_1.ret = (.name
  N.«whole_type») := rfl
@[exec_header] theorem mixed_number_whole_1_body : F.mixed_number_whole_1.body = (some (.ret (.var
  0 N.«whole_») .nil)) := rfl
@[pick] theorem mixed_number_whole_1_score : F.mixed_number_whole_1.score = 3 := rfl
@[exec_header] theorem mixed_number_whole_1_isCtor : F.mixed_number_whole_1.isCtor = false := rfl
@[pick] theorem mixed_number_fractional_1_tparams : F.mixed_number_fractional_1.tparams =
  [N.«WRep», N.«FRep», N.«Ops»] := rfl
@[pick, exec_header] theorem mixed_number_fractional_1_params : F.mixed_number_fractional_1.params
  = [] := rfl
@[pick] theorem mixed_number_fractional_1_isConst : F.mixed_number_fractional_1.isConst = true := rfl
@[exec_header] theorem mixed_number_fractional_1_ret : F.mixed_number_fractional_1.ret = (.name
  N.«fractional_type») := rfl
@[exec_header] theorem mixed_number_fractional_1_body : F.mixed_number_fractional_1.body = (some
  (.ret (.var 0 N.«fractional_») .nil)) := rfl
@[pick] theorem mixed_number_fractional_1_score : F.mixed_number_fractional_1.score = 3 := rfl
@[exec_header] theorem mixed_number_fractional_1_isCtor : F.mixed_number_fractional_1.isCtor = false := rfl
@[pick] theorem mixed_number_fix_1_tparams : F.mixed_number_fix_1.tparams = [N.«WRep», N.«FRep»,
  N.«Ops»] := rfl
@[pick, exec_header] theorem mixed_number_fix_1_params : F.mixed_number_fix_1.params = [] := rfl
@[pick] theorem mixed_number_fix_1_isConst : F.mixed_number_fix_1.isConst = false := rfl
@[exec_header] theorem mixed_number_fix_1_ret : F.mixed_number_fix_1.ret = (.name N.«void») := rfl
@[exec_header] theorem mixed_number_fix_1_body : F.mixed_number_fix_1.body = (some (.ite (.call 0
  N.«is_improper» [] (.cons (.var 0 N.«fractional_») .nil)) (.decl N.«truncated_fractional» (.call
  0 N.«trunc» [] (.cons (.var 0 N.«fractional_») .nil)) (.update N.«whole_» .add (.cast (.name
  N.«whole_type») (.var 0 N.«truncated_fractional»)) (.update N.«fractional_» .sub (.var 0
  N.«truncated_fractional») .nil))) .nil (.ite (.bin .and (.bin .gt (.var 0 N.«whole_») (.call 0
  N.«_0» [(.name N.«whole_type»)] .nil)) (.call 0 N.«is_negative» [] (.cons (.var 0
  N.«fractional_») .nil))) (.update N.«whole_» .sub (.call 0 N.«_1» [(.name N.«whole_type»)] .nil)
  (.assign N.«fractional_» (.bin .add (.call 0 N.«_1» [(.name N.«fractional_rep_type»)] .nil) (.var
  0 N.«fractional_»)) .nil)) (.ite (.bin .and (.bin .lt (.var 0 N.«whole_») (.call 0 N.«_0» [(.name
  N.«whole_type»)] .nil)) (.call 0 N.«is_positive» [] (.cons (.var 0 N.«fractional_») .nil)))
  (.update N.«whole_» .add (.call 0 N.«_1» [(.name N.«whole_type»)] .nil) (.assign N.«fractional_»
  (.bin .add (.un .neg (.call 0 N.«_1» [(.name N.«fractional_rep_type»)] .nil)) (.var 0
  N.«fractional_»)) .nil)) .nil .nil) .nil))) := rfl
@[pick] theorem mixed_number_fix_1_score : F.mixed_number_fix_1.score = 3 := rfl
@[exec_header] theorem mixed_number_fix_1_isCtor : F.mixed_number_fix_1.isCtor = false := rfl
@[pick] theorem op_add_5_tparams : F.op_add_5.tparams = [N.«WRep», N.«FRep», N.«Ops»] := rfl
@[pick, exec_header] theorem op_add_5_params : F.op_add_5.params = [⟨(.app3 N.«mixed_number» (.name
  N.«WRep») (.name N.«FRep») (.name N.«Ops»)), N.«value», none⟩] := rfl
@[pick] theorem op_add_5_isConst : F.op_add_5.isConst = false := rfl
@[exec_header] theorem op_add_5_ret : F.op_add_5.ret = (.app3 N.«mixed_number» (.name N.«WRep»)
  (.name N.«FRep») (.name N.«Ops»)) := rfl
@[exec_header] theorem op_add_5_body : F.op_add_5.body = (some (.ret (.var 0 N.«value») .nil)) :=
  rfl
@[pick] theorem op_add_5_score : F.op_add_5.score = 3 := rfl
@[exec_header] theorem op_add_5_isCtor : F.op_add_5.isCtor = false := rfl
@[pick] theorem op_sub_5_tparams : F.op_sub_5.tparams = [N.«WRep», N.«FRep», N.«Ops»] := rfl
@[pick, exec_header] theorem op_sub_5_params : F.op_sub_5.params = [⟨(.app3 N.«mixed_number» (.name
  N.«WRep») (.name N.«FRep») (.name N.«Ops»)), N.«value», none⟩] := rfl
@[pick] theorem op_sub_5_isConst : F.op_sub_5.isConst = false := rfl
@[exec_header] theorem op_sub_5_ret : F.op_sub_5.ret = (.app3 N.«mixed_number» (.name N.«WRep»)
  (.name N.«FRep») (.name N.«Ops»)) := rfl
@[exec_header] theorem op_sub_5_body : F.op_sub_5.body = (some (.retBrace (.cons (.un .neg (.method
  (.var 0 N.«value») N.«whole»)) (.cons (.un .neg (.method (.var 0 N.«value») N.«fractional»))
  .nil)) .nil)) := rfl
@[pick] theorem op_sub_5_score : F.op_sub_5.score = 3 := rfl
@[exec_header] theorem op_sub_5_isCtor : F.op_sub_5.isCtor = false := rfl
@[pick] theorem op_add_6_tparams : F.op_add_6.tparams = [N.«WRep1», N.«FRep1», N.«WRep2»,
  N.«FRep2», N.«Ops»] := rfl
@[pick, exec_header] theorem op_add_6_params : F.op_add_6.params = [⟨(.app3 N.«mixed_number» (.name
  N.«WRep1») (.name N.«FRep1») (.name N.«Ops»)), N.«left», none⟩, ⟨(.app3 N.«mixed_number» (.name
  N.«WRep2») (.name N.«FRep2») (.name N.«Ops»)), N.«right», none⟩] := rfl
@[pick] theorem op_add_6_isConst : F.op_add_6.isConst = false := rfl
@[exec_header] theorem op_add_6_ret : F.op_add_6.ret = (.app3 N.«mixed_number» (.app2
  N.«std::common_type_t» (.name N.«WRep1») (.name N.«WRep2»)) (.app2 N.«std::common_type_t» (.name
  N.«FRep1») (.name N.«FRep2»)) (.name N.«Ops»)) := rfl
@[exec_header] theorem op_add_6_body : F.op_add_6.body = (some (.using N.«whole_type» (.app2
  N.«std::common_type_t» (.name N.«WRep1») (.name N.«WRep2»)) (.using N.«fractional_type» (.app2
  N.«fraction» (.app2 N.«std::common_type_t» (.name N.«FRep1») (.name N.«FRep2»)) (.name N.«Ops»))
  (.decl N.«whole» (.bin .add (.cast (.name N.«whole_type») (.method (.var 0 N.«left») N.«whole»))
  (.cast (.name N.«whole_type») (.method (.var 0 N.«right») N.«whole»))) (.decl N.«fractional»
  (.bin .add (.cast (.name N.«fractional_type») (.method (.var 0 N.«left») N.«fractional»)) (.cast
  (.name N.«fractional_type») (.method (.var 0 N.«right») N.«fractional»))) (.retBrace (.cons (.var
  0 N.«whole») (.cons (.var 0 N.«fractional») .nil)) .nil)))))) := rfl
@[pick] theorem op_add_6_score : F.op_add_6.score = 5 := rfl
@[exec_header] theorem op_add_6_isCtor : F.op_add_6.isCtor = false := rfl
@[pick] theorem op_add_7_tparams : F.op_add_7.tparams = [N.«WRep», N.«FRep1», N.«FRep2», N.«Ops»]
  := rfl
@[pick, exec_header] theorem op_add_7_params : F.op_add_7.params = [⟨(.app3 N.«mixed_number» (.name
  N.«WRep») (.name N.«FRep1») (.name N.«Ops»)), N.«left», none⟩, ⟨(.app2 N.«fraction» (.name
  N.«FRep2») (.name N.«Ops»)), N.«right», none⟩] := rfl
@[pick] theorem op_add_7_isConst : F.op_add_7.isConst = false := rfl
@[exec_header] theorem op_add_7_ret : F.op_add_7.ret = (.app3 N.«mixed_number» (.app2
  N.«std::common_type_t» (.name N.«WRep») (.name N.«FRep2»)) (.app2 N.«std::common_type_t» (.name
  N.«FRep1») (.name N.«FRep2»)) (.name N.«Ops»)) := rfl
@[exec_header] theorem op_add_7_body : F.op_add_7.body = (some (.ret (.bin .add (.var 0 N.«left»)
  (.call 0 N.«mixed_number» [(.name N.«FRep2»), (.name N.«FRep2»), (.name N.«Ops»)] (.cons (.var 0
  N.«right») .nil))) .nil)) := rfl
@[pick] theorem op_add_7_score : F.op_add_7.score = 4 := rfl
@[exec_header] theorem op_add_7_isCtor : F.op_add_7.isCtor = false := rfl
@[pick] theorem op_add_8_tparams : F.op_add_8.tparams = [N.«WRep1», N.«FRep1», N.«FRep2», N.«Ops»]
  := rfl
@[pick, exec_header] theorem op_add_8_params : F.op_add_8.params = [⟨(.app2 N.«fraction» (.name
  N.«FRep2») (.name N.«Ops»)), N.«left», none⟩, ⟨(.app3 N.«mixed_number» (.name N.«WRep1») (.name
  N.«FRep1») (.name N.«Ops»)), N.«right», none⟩] := rfl
@[pick] theorem op_add_8_isConst : F.op_add_8.isConst = false := rfl
@[exec_header] theorem op_add_8_ret : F.op_add_8.ret = (.app3 N.«mixed_number» (.app2
  N.«std::common_type_t» (.name N.«WRep1») (.name N.«FRep2»)) (.app2 N.«std::common_type_t» (.name
  N.«FRep1») (.name N.«FRep2»)) (.name N.«Ops»)) := rfl
@[exec_header] theorem op_add_8_body : F.op_add_8.body = (some (.ret (.bin .add (.var 0 N.«right»)
  (.var 0 N.«left»)) .nil)) := rfl
@[pick] theorem op_add_8_score : F.op_add_8.score = 4 := rfl
@[exec_header] theorem op_add_8_isCtor : F.op_add_8.isCtor = false := rfl
@[pick] theorem op_add_9_tparams : F.op_add_9.tparams = [N.«WRep1», N.«FRep», N.«WRep2», N.«Ops»]
  := rfl
@[pick, exec_header] theorem op_add_9_params : F.op_add_9.params = [⟨(.app3 N.«mixed_number» (.name
  N.«WRep1») (.name N.«FRep») (.name N.«Ops»)), N.«left», none⟩, ⟨(.name N.«WRep2»), N.«right»,
  none⟩] := rfl
@[pick] theorem op_add_9_isConst : F.op_add_9.isConst = false := rfl
@[exec_header] theorem op_add_9_ret : F.op_add_9.ret = (.app3 N.«mixed_number» (.app2
  N.«std::common_type_t» (.name N.«WRep1») (.name N.«WRep2»)) (.name N.«FRep») (.name N.«Ops»)) :=
  rfl
@[exec_header] theorem op_add_9_body : F.op_add_9.body = (some (.using N.«whole_type» (.app2
  N.«std::common_type_t» (.name N.«WRep1») (.name N.«WRep2»)) (.retBrace (.cons (.bin .add (.cast
  (.name N.«whole_type») (.method (.var 0 N.«left») N.«whole»)) (.cast (.name N.«whole_type») (.var
  0 N.«right»))) (.cons (.method (.var 0 N.«left») N.«fractional») .nil)) .nil))) := rfl
@[pick] theorem op_add_9_score : F.op_add_9.score = 104 := rfl
@[exec_header] theorem op_add_9_isCtor : F.op_add_9.isCtor = false := rfl
@[pick] theorem op_add_10_tparams : F.op_add_10.tparams = [N.«WRep1», N.«WRep2», N.«FRep», N.«Ops»]
  := rfl
@[pick, exec_header] theorem op_add_10_params : F.op_add_10.params = [⟨(.name N.«WRep1»), N.«left»,
  none⟩, ⟨(.app3 N.«mixed_number» (.name N.«WRep2») (.name N.«FRep») (.name N.«Ops»)), N.«right»,
  none⟩] := rfl
@[pick] theorem op_add_10_isConst : F.op_add_10.isConst = false := rfl
@[exec_header] theorem op_add_10_ret : F.op_add_10.ret = (.app3 N.«mixed_number» (.app2
  N.«std::common_type_t» (.name N.«WRep1») (.name N.«WRep2»)) (.name N.«FRep») (.name N.«Ops»)) :=
  rfl
@[exec_header] theorem op_add_10_body : F.op_add_10.body = (some (.ret (.bin .add (.var 0
  N.«right») (.var 0 N.«left»)) .nil)) := rfl
@[pick] theorem op_add_10_score : F.op_add_10.score = 104 := rfl
@[exec_header] theorem op_add_10_isCtor : F.op_add_10.isCtor = false := rfl

end Ieme.Header
