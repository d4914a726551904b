{
 "claims": [
  {
   "property": "C01",
   "status": "proved",
   "theorems": [
    "Ieme.C01_add_exact",
    "Ieme.C01_signed_never_wraps"
   ],
   "note": "C01_signed_never_wraps additionally shows that on signed types no operation wraps silently."
  },
  {
   "property": "C02",
   "status": "proved",
   "theorems": [
    "Ieme.C02_sub_exact"
   ],
   "note": ""
  },
  {
   "property": "C03",
   "status": "proved",
   "theorems": [
    "Ieme.C03_mul_exact"
   ],
   "note": ""
  },
  {
   "property": "C04",
   "status": "proved",
   "theorems": [
    "Ieme.C04_div_exact"
   ],
   "note": ""
  },
  {
   "property": "C05",
   "status": "proved",
   "theorems": [
    "Ieme.C05_mod_exact",
    "Ieme.C05_mod_bound_and_sign"
   ],
   "note": ""
  },
  {
   "property": "C06",
   "status": "proved",
   "theorems": [
    "Ieme.C06_neg_exact",
    "Ieme.C06_neg_neg"
   ],
   "note": ""
  },
  {
   "property": "C07",
   "status": "proved",
   "theorems": [
    "Ieme.C07_small_arith_finishes",
    "Ieme.C07_small_cmp_finishes",
    "Ieme.C07_small_neg_finishes"
   ],
   "note": ""
  },
  {
   "property": "C08",
   "status": "proved",
   "theorems": [
    "Ieme.C08_canonical_results",
    "Ieme.C08_canonical_neg",
    "Ieme.C08_defaults_normalize"
   ],
   "note": ""
  },
  {
   "property": "C09",
   "status": "proved",
   "theorems": [
    "Ieme.C09_policies_agree",
    "Ieme.C09_policies_agree_eq"
   ],
   "note": ""
  },
  {
   "property": "C10",
   "status": "proved",
   "theorems": [
    "Ieme.C10_add_comm",
    "Ieme.C10_mul_comm",
    "Ieme.C10_add_assoc",
    "Ieme.C10_mul_assoc",
    "Ieme.C10_distrib",
    "Ieme.C10_sub_eq_add_neg",
    "Ieme.C10_div_mul_cancel",
    "Ieme.C10_sub_self"
   ],
   "note": ""
  },
  {
   "property": "C11",
   "status": "proved",
   "theorems": [
    "Ieme.C11_expressions_exact"
   ],
   "note": ""
  },
  {
   "property": "C12",
   "status": "partial",
   "theorems": [
    "Ieme.C12_safe_resists_overflow_partial",
    "Ieme.C12_safe_comparison_partial",
    "Ieme.C12_safe_comparison_less_resistant",
    "Ieme.C12_nested_resists_overflow",
    "Ieme.C12_safe_gains",
    "Ieme.C12_nested_comparison",
    "Ieme.C12_safe_comparison_finishes_iff"
   ],
   "note": "Proved for all arithmetic operators, overloads and nestings (C12_nested_resists_overflow). False for comparisons: C12_safe_comparison_less_resistant; exactly when the least common denominator is not representable (C12_safe_comparison_finishes_iff, C12_nested_comparison)."
  },
  {
   "property": "C13",
   "status": "proved",
   "theorems": [
    "Ieme.C13_eq_exact"
   ],
   "note": ""
  },
  {
   "property": "C14",
   "status": "proved",
   "theorems": [
    "Ieme.C14_ne_not_eq",
    "Ieme.C14_ne_fault_iff"
   ],
   "note": ""
  },
  {
   "property": "C15",
   "status": "partial",
   "theorems": [
    "Ieme.C15_order_exact_partial",
    "Ieme.C15_safe_ff_exact",
    "Ieme.C15_order_characterised",
    "Ieme.C15_order_wrong_for_negative_denominator",
    "Ieme.C15_correct_iff"
   ],
   "note": "Order comparisons are exact exactly when the denominator signs meet Ops.OrderSafe (always for safe with two fractions, always after sign-normalising input reduction); otherwise the answer is the reverse. The general claim is false; see C15_order_wrong_for_negative_denominator."
  },
  {
   "property": "C16",
   "status": "proved",
   "theorems": [
    "Ieme.C16_undefined_comparisons",
    "Ieme.C16_safe_ff_finishes",
    "Ieme.C16_safe_based_ff_finishes",
    "Ieme.C16_min_value_faults"
   ],
   "note": "All policies answer false (true for !=) when they finish. safe itself always finishes; policies that reduce their inputs need representable absolute values (INT_MIN faults in std::gcd), C16_min_value_faults."
  },
  {
   "property": "C17",
   "status": "proved",
   "theorems": [
    "Ieme.C17_irreflexive",
    "Ieme.C17_asymmetric",
    "Ieme.C17_transitive",
    "Ieme.C17_incomparable_iff_eq",
    "Ieme.C17_trichotomy"
   ],
   "note": ""
  },
  {
   "property": "C18",
   "status": "partial",
   "theorems": [
    "Ieme.C18_swap",
    "Ieme.C18_le_iff_lt_or_eq",
    "Ieme.C18_integer_as_fraction_eq",
    "Ieme.C18_integer_as_fraction_partial",
    "Ieme.C18_integer_as_fraction_false",
    "Ieme.C18_integer_as_fraction_iff"
   ],
   "note": "swap, <= as < or ==, and == against an integer operand hold for every policy; comparing against an integer operand agrees with comparing against integer/1 only for positive denominators; negation C18_integer_as_fraction_false."
  },
  {
   "property": "C19",
   "status": "partial",
   "theorems": [
    "Ieme.C19_undefined_propagates_partial",
    "Ieme.C19_defaults_propagates_partial",
    "Ieme.C19_neg_undefined",
    "Ieme.C19_integer_operand_finishes",
    "Ieme.C19_safe_ff_never_finishes",
    "Ieme.C19_undefined_not_propagated",
    "Ieme.C19_lost_divisor_zero",
    "Ieme.C19_propagates_iff"
   ],
   "note": "Holds except when the divisor is an undefined fraction with non-zero numerator (division) and except that safe faults for two fractions; negation C19_undefined_not_propagated."
  },
  {
   "property": "C20",
   "status": "proved",
   "theorems": [
    "Ieme.C20_reduce_preserves",
    "Ieme.C20_reduce_modes",
    "Ieme.C20_normalize_signs_preserves"
   ],
   "note": ""
  },
  {
   "property": "C21",
   "status": "proved",
   "theorems": [
    "Ieme.C21_reduce_finishes_iff",
    "Ieme.C21_reduce_undefined",
    "Ieme.C21_reduce_canonical",
    "Ieme.C21_reduce_unique"
   ],
   "note": ""
  },
  {
   "property": "C22",
   "status": "proved",
   "theorems": [
    "Ieme.C22_reduce_idempotent",
    "Ieme.C22_reduce_never_wraps"
   ],
   "note": ""
  },
  {
   "property": "C23",
   "status": "partial",
   "theorems": [
    "Ieme.C23_is_reduced_correct_iff",
    "Ieme.C23_finishes",
    "Ieme.C23_is_reduced_ignore_signs_exact",
    "Ieme.C23_is_reduced_exact_partial",
    "Ieme.C23_is_reduced_false"
   ],
   "note": "is_reduced_ignore_signs is exact for all fractions. is_reduced is exact except for positive numerator with negative denominator, where it is false (C23_is_reduced_false)."
  },
  {
   "property": "C24",
   "status": "proved",
   "theorems": [
    "Ieme.C24_sign_queries_exact",
    "Ieme.C24_sign_trichotomy"
   ],
   "note": ""
  },
  {
   "property": "C25",
   "status": "proved",
   "theorems": [
    "Ieme.C25_is_integer_exact",
    "Ieme.C25_is_unit_fraction_exact",
    "Ieme.C25_is_proper_exact",
    "Ieme.C25_queries_finish"
   ],
   "note": ""
  },
  {
   "property": "C26",
   "status": "proved",
   "theorems": [
    "Ieme.C26_reciprocal"
   ],
   "note": ""
  },
  {
   "property": "C27",
   "status": "proved",
   "theorems": [
    "Ieme.C27_abs_finishes",
    "Ieme.C27_abs_exact",
    "Ieme.C27_abs_idempotent",
    "Ieme.C27_abs_parts"
   ],
   "note": ""
  },
  {
   "property": "C28",
   "status": "proved",
   "theorems": [
    "Ieme.C28_normalize_signs",
    "Ieme.C28_identity_on_positive",
    "Ieme.C28_finishes"
   ],
   "note": ""
  },
  {
   "property": "C29",
   "status": "proved",
   "theorems": [
    "Ieme.C29_trunc_exact",
    "Ieme.C29_whole_parts_finish"
   ],
   "note": ""
  },
  {
   "property": "C30",
   "status": "partial",
   "theorems": [
    "Ieme.C30_floor_exact_iff",
    "Ieme.C30_floor_exact_partial",
    "Ieme.C30_floor_wrong"
   ],
   "note": "Exact outside (-1,0). Inside the code returns 0, proved wrong by C30_floor_wrong."
  },
  {
   "property": "C31",
   "status": "partial",
   "theorems": [
    "Ieme.C31_ceil_exact_iff",
    "Ieme.C31_ceil_exact_partial",
    "Ieme.C31_ceil_wrong"
   ],
   "note": "Exact outside (-1,0). Inside the code returns 1, proved wrong by C31_ceil_wrong."
  },
  {
   "property": "C32",
   "status": "partial",
   "theorems": [
    "Ieme.C32_round_finishes",
    "Ieme.C32_round_exact_partial",
    "Ieme.C32_round_exact_iff",
    "Ieme.C32_round_wrong"
   ],
   "note": "Exact outside (-1,-1/2) for safe-based policies or positive denominators; the excluded cases are wrong in the code (C32_round_wrong), and C32_round_exact_iff says exactly which inputs are rounded correctly."
  },
  {
   "property": "C33",
   "status": "proved",
   "theorems": [
    "Ieme.C33_dispatch",
    "Ieme.C33_modes_differ"
   ],
   "note": ""
  },
  {
   "property": "C34",
   "status": "partial",
   "theorems": [
    "Ieme.C34_redenominate_finishes",
    "Ieme.C34_trunc_redenominate",
    "Ieme.C34_floor_redenominate_partial",
    "Ieme.C34_ceil_redenominate_partial",
    "Ieme.C34_floor_redenominate_iff",
    "Ieme.C34_ceil_redenominate_iff",
    "Ieme.C34_round_redenominate_partial",
    "Ieme.C34_round_redenominate_iff",
    "Ieme.C34_redenominate_zero",
    "Ieme.C34_multiple_unchanged_partial",
    "Ieme.C34_redenominate_wrong"
   ],
   "note": "Denominator and trunc mode hold with no exception, and multiples of 1/d are unchanged except when rounding under fast with a negative denominator; floor/ceil/round are exact away from the values where floor/ceil/round themselves are wrong (C34_redenominate_wrong); C34_floor_redenominate_iff and C34_ceil_redenominate_iff give the exact condition. C34_round_redenominate_iff is the exact condition for round mode; C34_redenominate_zero covers the denominator zero."
  },
  {
   "property": "C35",
   "status": "partial",
   "theorems": [
    "Ieme.C35_pow2_exact",
    "Ieme.C35_pow2_finishes_iff",
    "Ieme.C35_pow2_never_wrong_partial",
    "Ieme.C35_pow2_wrong"
   ],
   "note": "Exact and complete for clean results; false for |e| = width-1 on signed types, where the result is the minimum value (C35_pow2_wrong)."
  },
  {
   "property": "C36",
   "status": "proved",
   "theorems": [
    "Ieme.C36_pow_exact",
    "Ieme.C36_pow_clean_iff",
    "Ieme.C36_pow_signed_finishes_iff",
    "Ieme.C36_pow_int_min"
   ],
   "note": ""
  },
  {
   "property": "C37",
   "status": "proved",
   "theorems": [
    "Ieme.C37_unsigned_pow_modular",
    "Ieme.C37_negative_exponent",
    "Ieme.C37_pow_exact"
   ],
   "note": ""
  },
  {
   "property": "C38",
   "status": "proved",
   "theorems": [
    "Ieme.C38_conversion_keeps_parts",
    "Ieme.C38_conversion_modular"
   ],
   "note": ""
  },
  {
   "property": "C39",
   "status": "proved",
   "theorems": [
    "Ieme.C39_mixed_arith_exact",
    "Ieme.C39_mixed_cmp_exact",
    "Ieme.C39_mixed_fits",
    "Ieme.C39_mixed_converts",
    "Ieme.C39_common_type_fits"
   ],
   "note": ""
  },
  {
   "property": "C40",
   "status": "proved",
   "theorems": [
    "Ieme.C40_compound_is_binary",
    "Ieme.C40_compound_converts",
    "Ieme.C40_sequence_exact",
    "Ieme.C40_loop_sum"
   ],
   "note": ""
  },
  {
   "property": "C41",
   "status": "proved",
   "theorems": [
    "Ieme.C41_ratio_exact",
    "Ieme.C41_ratio_well_formed_iff"
   ],
   "note": ""
  },
  {
   "property": "C42",
   "status": "proved",
   "theorems": [
    "Ieme.C42_construction_exact",
    "Ieme.C42_from_fraction_exact",
    "Ieme.C42_construction_finishes",
    "Ieme.C42_from_fraction_finishes"
   ],
   "note": ""
  },
  {
   "property": "C43",
   "status": "partial",
   "theorems": [
    "Ieme.C43_invariant_partial",
    "Ieme.C43_constructor_invariant_partial",
    "Ieme.C43_invariant_broken"
   ],
   "note": "Invariant proved for every expression tree that evaluates without wrapping, and for the two-argument constructor on signed fractional types even when the whole part wraps. False when unsigned arithmetic or a narrowing conversion wraps (C43_invariant_broken)."
  },
  {
   "property": "C44",
   "status": "proved",
   "theorems": [
    "Ieme.C44_add_exact",
    "Ieme.C44_add_fraction_exact",
    "Ieme.C44_add_integer_exact",
    "Ieme.C44_expression_exact",
    "Ieme.C44_add_integer_finishes",
    "Ieme.C44_add_finishes",
    "Ieme.C44_add_fraction_finishes"
   ],
   "note": ""
  },
  {
   "property": "C45",
   "status": "proved",
   "theorems": [
    "Ieme.C45_negation_exact",
    "Ieme.C45_negation_involutive",
    "Ieme.C45_negation_finishes"
   ],
   "note": ""
  },
  {
   "property": "C46",
   "status": "proved",
   "theorems": [
    "Ieme.C46_round_trip_exact",
    "Ieme.C46_as_fraction_exact",
    "Ieme.C46_round_trip_finishes"
   ],
   "note": ""
  },
  {
   "property": "C47",
   "status": "partial",
   "theorems": [
    "Ieme.C47_undefined_never_constructed_partial",
    "Ieme.C47_undefined_faults"
   ],
   "note": "The code divides by zero (C47_undefined_faults), so the claim is false; proved is that an undefined fraction never silently becomes a mixed number."
  },
  {
   "property": "C48",
   "status": "proved",
   "theorems": [
    "Ieme.C48_round_trip",
    "Ieme.C48_written_text",
    "Ieme.C48_injective"
   ],
   "note": ""
  },
  {
   "property": "C49",
   "status": "partial",
   "theorems": [
    "Ieme.C49_well_formed_read",
    "Ieme.C49_success_exact_partial",
    "Ieme.C49_malformed_fails_partial",
    "Ieme.C49_success_iff",
    "Ieme.C49_accepted",
    "Ieme.C49_not_good_fails",
    "Ieme.C49_unsigned_negative"
   ],
   "note": "Exact for signed types, and for unsigned types on text without a minus sign. False for unsigned types otherwise: -1/2 is read on unsigned int as 4294967295/2 without failbit (strtoull semantics of num_get); negation C49_unsigned_negative. Streams are modelled with the standard's decimal num_get semantics in the C locale with skipws. C49_success_iff says exactly when an extraction succeeds, for every type."
  },
  {
   "property": "C50",
   "status": "proved",
   "theorems": [
    "Ieme.C50_conversion_in_bounds",
    "Ieme.C50_scan_total",
    "Ieme.C50_no_out_of_bounds"
   ],
   "note": ""
  },
  {
   "property": "C51",
   "status": "proved",
   "theorems": [
    "Ieme.C51_accepts_iff",
    "Ieme.C51_rejected_undefined",
    "Ieme.C51_accepted_defined",
    "Ieme.C51_defined_iff",
    "Ieme.C51_unsigned_undefined"
   ],
   "note": "C51_defined_iff: on signed types defined result = literal. C51_unsigned_undefined records that on an unsigned type a literal may wrap to an undefined fraction."
  },
  {
   "property": "C52",
   "status": "partial",
   "theorems": [
    "Ieme.C52_literal_accepted_partial",
    "Ieme.C52_pointless_rejected",
    "Ieme.C52_witness"
   ],
   "note": "Proved for literals with a radix point. Every literal without one (1e5, 0x1p3) is rejected, proved by C52_pointless_rejected and C52_witness, so the full claim is false."
  },
  {
   "property": "C53",
   "status": "proved",
   "theorems": [
    "Ieme.C53_value_exact",
    "Ieme.C53_signed_value_exact",
    "Ieme.C53_finishes"
   ],
   "note": ""
  },
  {
   "property": "C54",
   "status": "proved",
   "theorems": [
    "Ieme.C54_valid_dec",
    "Ieme.C54_valid_hex",
    "Ieme.C54_value_dec",
    "Ieme.C54_value_hex",
    "Ieme.C54_valid_other",
    "Ieme.C54_value_any"
   ],
   "note": ""
  },
  {
   "property": "C55",
   "status": "partial",
   "theorems": [
    "Ieme.C55_signed_finishes_iff_partial",
    "Ieme.C55_signed_finishes_iff_hex_partial",
    "Ieme.C55_unsigned_exact",
    "Ieme.C55_representable_overflows"
   ],
   "note": "Holds for unsigned types (C55_unsigned_exact). For signed types the exact condition is that base^digits fits, because of one multiplication too many; false in general (C55_representable_overflows)."
  },
  {
   "property": "C56",
   "status": "proved",
   "theorems": [
    "Ieme.C56_returns",
    "Ieme.C56_throws",
    "Ieme.C56_throws_iff",
    "Ieme.C56_returns_exact"
   ],
   "note": ""
  },
  {
   "property": "C57",
   "status": "proved",
   "theorems": [
    "Ieme.C57_separators_irrelevant"
   ],
   "note": ""
  },
  {
   "property": "C58",
   "status": "proved",
   "theorems": [
    "Ieme.C58_normal_exact",
    "Ieme.C58_signed_never_wrong",
    "Ieme.C58_normal_finishes",
    "Ieme.C58_narrow_ill_formed"
   ],
   "note": ""
  },
  {
   "property": "C59",
   "status": "partial",
   "theorems": [
    "Ieme.C59_tiny_never_finishes",
    "Ieme.C59_tiny_never_wrong_partial",
    "Ieme.C59_tiny_wide_wrong"
   ],
   "note": "False: for every representation of at most 127 (float) or 1023 (double) bits the conversion of zero and of every subnormal number is undefined behaviour (C59_tiny_never_finishes); on wider representations a clean result is always wrong (C59_tiny_wide_wrong). What remains true is that no wrong value is returned on the former."
  },
  {
   "property": "C60",
   "status": "partial",
   "theorems": [
    "Ieme.C60_nan_undefined_partial",
    "Ieme.C60_infinity_never_finishes"
   ],
   "note": "Proved for every NaN pattern. False for infinities, whose conversion never finishes (C60_infinity_never_finishes)."
  },
  {
   "property": "C61",
   "status": "proved",
   "theorems": [
    "Ieme.C61_rounded_unique",
    "Ieme.C61_correctly_rounded",
    "Ieme.C61_narrow_always_rounded",
    "Ieme.C61_finishes",
    "Ieme.C61_undefined_nan",
    "Ieme.C61_three_roundings",
    "Ieme.C61_wide_parts_overflow",
    "Ieme.C61_inexact_parts_misrounded"
   ],
   "note": "Rounded is a complete specification (C61_rounded_unique). C61_inexact_parts_misrounded shows that the condition on the parts is needed: 1/16777219 to float is rounded twice."
  },
  {
   "property": "C62",
   "status": "proved",
   "theorems": [
    "Ieme.C62_to_floating_exact",
    "Ieme.C62_fraction_round_trip",
    "Ieme.C62_float_round_trip"
   ],
   "note": "For representations of at most bias bits (all integer types). Zero and subnormals are covered vacuously since their conversion to a fraction does not finish (C59)."
  },
  {
   "property": "C63",
   "status": "partial",
   "theorems": [
    "Ieme.C63_big_endian_reorders",
    "Ieme.C63_big_endian_iff",
    "Ieme.C63_big_endian_never_right",
    "Ieme.C63_little_endian_partial",
    "Ieme.C63_big_endian_wrong"
   ],
   "note": "Proved for little-endian targets. False for big-endian ones (C63_big_endian_wrong); ill-formed for others."
  },
  {
   "property": "C64",
   "status": "partial",
   "theorems": [
    "Ieme.C64_all_hashes_iff",
    "Ieme.C64_all_mixed_hashes_iff",
    "Ieme.C64_equal_hash_equal_partial",
    "Ieme.C64_equal_hash_differently",
    "Ieme.C64_only_constant_hash"
   ],
   "note": "Proved for canonical fractions. False in general: 1/2 == 2/4 but they hash differently unless the hash ignores its input (C64_equal_hash_differently, C64_only_constant_hash)."
  },
  {
   "property": "C65",
   "status": "proved",
   "theorems": [
    "Ieme.C65_identical_hash_equal",
    "Ieme.C65_canonical_results_hash_equal",
    "Ieme.C65_mixed_results_hash_equal"
   ],
   "note": ""
  },
  {
   "property": "C66",
   "status": "partial",
   "theorems": [
    "Ieme.C66_bounds_iff",
    "Ieme.C66_limit_values",
    "Ieme.C66_lower_bound",
    "Ieme.C66_upper_bound_partial",
    "Ieme.C66_smallest_partial",
    "Ieme.C66_bounds_broken",
    "Ieme.C66_unsigned_bounds",
    "Ieme.C66_numeric_limits"
   ],
   "note": "min() bounds every fraction, and for unsigned types all bounds hold. For signed types max() fails for exactly min/(-1) and smallest() for exactly (-1)/min (C66_bounds_broken)."
  },
  {
   "property": "C67",
   "status": "proved",
   "theorems": [
    "Ieme.C67_duration_cast_exact",
    "Ieme.C67_accepted_iff",
    "Ieme.C67_to_fractional",
    "Ieme.C67_finishes",
    "Ieme.C67_finishes_iff",
    "Ieme.C67_now_exact"
   ],
   "note": ""
  },
  {
   "property": "C68",
   "status": "proved",
   "theorems": [
    "Ieme.C68_round_trip",
    "Ieme.C68_intermediate_period",
    "Ieme.C68_injective"
   ],
   "note": ""
  },
  {
   "property": "C69",
   "status": "proved",
   "theorems": [
    "Ieme.C69_literal_parts",
    "Ieme.C69_negated_literal_parts",
    "Ieme.C69_double_negation",
    "Ieme.C69_fraction_over_literal",
    "Ieme.C69_literal_types",
    "Ieme.C69_literal_converted",
    "Ieme.C69_literal_boundary"
   ],
   "note": ""
  },
  {
   "property": "C70",
   "status": "proved",
   "theorems": [
    "Ieme.C70_constructors",
    "Ieme.C70_are_identical"
   ],
   "note": ""
  },
  {
   "property": "C71",
   "status": "proved",
   "theorems": [
    "Ieme.C71_results_in_range"
   ],
   "note": ""
  },
  {
   "property": "C72",
   "status": "partial",
   "theorems": [
    "Ieme.C72_positive_denominator_partial",
    "Ieme.C72_positive_denominator_iff",
    "Ieme.C72_neg_positive_denominator",
    "Ieme.C72_expressions_partial",
    "Ieme.C72_division_by_negative"
   ],
   "note": "Holds for every operation except division by a negative value, where safe and fast return a negative denominator; negation C72_division_by_negative, exact condition C72_positive_denominator_iff."
  },
  {
   "property": "C73",
   "status": "partial",
   "theorems": [
    "Ieme.C73_numerators_separate",
    "Ieme.C73_same_denominator_iff",
    "Ieme.C73_narrower",
    "Ieme.C73_denominators_separate_partial",
    "Ieme.C73_denominator_collision",
    "Ieme.C73_small_collision",
    "Ieme.C73_same_numerator_iff"
   ],
   "note": "Numerators (and whole parts) always separate on types not wider than std::size_t; denominators on narrower types and, where positive, on signed types of the same width. The shift in hash_combine loses the top bit, so the general claim is false: C73_denominator_collision."
  },
  {
   "property": "C74",
   "status": "partial",
   "theorems": [
    "Ieme.C74_monotone_partial",
    "Ieme.C74_narrow_monotone",
    "Ieme.C74_not_monotone",
    "Ieme.C74_value_only",
    "Ieme.C74_opposite",
    "Ieme.C74_monotone_iff",
    "Ieme.C74_apart"
   ],
   "note": "Order: for fractions whose reduced parts are exactly representable, and always when the representation fits in the significand. False in general because both parts are rounded before the division: C74_not_monotone. Value and sign hold without condition."
  },
  {
   "property": "C75",
   "status": "partial",
   "theorems": [
    "Ieme.C75_in_range",
    "Ieme.C75_failure_keeps_target_partial",
    "Ieme.C75_denominator_kept",
    "Ieme.C75_failure_changes_target",
    "Ieme.C75_failure_iff"
   ],
   "note": "Proved: parts stay in range; target kept when the stream was not good or empty; denominator kept when the numerator cannot be read. The general claim is false: C75_failure_changes_target. C75_failure_iff lists every way an extraction can fail and what the target then holds."
  },
  {
   "property": "C76",
   "status": "proved",
   "theorems": [
    "Ieme.C76_all_read_back",
    "Ieme.C76_stops_at_failure"
   ],
   "note": "The stream model covers the default locale and flags."
  },
  {
   "property": "C77",
   "status": "proved",
   "theorems": [
    "Ieme.C77_equal_values_identical",
    "Ieme.C77_whole_is_trunc"
   ],
   "note": ""
  },
  {
   "property": "C78",
   "status": "partial",
   "theorems": [
    "Ieme.C78_redenominate_idempotent_partial",
    "Ieme.C78_redenominate_drifts",
    "Ieme.C78_redenominate_drifts_always"
   ],
   "note": "False only for round mode under fast with a negative denominator, and there always: C78_redenominate_drifts, C78_redenominate_drifts_always."
  },
  {
   "property": "C79",
   "status": "partial",
   "theorems": [
    "Ieme.C79_round_integer_one_more",
    "Ieme.C79_floor_le_trunc_le_ceil",
    "Ieme.C79_round_near_floor",
    "Ieme.C79_integers_fixed_partial",
    "Ieme.C79_round_integer_wrong"
   ],
   "note": "False only for round under fast with a negative denominator, where the result is always one too large: C79_round_integer_wrong, C79_round_integer_one_more."
  },
  {
   "property": "C80",
   "status": "proved",
   "theorems": [
    "Ieme.C80_quotient_remainder"
   ],
   "note": ""
  },
  {
   "property": "C81",
   "status": "proved",
   "theorems": [
    "Ieme.C81_order_same_value",
    "Ieme.C81_order_identical"
   ],
   "note": ""
  },
  {
   "property": "C82",
   "status": "proved",
   "theorems": [
    "Ieme.C82_case_irrelevant"
   ],
   "note": ""
  },
  {
   "property": "C83",
   "status": "partial",
   "theorems": [
    "Ieme.C83_zeros_same_value_partial",
    "Ieme.C83_zeros_overflow",
    "Ieme.C83_shorter_finishes"
   ],
   "note": "Same value whenever both conversions finish; the longer literal can overflow where the shorter does not: C83_zeros_overflow."
  },
  {
   "property": "C84",
   "status": "proved",
   "theorems": [
    "Ieme.C84_arith_cancel",
    "Ieme.C84_cmp_cancel",
    "Ieme.C84_reduced_input_resists",
    "Ieme.C84_reduced_input_resists_cmp",
    "Ieme.C84_reduced_input_gains",
    "Ieme.C84_normalizing_signs_overflows",
    "Ieme.C84_minimum_lost"
   ],
   "note": ""
  },
  {
   "property": "C85",
   "status": "proved",
   "theorems": [
    "Ieme.C85_fast_iff",
    "Ieme.C85_safe_eq_fast",
    "Ieme.C85_safe_iff",
    "Ieme.C85_fast_cmp_iff",
    "Ieme.C85_safe_cmp_eq_fast",
    "Ieme.C85_safe_cmp_iff",
    "Ieme.C85_negate_iff"
   ],
   "note": ""
  },
  {
   "property": "C86",
   "status": "proved",
   "theorems": [
    "Ieme.C86_fast_unsigned"
   ],
   "note": ""
  },
  {
   "property": "C87",
   "status": "proved",
   "theorems": [
    "Ieme.C87_common_period",
    "Ieme.C87_common_period_exists",
    "Ieme.C87_arith_exact",
    "Ieme.C87_assign_exact",
    "Ieme.C87_scale_exact",
    "Ieme.C87_accepted_iff",
    "Ieme.C87_finishes"
   ],
   "note": ""
  },
  {
   "property": "C88",
   "status": "partial",
   "theorems": [
    "Ieme.C88_compare_iff",
    "Ieme.C88_eq_exact",
    "Ieme.C88_compare_exact_partial",
    "Ieme.C88_finishes",
    "Ieme.C88_wrong_for_negative_denominator"
   ],
   "note": "False under fast when a denominator is negative: C88_wrong_for_negative_denominator."
  },
  {
   "property": "C89",
   "status": "partial",
   "theorems": [
    "Ieme.C89_epsilon_partial",
    "Ieme.C89_unsigned_gap"
   ],
   "note": "False for every unsigned representation: C89_unsigned_gap."
  },
  {
   "property": "C90",
   "status": "proved",
   "theorems": [
    "Ieme.C90_reduce_iff",
    "Ieme.C90_reduced_output_arith",
    "Ieme.C90_reduced_input_arith",
    "Ieme.C90_cmp",
    "Ieme.C90_negate",
    "Ieme.C90_named_policies"
   ],
   "note": ""
  },
  {
   "property": "C91",
   "status": "proved",
   "theorems": [
    "Ieme.C91_operators",
    "Ieme.C91_assignments",
    "Ieme.C91_expressions",
    "Ieme.C91_functions",
    "Ieme.C91_mixed_numbers",
    "Ieme.C91_conversions",
    "Ieme.C91_durations"
   ],
   "note": ""
  },
  {
   "property": "C92",
   "status": "proved",
   "theorems": [
    "Ieme.C92_trunc_iff",
    "Ieme.C92_floor_iff",
    "Ieme.C92_ceil_iff",
    "Ieme.C92_whole_parts_never_wrap",
    "Ieme.C92_round_iff",
    "Ieme.C92_trunc_redenominate_iff",
    "Ieme.C92_floor_ceil_redenominate_iff",
    "Ieme.C92_round_redenominate_iff"
   ],
   "note": ""
  },
  {
   "property": "C93",
   "status": "proved",
   "theorems": [
    "Ieme.C93_construct_iff",
    "Ieme.C93_from_fraction_iff",
    "Ieme.C93_as_fraction_iff",
    "Ieme.C93_negate_iff",
    "Ieme.C93_add_iff",
    "Ieme.C93_add_others_iff"
   ],
   "note": ""
  },
  {
   "property": "C94",
   "status": "proved",
   "theorems": [
    "Ieme.C94_literal_iff",
    "Ieme.C94_literal_parts",
    "Ieme.C94_literal_lowest_terms",
    "Ieme.C94_dec_lowest_terms"
   ],
   "note": ""
  },
  {
   "property": "C95",
   "status": "proved",
   "theorems": [
    "Ieme.C95_nan_iff",
    "Ieme.C95_float_iff",
    "Ieme.C95_float_parts",
    "Ieme.C95_float_lowest_terms"
   ],
   "note": ""
  },
  {
   "property": "C96",
   "status": "proved",
   "theorems": [
    "Ieme.C96_arith_iff",
    "Ieme.C96_cmp_iff",
    "Ieme.C96_bounded"
   ],
   "note": ""
  },
  {
   "property": "C97",
   "status": "proved",
   "theorems": [
    "Ieme.C97_arith",
    "Ieme.C97_fast",
    "Ieme.C97_cmp",
    "Ieme.C97_fast_cmp",
    "Ieme.C97_neg",
    "Ieme.C97_expressions",
    "Ieme.C97_queries",
    "Ieme.C97_reduce",
    "Ieme.C97_round",
    "Ieme.C97_whole",
    "Ieme.C97_pow",
    "Ieme.C97_mixed",
    "Ieme.C97_mixed_add",
    "Ieme.C97_parse",
    "Ieme.C97_from_float",
    "Ieme.C97_to_float",
    "Ieme.C97_durations"
   ],
   "note": ""
  },
  {
   "property": "C98",
   "status": "partial",
   "theorems": [
    "Ieme.C98_round_trip_partial",
    "Ieme.C98_succeeds_iff",
    "Ieme.C98_never_silently_wrong",
    "Ieme.C98_written_decimal",
    "Ieme.C98_written_hex",
    "Ieme.C98_written_oct",
    "Ieme.C98_width",
    "Ieme.C98_default",
    "Ieme.C98_hex_negative",
    "Ieme.C98_internal",
    "Ieme.C98_zero_fill",
    "Ieme.C98_text_exact"
   ],
   "note": "False for negative parts in octal or hexadecimal, internal padding, zero padding: C98_hex_negative, C98_internal, C98_zero_fill. Exact condition for padding by whitespace: C98_succeeds_iff."
  },
  {
   "property": "C99",
   "status": "proved",
   "theorems": [
    "Ieme.C99_selected",
    "Ieme.C99_first_wins",
    "Ieme.C99_first_defined",
    "Ieme.C99_normalizes_iff",
    "Ieme.C99_dec_throws_iff",
    "Ieme.C99_dec_exact",
    "Ieme.C99_dec_lowest_terms",
    "Ieme.C99_dec_agree",
    "Ieme.C99_dec_returns",
    "Ieme.C99_dec_default"
   ],
   "note": ""
  },
  {
   "property": "C100",
   "status": "proved",
   "theorems": [
    "Ieme.C100_within_iff",
    "Ieme.C100_operators",
    "Ieme.C100_comparisons",
    "Ieme.C100_expressions",
    "Ieme.C100_functions",
    "Ieme.C100_queries",
    "Ieme.C100_mixed_numbers",
    "Ieme.C100_mixed_sums",
    "Ieme.C100_conversions",
    "Ieme.C100_durations"
   ],
   "note": ""
  },
  {
   "property": "C101",
   "status": "proved",
   "theorems": [
    "Ieme.C101_deterministic",
    "Ieme.C101_operators",
    "Ieme.C101_expressions",
    "Ieme.C101_functions",
    "Ieme.C101_mixed_numbers",
    "Ieme.C101_conversions",
    "Ieme.C101_exponent_arithmetic"
   ],
   "note": ""
  },
  {
   "property": "C102",
   "status": "proved",
   "theorems": [
    "Ieme.C102_integer_iff",
    "Ieme.C102_success_iff",
    "Ieme.C102_failure_iff",
    "Ieme.C102_unambiguous",
    "Ieme.C102_default"
   ],
   "note": ""
  },
  {
   "property": "C103",
   "status": "proved",
   "theorems": [
    "Ieme.C103_library_instances",
    "Ieme.C103_library_sound",
    "Ieme.C103_expressions_iff",
    "Ieme.C103_wrappers_sound",
    "Ieme.C103_canonical_inputs",
    "Ieme.C103_fast_comparisons",
    "Ieme.C103_canonical_outputs",
    "Ieme.C103_assignments",
    "Ieme.C103_abs",
    "Ieme.C103_round",
    "Ieme.C103_redenominate",
    "Ieme.C103_mixed",
    "Ieme.C103_strings",
    "Ieme.C103_floats",
    "Ieme.C103_durations",
    "Ieme.C103_checked_sound"
   ],
   "note": ""
  },
  {
   "property": "C104",
   "status": "partial",
   "theorems": [
    "Ieme.C104_default_direction",
    "Ieme.C104_rounded_unique",
    "Ieme.C104_finishes_alike",
    "Ieme.C104_rounded_partial",
    "Ieme.C104_narrow_rounded",
    "Ieme.C104_exact",
    "Ieme.C104_float_round_trip",
    "Ieme.C104_brackets_partial",
    "Ieme.C104_downward_goes_above",
    "Ieme.C104_monotone_partial",
    "Ieme.C104_nonneg_downward",
    "Ieme.C104_three_roundings",
    "Ieme.C104_rounded_iff",
    "Ieme.C104_brackets_denominator",
    "Ieme.C104_monotone_parts",
    "Ieme.C104_monotone_same_denominator"
   ],
   "note": "False if a part is not representable: C104_downward_goes_above. Proved for parts in lowest terms that are exactly representable (C104_rounded_partial), which is all of int to double (C104_narrow_rounded)."
  },
  {
   "property": "C105",
   "status": "proved",
   "theorems": [
    "Ieme.C105_relative_error",
    "Ieme.C105_four_units",
    "Ieme.C105_nearly_attained",
    "Ieme.C105_representable_parts"
   ],
   "note": ""
  },
  {
   "property": "C106",
   "status": "proved",
   "theorems": [
    "Ieme.C106_bounded_finishes",
    "Ieme.C106_operand_count",
    "Ieme.C106_fast_bound_exact"
   ],
   "note": ""
  },
  {
   "property": "C107",
   "status": "proved",
   "theorems": [
    "Ieme.C107_common_denominator",
    "Ieme.C107_magnitudes",
    "Ieme.C107_safe_repeated",
    "Ieme.C107_fast_repeated",
    "Ieme.C107_tenths"
   ],
   "note": ""
  },
  {
   "property": "C108",
   "status": "proved",
   "theorems": [
    "Ieme.C108_less",
    "Ieme.C108_max_min",
    "Ieme.C108_clamp",
    "Ieme.C108_max_element",
    "Ieme.C108_min_element",
    "Ieme.C108_is_sorted",
    "Ieme.C108_lower_bound",
    "Ieme.C108_sorted",
    "Ieme.C108_sort_unique",
    "Ieme.C108_sort_not_unique",
    "Ieme.C108_finish",
    "Ieme.C108_needed"
   ],
   "note": "That the conditions are needed is C108_needed; C108_sort_not_unique shows that lowest terms are needed for uniqueness."
  },
  {
   "property": "C109",
   "status": "partial",
   "theorems": [
    "Ieme.C109_is_proper_iff",
    "Ieme.C109_normalize_signs_iff",
    "Ieme.C109_queries",
    "Ieme.C109_is_proper_partial",
    "Ieme.C109_is_proper_wrong",
    "Ieme.C109_is_reduced_partial",
    "Ieme.C109_normalize_signs_partial",
    "Ieme.C109_normalize_signs_wrong",
    "Ieme.C109_rounding_partial",
    "Ieme.C109_trunc_wrong",
    "Ieme.C109_pow2",
    "Ieme.C109_fast_cmp",
    "Ieme.C109_unsigned_short_overflows",
    "Ieme.C109_safe_cmp",
    "Ieme.C109_safe_lcm",
    "Ieme.C109_mixed_exact",
    "Ieme.C109_mixed_finishes",
    "Ieme.C109_mixed_overflows",
    "Ieme.C109_mixed_cmp"
   ],
   "note": "Partial because the least value breaks is_proper, normalize_signs, is_reduced and rounding. Arithmetic on two operands of the same narrow type, negate and reduce are ill-formed by the standard (narrowing in braces) and are modelled as such; compilers that accept them with a warning are outside the model."
  },
  {
   "property": "C110",
   "status": "proved",
   "theorems": [
    "Ieme.C110_exact",
    "Ieme.C110_terminates",
    "Ieme.C110_correctness",
    "Ieme.C110_fast_wrong",
    "Ieme.C110_positive_exact",
    "Ieme.C110_positive_terminates",
    "Ieme.C110_fast_division_wrong"
   ],
   "note": "Assumes that the rational program terminates with everything defined; nothing is claimed about programs that divide by zero. All variables have one representation and one policy, and conditions compare two fractions."
  },
  {
   "property": "C111",
   "status": "proved",
   "theorems": [
    "Ieme.C111_literal",
    "Ieme.C111_decimal_double",
    "Ieme.C111_decimal_float",
    "Ieme.C111_long_numerator_misrounded",
    "Ieme.C111_exponent_misrounded",
    "Ieme.C111_expression",
    "Ieme.C111_program",
    "Ieme.C111_independent"
   ],
   "note": "Assumes that the computation finishes without overflow (C53, C61 and C106 say when) and an IEEE 754 format with round to nearest. Only the sufficient condition is proved; the two witnesses show that neither of its bounds can be dropped."
  },
  {
   "property": "C112",
   "status": "partial",
   "theorems": [
    "Ieme.C112_abs_exact_iff",
    "Ieme.C112_floor_exact",
    "Ieme.C112_ceil_exact",
    "Ieme.C112_abs_exact_partial",
    "Ieme.C112_abs_wrong",
    "Ieme.C112_abs_unsigned",
    "Ieme.C112_bounds"
   ],
   "note": "The standard library is modelled as its common implementations do it. `round`, `++` and `--` are not available for fractional durations and not modelled."
  },
  {
   "property": "C113",
   "status": "proved",
   "theorems": [
    "Ieme.C113_same_result",
    "Ieme.C113_calls_exact",
    "Ieme.C113_calls_negative",
    "Ieme.C113_calls_bounded",
    "Ieme.C113_bound_reached",
    "Ieme.C113_calls_of_type"
   ],
   "note": ""
  },
  {
   "property": "C114",
   "status": "proved",
   "theorems": [
    "Ieme.C114_checked_program",
    "Ieme.C114_checked_completes",
    "Ieme.C114_checked_steps",
    "Ieme.C114_loop_free",
    "Ieme.C114_condition"
   ],
   "note": ""
  },
  {
   "property": "C115",
   "status": "proved",
   "theorems": [
    "Ieme.C115_fraction",
    "Ieme.C115_integer",
    "Ieme.C115_self",
    "Ieme.C115_parts",
    "Ieme.C115_chain"
   ],
   "note": ""
  },
  {
   "property": "C116",
   "status": "proved",
   "theorems": [
    "Ieme.C116_success_iff",
    "Ieme.C116_round_trip_iff",
    "Ieme.C116_never_decimal"
   ],
   "note": ""
  },
  {
   "property": "C117",
   "status": "proved",
   "theorems": [
    "Ieme.C117_power_of_two",
    "Ieme.C117_directed",
    "Ieme.C117_dyadic",
    "Ieme.C117_numerator_overflow",
    "Ieme.C117_hex_literal",
    "Ieme.C117_expression",
    "Ieme.C117_change_format"
   ],
   "note": "Assumes that the conversion finishes without overflow (C61 says when) and IEEE 754 arithmetic."
  },
  {
   "property": "C118",
   "status": "proved",
   "theorems": [
    "Ieme.C118_never_throws",
    "Ieme.C118_terminates_iff",
    "Ieme.C118_returned",
    "Ieme.C118_no_exceptions",
    "Ieme.C118_followed",
    "Ieme.C118_last_terminates",
    "Ieme.C118_malformed_iff",
    "Ieme.C118_uncatchable",
    "Ieme.C118_steps",
    "Ieme.C118_loop_ends",
    "Ieme.C118_loop_terminates",
    "Ieme.C118_loop_collects"
   ],
   "note": "`badbit` and output are left out."
  },
  {
   "property": "C119",
   "status": "partial",
   "theorems": [
    "Ieme.C119_is_signed",
    "Ieme.C119_is_integer",
    "Ieme.C119_max",
    "Ieme.C119_digits",
    "Ieme.C119_digits10",
    "Ieme.C119_modulo_whole_partial",
    "Ieme.C119_signed_overflow",
    "Ieme.C119_not_modulo",
    "Ieme.C119_nan_not_quiet"
   ],
   "note": "The claim about is_modulo is proved for whole numbers; C119_not_modulo refutes it for other fractions. quiet_NaN is refuted by C119_nan_not_quiet. The constants that only concern floating-point types are left out."
  },
  {
   "property": "C120",
   "status": "partial",
   "theorems": [
    "Ieme.C120_table_find",
    "Ieme.C120_table_distinct_iff",
    "Ieme.C120_table_all_iff",
    "Ieme.C120_map_insert",
    "Ieme.C120_map_find",
    "Ieme.C120_map_program",
    "Ieme.C120_map_finishes",
    "Ieme.C120_map_undefined",
    "Ieme.C120_table_program_partial",
    "Ieme.C120_table_misses",
    "Ieme.C120_table_undefined"
   ],
   "note": "std::unordered_map: partial because std::hash tells equal fractions apart that are not in lowest terms (C64)."
  },
  {
   "property": "C121",
   "status": "proved",
   "theorems": [
    "Ieme.C121_signature",
    "Ieme.C121_more_specialised",
    "Ieme.C121_policies_rejected",
    "Ieme.C121_comparisons",
    "Ieme.C121_compound",
    "Ieme.C121_compound_missing",
    "Ieme.C121_one_policy",
    "Ieme.C121_type_from_leaves",
    "Ieme.C121_order_irrelevant",
    "Ieme.C121_mixed_type_depends",
    "Ieme.C121_type_sound",
    "Ieme.C121_exact",
    "Ieme.C121_homogeneous"
   ],
   "note": ""
  },
  {
   "property": "C122",
   "status": "proved",
   "theorems": [
    "Ieme.C122_expressions",
    "Ieme.C122_comparisons",
    "Ieme.C122_programs",
    "Ieme.C122_unary",
    "Ieme.C122_rounding",
    "Ieme.C122_redenominate",
    "Ieme.C122_pow",
    "Ieme.C122_mixed_numbers",
    "Ieme.C122_literals",
    "Ieme.C122_floating_point",
    "Ieme.C122_durations",
    "Ieme.C122_never"
   ],
   "note": ""
  },
  {
   "property": "C123",
   "status": "proved",
   "theorems": [
    "Ieme.C123_typed_expressions",
    "Ieme.C123_operators",
    "Ieme.C123_functions",
    "Ieme.C123_pow2",
    "Ieme.C123_conversions",
    "Ieme.C123_literals",
    "Ieme.C123_mixed_numbers",
    "Ieme.C123_mixed_wrong",
    "Ieme.C123_programs",
    "Ieme.C123_durations",
    "Ieme.C123_durations_wrong",
    "Ieme.C123_floating_point",
    "Ieme.C123_unsigned_wrong"
   ],
   "note": ""
  },
  {
   "property": "C124",
   "status": "proved",
   "theorems": [
    "Ieme.C124_read_succeeds_iff",
    "Ieme.C124_accepted",
    "Ieme.C124_round_trip",
    "Ieme.C124_read_saturates",
    "Ieme.C124_read_any_long",
    "Ieme.C124_construction_iff",
    "Ieme.C124_construction_exact",
    "Ieme.C124_construction_modular",
    "Ieme.C124_from_fraction_value",
    "Ieme.C124_construction_wrong",
    "Ieme.C124_addition_exact",
    "Ieme.C124_addition_in_int",
    "Ieme.C124_as_fraction"
   ],
   "note": ""
  },
  {
   "property": "C125",
   "status": "proved",
   "theorems": [
    "Ieme.C125_exact",
    "Ieme.C125_terminates",
    "Ieme.C125_correctness",
    "Ieme.C125_type_sound",
    "Ieme.C125_never_rejected",
    "Ieme.C125_rejected",
    "Ieme.C125_integers",
    "Ieme.C125_homogeneous",
    "Ieme.C125_order_wrong"
   ],
   "note": ""
  },
  {
   "property": "C126",
   "status": "proved",
   "theorems": [
    "Ieme.C126_wider",
    "Ieme.C126_wider_wrong",
    "Ieme.C126_expressions",
    "Ieme.C126_programs",
    "Ieme.C126_deterministic"
   ],
   "note": ""
  },
  {
   "property": "C127",
   "status": "proved",
   "theorems": [
    "Ieme.C127_exact",
    "Ieme.C127_terminates",
    "Ieme.C127_meaning",
    "Ieme.C127_static",
    "Ieme.C127_divisor_iff",
    "Ieme.C127_completes",
    "Ieme.C127_reciprocal_wrong"
   ],
   "note": ""
  },
  {
   "property": "C128",
   "status": "proved",
   "theorems": [
    "Ieme.C128_reduce",
    "Ieme.C128_preserves_iff",
    "Ieme.C128_policies",
    "Ieme.C128_output",
    "Ieme.C128_input",
    "Ieme.C128_input_blind",
    "Ieme.C128_unsound_wrong"
   ],
   "note": ""
  },
  {
   "property": "C129",
   "status": "proved",
   "theorems": [
    "Ieme.C129_write",
    "Ieme.C129_not_good",
    "Ieme.C129_good_iff",
    "Ieme.C129_exceptions",
    "Ieme.C129_terminates_iff",
    "Ieme.C129_each_not_good",
    "Ieme.C129_each",
    "Ieme.C129_cut_reads_back",
    "Ieme.C129_cut_wrong"
   ],
   "note": ""
  },
  {
   "property": "C130",
   "status": "proved",
   "theorems": [
    "Ieme.C130_typed",
    "Ieme.C130_exact",
    "Ieme.C130_rejected_iff",
    "Ieme.C130_operators",
    "Ieme.C130_no_operator",
    "Ieme.C130_compare",
    "Ieme.C130_compare_rejected_iff",
    "Ieme.C130_epoch",
    "Ieme.C130_epoch_run",
    "Ieme.C130_widen",
    "Ieme.C130_grouping",
    "Ieme.C130_grouping_matters"
   ],
   "note": ""
  },
  {
   "property": "C131",
   "status": "proved",
   "theorems": [
    "Ieme.C131_expressions",
    "Ieme.C131_comparisons",
    "Ieme.C131_exact",
    "Ieme.C131_terminates",
    "Ieme.C131_completes",
    "Ieme.C131_typed",
    "Ieme.C131_rejected_iff",
    "Ieme.C131_widen",
    "Ieme.C131_epoch",
    "Ieme.C131_compound",
    "Ieme.C131_timer",
    "Ieme.C131_compound_only",
    "Ieme.C131_fast_wrong"
   ],
   "note": ""
  },
  {
   "property": "C132",
   "status": "proved",
   "theorems": [
    "Ieme.C132_expressions",
    "Ieme.C132_transient",
    "Ieme.C132_truncation",
    "Ieme.C132_comparisons",
    "Ieme.C132_programs",
    "Ieme.C132_safe",
    "Ieme.C132_safe_transient",
    "Ieme.C132_wrong"
   ],
   "note": ""
  },
  {
   "property": "C133",
   "status": "proved",
   "theorems": [
    "Ieme.C133_accumulate",
    "Ieme.C133_accumulate_product",
    "Ieme.C133_reduce",
    "Ieme.C133_accumulate_is_reduce",
    "Ieme.C133_reduce_identical",
    "Ieme.C133_reduce_finishes",
    "Ieme.C133_reduce_bounded",
    "Ieme.C133_inner_product",
    "Ieme.C133_partial_sum",
    "Ieme.C133_adjacent_difference",
    "Ieme.C133_inverse",
    "Ieme.C133_inverse_identical",
    "Ieme.C133_order_matters"
   ],
   "note": ""
  },
  {
   "property": "C134",
   "status": "proved",
   "theorems": [
    "Ieme.C134_plain",
    "Ieme.C134_round_trip",
    "Ieme.C134_text",
    "Ieme.C134_from_classic",
    "Ieme.C134_read",
    "Ieme.C134_accepted",
    "Ieme.C134_read_by_classic",
    "Ieme.C134_read_by_classic_iff",
    "Ieme.C134_wrong"
   ],
   "note": ""
  },
  {
   "property": "C135",
   "status": "proved",
   "theorems": [
    "Ieme.C135_expressions",
    "Ieme.C135_comparisons",
    "Ieme.C135_checked_program",
    "Ieme.C135_checked_completes",
    "Ieme.C135_loop_free"
   ],
   "note": ""
  },
  {
   "property": "C136",
   "status": "proved",
   "theorems": [
    "Ieme.C136_implicit_iff",
    "Ieme.C136_direct_iff",
    "Ieme.C136_unambiguous",
    "Ieme.C136_same_result",
    "Ieme.C136_policy",
    "Ieme.C136_value",
    "Ieme.C136_chain",
    "Ieme.C136_integer_iff",
    "Ieme.C136_fraction_iff",
    "Ieme.C136_source_policy",
    "Ieme.C136_braces",
    "Ieme.C136_floating_point",
    "Ieme.C136_braces_floating_point",
    "Ieme.C136_implicit_loses",
    "Ieme.C136_not_transitive",
    "Ieme.C136_common_type_converts",
    "Ieme.C136_common_type_symm",
    "Ieme.C136_common_type"
   ],
   "note": ""
  },
  {
   "property": "C137",
   "status": "proved",
   "theorems": [
    "Ieme.C137_reading",
    "Ieme.C137_elapsed",
    "Ieme.C137_compare",
    "Ieme.C137_stopwatch",
    "Ieme.C137_wait",
    "Ieme.C137_schedule",
    "Ieme.C137_nanoseconds",
    "Ieme.C137_fast_iff",
    "Ieme.C137_fast_overflows"
   ],
   "note": ""
  },
  {
   "property": "C138",
   "status": "proved",
   "theorems": [
    "Ieme.C138_checked_program",
    "Ieme.C138_checked_completes",
    "Ieme.C138_loop_free",
    "Ieme.C138_expression",
    "Ieme.C138_condition",
    "Ieme.C138_compiles",
    "Ieme.C138_integers_tight",
    "Ieme.C138_limits"
   ],
   "note": ""
  },
  {
   "property": "C139",
   "status": "proved",
   "theorems": [
    "Ieme.C139_never_throws",
    "Ieme.C139_returns",
    "Ieme.C139_terminates_iff",
    "Ieme.C139_steps",
    "Ieme.C139_intact",
    "Ieme.C139_before_break",
    "Ieme.C139_at_break",
    "Ieme.C139_bad_iff",
    "Ieme.C139_bad_terminates_iff",
    "Ieme.C139_not_bad",
    "Ieme.C139_nothing_cut",
    "Ieme.C139_end_cuts",
    "Ieme.C139_success_iff",
    "Ieme.C139_round_trip",
    "Ieme.C139_half_read",
    "Ieme.C139_loop_ends",
    "Ieme.C139_loop_prefix",
    "Ieme.C139_loop_end_cuts"
   ],
   "note": ""
  },
  {
   "property": "C140",
   "status": "proved",
   "theorems": [
    "Ieme.C140_tokens",
    "Ieme.C140_literals",
    "Ieme.C140_suffix",
    "Ieme.C140_grammar",
    "Ieme.C140_compile_iff",
    "Ieme.C140_unambiguous",
    "Ieme.C140_layout",
    "Ieme.C140_layout_irrelevant",
    "Ieme.C140_exact",
    "Ieme.C140_silent",
    "Ieme.C140_fraction",
    "Ieme.C140_decimal",
    "Ieme.C140_decimal_throws",
    "Ieme.C140_chain",
    "Ieme.C140_pitfalls"
   ],
   "note": ""
  },
  {
   "property": "C141",
   "status": "partial",
   "theorems": [
    "Ieme.C141_result",
    "Ieme.C141_integer",
    "Ieme.C141_division",
    "Ieme.C141_division_special",
    "Ieme.C141_inexact",
    "Ieme.C141_exact",
    "Ieme.C141_inexact_iff_partial",
    "Ieme.C141_wide_type",
    "Ieme.C141_tininess",
    "Ieme.C141_quiet",
    "Ieme.C141_undefined",
    "Ieme.C141_direction",
    "Ieme.C141_round_trip",
    "Ieme.C141_sequence"
   ],
   "note": "C141_inexact_iff_partial: the claim for all integer types is false (C141_wide_type); proved for types within the exponent range, and C141_inexact has the exact condition for all types."
  },
  {
   "property": "C142",
   "status": "partial",
   "theorems": [
    "Ieme.C142_reads",
    "Ieme.C142_unambiguous",
    "Ieme.C142_no_comparison",
    "Ieme.C142_equation_partial",
    "Ieme.C142_equation_wrong",
    "Ieme.C142_order_partial",
    "Ieme.C142_order_wrong",
    "Ieme.C142_decides",
    "Ieme.C142_chain",
    "Ieme.C142_pitfalls"
   ],
   "note": "`C142_equation_partial` and `C142_order_partial` need literals that fit and, for the order of a fraction and an integer, no negative denominators, because the general claims are refuted (`C142_equation_wrong`, `C142_order_wrong`)."
  },
  {
   "property": "C143",
   "status": "proved",
   "theorems": [
    "Ieme.C143_collects_iff",
    "Ieme.C143_collected_small",
    "Ieme.C143_left",
    "Ieme.C143_written",
    "Ieme.C143_eof_iff",
    "Ieme.C143_not_detected",
    "Ieme.C143_sum_loop",
    "Ieme.C143_sum_exact",
    "Ieme.C143_sum_written",
    "Ieme.C143_copy",
    "Ieme.C143_reduce_finishes_iff",
    "Ieme.C143_reduce_again"
   ],
   "note": ""
  },
  {
   "property": "C144",
   "status": "proved",
   "theorems": [
    "Ieme.C144_unchanged",
    "Ieme.C144_operators",
    "Ieme.C144_expressions",
    "Ieme.C144_math",
    "Ieme.C144_mixed",
    "Ieme.C144_conversions",
    "Ieme.C144_wrappers",
    "Ieme.C144_any_order",
    "Ieme.C144_never_stuck",
    "Ieme.C144_ends",
    "Ieme.C144_result",
    "Ieme.C144_same_calls",
    "Ieme.C144_commuting",
    "Ieme.C144_count",
    "Ieme.C144_left_to_right",
    "Ieme.C144_flagging_iff",
    "Ieme.C144_flag_exact",
    "Ieme.C144_order_matters",
    "Ieme.C144_log_order"
   ],
   "note": ""
  },
  {
   "property": "C145",
   "status": "proved",
   "theorems": [
    "Ieme.C145_text",
    "Ieme.C145_declarations",
    "Ieme.C145_utilities",
    "Ieme.C145_raw_construct",
    "Ieme.C145_queries",
    "Ieme.C145_rewrites",
    "Ieme.C145_policies",
    "Ieme.C145_fraction_class",
    "Ieme.C145_operators",
    "Ieme.C145_assignments",
    "Ieme.C145_fraction_math",
    "Ieme.C145_mixed_class",
    "Ieme.C145_mixed_operators"
   ],
   "note": ""
  },
  {
   "property": "C146",
   "status": "proved",
   "theorems": [
    "Ieme.C146_text",
    "Ieme.C146_valid",
    "Ieme.C146_digits",
    "Ieme.C146_scan",
    "Ieme.C146_to_fraction",
    "Ieme.C146_dec",
    "Ieme.C146_dec_throws_iff",
    "Ieme.C146_dec_exact"
   ],
   "note": ""
  },
  {
   "property": "C147",
   "status": "proved",
   "theorems": [
    "Ieme.C147_text",
    "Ieme.C147_of_float",
    "Ieme.C147_of_double",
    "Ieme.C147_to_float",
    "Ieme.C147_to_double",
    "Ieme.C147_to_long_double",
    "Ieme.C147_little_endian_exact",
    "Ieme.C147_big_endian_never_right",
    "Ieme.C147_narrow_always_rounded"
   ],
   "note": ""
  },
  {
   "property": "C148",
   "status": "proved",
   "theorems": [
    "Ieme.C148_text",
    "Ieme.C148_hash",
    "Ieme.C148_limits",
    "Ieme.C148_constants",
    "Ieme.C148_literals",
    "Ieme.C148_equal_hashes_iff",
    "Ieme.C148_half_hashes",
    "Ieme.C148_limit_values"
   ],
   "note": ""
  },
  {
   "property": "C149",
   "status": "proved",
   "theorems": [
    "Ieme.C149_limits_ill_formed",
    "Ieme.C149_numeric_limits_ill_formed",
    "Ieme.C149_other_policies",
    "Ieme.C149_max_never_positive",
    "Ieme.C149_corrected"
   ],
   "note": ""
  },
  {
   "property": "C150",
   "status": "proved",
   "theorems": [
    "Ieme.C150_text",
    "Ieme.C150_operators",
    "Ieme.C150_read",
    "Ieme.C150_read_throwing",
    "Ieme.C150_write",
    "Ieme.C150_round_trip",
    "Ieme.C150_never_throws"
   ],
   "note": ""
  },
  {
   "property": "C151",
   "status": "proved",
   "theorems": [
    "Ieme.C151_text",
    "Ieme.C151_types",
    "Ieme.C151_predefined",
    "Ieme.C151_floating",
    "Ieme.C151_convert",
    "Ieme.C151_other_clock",
    "Ieme.C151_to_fractional",
    "Ieme.C151_to_fractional_exact",
    "Ieme.C151_now",
    "Ieme.C151_now_exact",
    "Ieme.C151_steady"
   ],
   "note": ""
  },
  {
   "property": "C152",
   "status": "proved",
   "theorems": [
    "Ieme.C152_arith_exact",
    "Ieme.C152_comparison_iff",
    "Ieme.C152_unary_exact",
    "Ieme.C152_rounding_iff",
    "Ieme.C152_comparisons_wrong",
    "Ieme.C152_arithmetic_wrong",
    "Ieme.C152_is_reduced_wrong",
    "Ieme.C152_rounding_wrong",
    "Ieme.C152_powers_wrong",
    "Ieme.C152_mixed_wrong"
   ],
   "note": ""
  },
  {
   "property": "C153",
   "status": "proved",
   "theorems": [
    "Ieme.C153_power_finishes",
    "Ieme.C153_power_finishes_only",
    "Ieme.C153_sum_finishes",
    "Ieme.C153_sum_fast",
    "Ieme.C153_euclid_finishes",
    "Ieme.C153_sum_safe_based",
    "Ieme.C153_static_bound",
    "Ieme.C153_operand_count",
    "Ieme.C153_checked_program",
    "Ieme.C153_checked_loop_free",
    "Ieme.C153_expression",
    "Ieme.C153_statements",
    "Ieme.C153_code",
    "Ieme.C153_policy_irrelevant",
    "Ieme.C153_equations",
    "Ieme.C153_distributive",
    "Ieme.C153_harmonic",
    "Ieme.C153_power",
    "Ieme.C153_total",
    "Ieme.C153_euclid",
    "Ieme.C153_greedy",
    "Ieme.C153_bisection",
    "Ieme.C153_order_with_integer_wrong"
   ],
   "note": ""
  },
  {
   "property": "C154",
   "status": "proved",
   "theorems": [
    "Ieme.C154_expression",
    "Ieme.C154_statements",
    "Ieme.C154_code",
    "Ieme.C154_runs_iff",
    "Ieme.C154_trichotomy",
    "Ieme.C154_ends"
   ],
   "note": ""
  }
 ]
}