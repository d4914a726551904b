Axioms each theorem of MANIFEST.json depends on (output of #print axioms).

Ieme.C01_add_exact: propext, Classical.choice, Quot.sound
Ieme.C01_signed_never_wraps: propext, Classical.choice, Quot.sound
Ieme.C02_sub_exact: propext, Classical.choice, Quot.sound
Ieme.C03_mul_exact: propext, Classical.choice, Quot.sound
Ieme.C04_div_exact: propext, Classical.choice, Quot.sound
Ieme.C05_mod_exact: propext, Classical.choice, Quot.sound
Ieme.C05_mod_bound_and_sign: propext, Classical.choice, Quot.sound
Ieme.C06_neg_exact: propext, Classical.choice, Quot.sound
Ieme.C06_neg_neg: propext, Classical.choice, Quot.sound
Ieme.C07_small_arith_finishes: propext, Classical.choice, Quot.sound
Ieme.C07_small_cmp_finishes: propext, Classical.choice, Quot.sound
Ieme.C07_small_neg_finishes: propext, Classical.choice, Quot.sound
Ieme.C08_canonical_results: propext, Classical.choice, Quot.sound
Ieme.C08_canonical_neg: propext, Classical.choice, Quot.sound
Ieme.C08_defaults_normalize: none
Ieme.C09_policies_agree: propext, Classical.choice, Quot.sound
Ieme.C09_policies_agree_eq: propext, Classical.choice, Quot.sound
Ieme.C10_add_comm: propext, Classical.choice, Quot.sound
Ieme.C10_mul_comm: propext, Classical.choice, Quot.sound
Ieme.C10_add_assoc: propext, Classical.choice, Quot.sound
Ieme.C10_mul_assoc: propext, Classical.choice, Quot.sound
Ieme.C10_distrib: propext, Classical.choice, Quot.sound
Ieme.C10_sub_eq_add_neg: propext, Classical.choice, Quot.sound
Ieme.C10_div_mul_cancel: propext, Classical.choice, Quot.sound
Ieme.C10_sub_self: propext, Classical.choice, Quot.sound
Ieme.C11_expressions_exact: propext, Classical.choice, Quot.sound
Ieme.C12_safe_resists_overflow_partial: propext, Classical.choice, Quot.sound
Ieme.C12_safe_comparison_partial: propext, Classical.choice, Quot.sound
Ieme.C12_safe_comparison_less_resistant: none
Ieme.C12_nested_resists_overflow: propext, Classical.choice, Quot.sound
Ieme.C12_safe_gains: none
Ieme.C12_nested_comparison: propext, Classical.choice, Quot.sound
Ieme.C12_safe_comparison_finishes_iff: propext, Classical.choice, Quot.sound
Ieme.C13_eq_exact: propext, Classical.choice, Quot.sound
Ieme.C14_ne_not_eq: propext, Quot.sound
Ieme.C14_ne_fault_iff: propext, Quot.sound
Ieme.C15_order_exact_partial: propext, Classical.choice, Quot.sound
Ieme.C15_safe_ff_exact: propext, Classical.choice, Quot.sound
Ieme.C15_order_characterised: propext, Classical.choice, Quot.sound
Ieme.C15_order_wrong_for_negative_denominator: propext, Classical.choice, Quot.sound
Ieme.C15_correct_iff: propext, Classical.choice, Quot.sound
Ieme.C16_undefined_comparisons: propext, Classical.choice, Quot.sound
Ieme.C16_safe_ff_finishes: propext, Quot.sound
Ieme.C16_safe_based_ff_finishes: propext, Classical.choice, Quot.sound
Ieme.C16_min_value_faults: none
Ieme.C17_irreflexive: propext, Classical.choice, Quot.sound
Ieme.C17_asymmetric: propext, Classical.choice, Quot.sound
Ieme.C17_transitive: propext, Classical.choice, Quot.sound
Ieme.C17_incomparable_iff_eq: propext, Classical.choice, Quot.sound
Ieme.C17_trichotomy: propext, Classical.choice, Quot.sound
Ieme.C18_swap: propext, Quot.sound
Ieme.C18_le_iff_lt_or_eq: propext, Classical.choice, Quot.sound
Ieme.C18_integer_as_fraction_eq: propext, Classical.choice, Quot.sound
Ieme.C18_integer_as_fraction_partial: propext, Classical.choice, Quot.sound
Ieme.C18_integer_as_fraction_false: none
Ieme.C18_integer_as_fraction_iff: propext, Classical.choice, Quot.sound
Ieme.C19_undefined_propagates_partial: propext, Classical.choice, Quot.sound
Ieme.C19_defaults_propagates_partial: propext, Classical.choice, Quot.sound
Ieme.C19_neg_undefined: propext, Classical.choice, Quot.sound
Ieme.C19_integer_operand_finishes: propext, Classical.choice, Quot.sound
Ieme.C19_safe_ff_never_finishes: propext, Classical.choice, Quot.sound
Ieme.C19_undefined_not_propagated: none
Ieme.C19_lost_divisor_zero: propext, Classical.choice, Quot.sound
Ieme.C19_propagates_iff: propext, Classical.choice, Quot.sound
Ieme.C20_reduce_preserves: propext, Classical.choice, Quot.sound
Ieme.C20_reduce_modes: none
Ieme.C20_normalize_signs_preserves: propext, Classical.choice, Quot.sound
Ieme.C21_reduce_finishes_iff: propext, Classical.choice, Quot.sound
Ieme.C21_reduce_undefined: propext, Classical.choice, Quot.sound
Ieme.C21_reduce_canonical: propext, Classical.choice, Quot.sound
Ieme.C21_reduce_unique: propext, Classical.choice, Quot.sound
Ieme.C22_reduce_idempotent: propext, Classical.choice, Quot.sound
Ieme.C22_reduce_never_wraps: propext, Classical.choice, Quot.sound
Ieme.C23_is_reduced_correct_iff: propext, Classical.choice, Quot.sound
Ieme.C23_finishes: propext, Classical.choice, Quot.sound
Ieme.C23_is_reduced_ignore_signs_exact: propext, Classical.choice, Quot.sound
Ieme.C23_is_reduced_exact_partial: propext, Classical.choice, Quot.sound
Ieme.C23_is_reduced_false: none
Ieme.C24_sign_queries_exact: propext, Classical.choice, Quot.sound
Ieme.C24_sign_trichotomy: propext, Classical.choice, Quot.sound
Ieme.C25_is_integer_exact: propext, Classical.choice, Quot.sound
Ieme.C25_is_unit_fraction_exact: propext, Classical.choice, Quot.sound
Ieme.C25_is_proper_exact: propext, Classical.choice, Quot.sound
Ieme.C25_queries_finish: propext, Classical.choice, Quot.sound
Ieme.C26_reciprocal: propext, Classical.choice, Quot.sound
Ieme.C27_abs_finishes: propext, Classical.choice, Quot.sound
Ieme.C27_abs_exact: propext, Classical.choice, Quot.sound
Ieme.C27_abs_idempotent: propext, Classical.choice, Quot.sound
Ieme.C27_abs_parts: propext, Classical.choice, Quot.sound
Ieme.C28_normalize_signs: propext, Classical.choice, Quot.sound
Ieme.C28_identity_on_positive: propext
Ieme.C28_finishes: propext, Quot.sound
Ieme.C29_trunc_exact: propext, Classical.choice, Quot.sound
Ieme.C29_whole_parts_finish: propext, Classical.choice, Quot.sound
Ieme.C30_floor_exact_iff: propext, Classical.choice, Quot.sound
Ieme.C30_floor_exact_partial: propext, Classical.choice, Quot.sound
Ieme.C30_floor_wrong: propext, Classical.choice, Quot.sound
Ieme.C31_ceil_exact_iff: propext, Classical.choice, Quot.sound
Ieme.C31_ceil_exact_partial: propext, Classical.choice, Quot.sound
Ieme.C31_ceil_wrong: propext, Classical.choice, Quot.sound
Ieme.C32_round_finishes: propext, Classical.choice, Quot.sound
Ieme.C32_round_exact_partial: propext, Classical.choice, Quot.sound
Ieme.C32_round_exact_iff: propext, Classical.choice, Quot.sound
Ieme.C32_round_wrong: propext, Classical.choice, Quot.sound
Ieme.C33_dispatch: none
Ieme.C33_modes_differ: none
Ieme.C34_redenominate_finishes: propext, Classical.choice, Quot.sound
Ieme.C34_trunc_redenominate: propext, Classical.choice, Quot.sound
Ieme.C34_floor_redenominate_partial: propext, Classical.choice, Quot.sound
Ieme.C34_ceil_redenominate_partial: propext, Classical.choice, Quot.sound
Ieme.C34_floor_redenominate_iff: propext, Classical.choice, Quot.sound
Ieme.C34_ceil_redenominate_iff: propext, Classical.choice, Quot.sound
Ieme.C34_round_redenominate_partial: propext, Classical.choice, Quot.sound
Ieme.C34_round_redenominate_iff: propext, Classical.choice, Quot.sound
Ieme.C34_redenominate_zero: propext, Classical.choice, Quot.sound
Ieme.C34_multiple_unchanged_partial: propext, Classical.choice, Quot.sound
Ieme.C34_redenominate_wrong: none
Ieme.C35_pow2_exact: propext, Classical.choice, Quot.sound
Ieme.C35_pow2_finishes_iff: propext, Classical.choice, Quot.sound
Ieme.C35_pow2_never_wrong_partial: propext, Classical.choice, Quot.sound
Ieme.C35_pow2_wrong: propext, Classical.choice, Quot.sound
Ieme.C36_pow_exact: propext, Classical.choice, Quot.sound
Ieme.C36_pow_clean_iff: propext, Classical.choice, Quot.sound
Ieme.C36_pow_signed_finishes_iff: propext, Classical.choice, Quot.sound
Ieme.C36_pow_int_min: propext, Quot.sound
Ieme.C37_unsigned_pow_modular: propext, Classical.choice, Quot.sound
Ieme.C37_negative_exponent: propext, Classical.choice, Quot.sound
Ieme.C37_pow_exact: propext, Classical.choice, Quot.sound
Ieme.C38_conversion_keeps_parts: propext, Quot.sound
Ieme.C38_conversion_modular: propext, Classical.choice, Quot.sound
Ieme.C39_mixed_arith_exact: propext, Classical.choice, Quot.sound
Ieme.C39_mixed_cmp_exact: propext, Classical.choice, Quot.sound
Ieme.C39_mixed_fits: propext, Quot.sound
Ieme.C39_mixed_converts: propext, Classical.choice, Quot.sound
Ieme.C39_common_type_fits: propext, Classical.choice, Quot.sound
Ieme.C40_compound_is_binary: propext, Quot.sound
Ieme.C40_compound_converts: propext
Ieme.C40_sequence_exact: propext, Classical.choice, Quot.sound
Ieme.C40_loop_sum: propext, Classical.choice, Quot.sound
Ieme.C41_ratio_exact: propext, Classical.choice, Quot.sound
Ieme.C41_ratio_well_formed_iff: propext, Classical.choice, Quot.sound
Ieme.C42_construction_exact: propext, Classical.choice, Quot.sound
Ieme.C42_from_fraction_exact: propext, Classical.choice, Quot.sound
Ieme.C42_construction_finishes: propext, Classical.choice, Quot.sound
Ieme.C42_from_fraction_finishes: propext, Classical.choice, Quot.sound
Ieme.C43_invariant_partial: propext, Classical.choice, Quot.sound
Ieme.C43_constructor_invariant_partial: propext, Classical.choice, Quot.sound
Ieme.C43_invariant_broken: propext, Classical.choice, Quot.sound
Ieme.C44_add_exact: propext, Classical.choice, Quot.sound
Ieme.C44_add_fraction_exact: propext, Classical.choice, Quot.sound
Ieme.C44_add_integer_exact: propext, Classical.choice, Quot.sound
Ieme.C44_expression_exact: propext, Classical.choice, Quot.sound
Ieme.C44_add_integer_finishes: propext, Classical.choice, Quot.sound
Ieme.C44_add_finishes: propext, Classical.choice, Quot.sound
Ieme.C44_add_fraction_finishes: propext, Classical.choice, Quot.sound
Ieme.C45_negation_exact: propext, Classical.choice, Quot.sound
Ieme.C45_negation_involutive: propext, Classical.choice, Quot.sound
Ieme.C45_negation_finishes: propext, Classical.choice, Quot.sound
Ieme.C46_round_trip_exact: propext, Classical.choice, Quot.sound
Ieme.C46_as_fraction_exact: propext, Classical.choice, Quot.sound
Ieme.C46_round_trip_finishes: propext, Classical.choice, Quot.sound
Ieme.C47_undefined_never_constructed_partial: propext, Classical.choice, Quot.sound
Ieme.C47_undefined_faults: propext, Classical.choice, Quot.sound
Ieme.C48_round_trip: propext, Classical.choice, Quot.sound
Ieme.C48_written_text: propext, Quot.sound
Ieme.C48_injective: propext, Classical.choice, Quot.sound
Ieme.C49_well_formed_read: propext, Classical.choice, Quot.sound
Ieme.C49_success_exact_partial: propext, Classical.choice, Quot.sound
Ieme.C49_malformed_fails_partial: propext, Classical.choice, Quot.sound
Ieme.C49_success_iff: propext, Classical.choice, Quot.sound
Ieme.C49_accepted: propext, Classical.choice, Quot.sound
Ieme.C49_not_good_fails: propext
Ieme.C49_unsigned_negative: propext, Classical.choice, Quot.sound
Ieme.C50_conversion_in_bounds: propext, Classical.choice, Quot.sound
Ieme.C50_scan_total: propext, Classical.choice, Quot.sound
Ieme.C50_no_out_of_bounds: propext, Classical.choice, Quot.sound
Ieme.C51_accepts_iff: propext, Classical.choice, Quot.sound
Ieme.C51_rejected_undefined: propext, Classical.choice, Quot.sound
Ieme.C51_accepted_defined: propext, Classical.choice, Quot.sound
Ieme.C51_defined_iff: propext, Classical.choice, Quot.sound
Ieme.C51_unsigned_undefined: propext, Classical.choice, Quot.sound
Ieme.C52_literal_accepted_partial: propext, Classical.choice, Quot.sound
Ieme.C52_pointless_rejected: propext, Classical.choice, Quot.sound
Ieme.C52_witness: propext, Classical.choice, Quot.sound
Ieme.C53_value_exact: propext, Classical.choice, Quot.sound
Ieme.C53_signed_value_exact: propext, Classical.choice, Quot.sound
Ieme.C53_finishes: propext, Classical.choice, Quot.sound
Ieme.C54_valid_dec: propext, Classical.choice, Quot.sound
Ieme.C54_valid_hex: propext, Classical.choice, Quot.sound
Ieme.C54_value_dec: propext, Classical.choice, Quot.sound
Ieme.C54_value_hex: propext, Classical.choice, Quot.sound
Ieme.C54_valid_other: propext, Classical.choice, Quot.sound
Ieme.C54_value_any: propext, Classical.choice, Quot.sound
Ieme.C55_signed_finishes_iff_partial: propext, Classical.choice, Quot.sound
Ieme.C55_signed_finishes_iff_hex_partial: propext, Classical.choice, Quot.sound
Ieme.C55_unsigned_exact: propext, Classical.choice, Quot.sound
Ieme.C55_representable_overflows: propext, Classical.choice, Quot.sound
Ieme.C56_returns: propext, Classical.choice, Quot.sound
Ieme.C56_throws: propext, Classical.choice, Quot.sound
Ieme.C56_throws_iff: propext, Classical.choice, Quot.sound
Ieme.C56_returns_exact: propext, Classical.choice, Quot.sound
Ieme.C57_separators_irrelevant: propext, Classical.choice, Quot.sound
Ieme.C58_normal_exact: propext, Classical.choice, Quot.sound
Ieme.C58_signed_never_wrong: propext, Classical.choice, Quot.sound
Ieme.C58_normal_finishes: propext, Classical.choice, Quot.sound
Ieme.C58_narrow_ill_formed: propext, Classical.choice, Quot.sound
Ieme.C59_tiny_never_finishes: propext, Classical.choice, Quot.sound
Ieme.C59_tiny_never_wrong_partial: propext, Classical.choice, Quot.sound
Ieme.C59_tiny_wide_wrong: propext, Classical.choice, Quot.sound
Ieme.C60_nan_undefined_partial: propext, Classical.choice, Quot.sound
Ieme.C60_infinity_never_finishes: propext, Classical.choice, Quot.sound
Ieme.C61_rounded_unique: propext, Classical.choice, Quot.sound
Ieme.C61_correctly_rounded: propext, Classical.choice, Quot.sound
Ieme.C61_narrow_always_rounded: propext, Classical.choice, Quot.sound
Ieme.C61_finishes: propext, Classical.choice, Quot.sound
Ieme.C61_undefined_nan: propext, Classical.choice, Quot.sound
Ieme.C61_three_roundings: propext, Classical.choice, Quot.sound
Ieme.C61_wide_parts_overflow: propext, Classical.choice, Quot.sound
Ieme.C61_inexact_parts_misrounded: propext, Classical.choice, Quot.sound
Ieme.C62_to_floating_exact: propext, Classical.choice, Quot.sound
Ieme.C62_fraction_round_trip: propext, Classical.choice, Quot.sound
Ieme.C62_float_round_trip: propext, Classical.choice, Quot.sound
Ieme.C63_big_endian_reorders: propext, Classical.choice, Quot.sound
Ieme.C63_big_endian_iff: propext, Classical.choice, Quot.sound
Ieme.C63_big_endian_never_right: propext, Classical.choice, Quot.sound
Ieme.C63_little_endian_partial: propext, Classical.choice, Quot.sound
Ieme.C63_big_endian_wrong: propext, Classical.choice, Quot.sound
Ieme.C64_all_hashes_iff: propext, Quot.sound
Ieme.C64_all_mixed_hashes_iff: propext, Quot.sound
Ieme.C64_equal_hash_equal_partial: propext, Classical.choice, Quot.sound
Ieme.C64_equal_hash_differently: propext, Classical.choice, Quot.sound
Ieme.C64_only_constant_hash: propext, Classical.choice, Quot.sound
Ieme.C65_identical_hash_equal: propext, Quot.sound
Ieme.C65_canonical_results_hash_equal: propext, Classical.choice, Quot.sound
Ieme.C65_mixed_results_hash_equal: propext, Classical.choice, Quot.sound
Ieme.C66_bounds_iff: propext, Classical.choice, Quot.sound
Ieme.C66_limit_values: propext, Classical.choice, Quot.sound
Ieme.C66_lower_bound: propext, Classical.choice, Quot.sound
Ieme.C66_upper_bound_partial: propext, Classical.choice, Quot.sound
Ieme.C66_smallest_partial: propext, Classical.choice, Quot.sound
Ieme.C66_bounds_broken: propext, Classical.choice, Quot.sound
Ieme.C66_unsigned_bounds: propext, Classical.choice, Quot.sound
Ieme.C66_numeric_limits: propext, Classical.choice, Quot.sound
Ieme.C67_duration_cast_exact: propext, Classical.choice, Quot.sound
Ieme.C67_accepted_iff: propext, Classical.choice, Quot.sound
Ieme.C67_to_fractional: propext, Classical.choice, Quot.sound
Ieme.C67_finishes: propext, Classical.choice, Quot.sound
Ieme.C67_finishes_iff: propext, Classical.choice, Quot.sound
Ieme.C67_now_exact: propext, Classical.choice, Quot.sound
Ieme.C68_round_trip: propext, Classical.choice, Quot.sound
Ieme.C68_intermediate_period: propext, Classical.choice, Quot.sound
Ieme.C68_injective: propext, Classical.choice, Quot.sound
Ieme.C69_literal_parts: propext
Ieme.C69_negated_literal_parts: propext, Classical.choice, Quot.sound
Ieme.C69_double_negation: propext, Classical.choice, Quot.sound
Ieme.C69_fraction_over_literal: propext, Classical.choice, Quot.sound
Ieme.C69_literal_types: propext, Classical.choice, Quot.sound
Ieme.C69_literal_converted: propext, Classical.choice, Quot.sound
Ieme.C69_literal_boundary: none
Ieme.C70_constructors: propext, Classical.choice, Quot.sound
Ieme.C70_are_identical: propext, Classical.choice, Quot.sound
Ieme.C71_results_in_range: propext, Classical.choice, Quot.sound
Ieme.C72_positive_denominator_partial: propext, Classical.choice, Quot.sound
Ieme.C72_positive_denominator_iff: propext, Classical.choice, Quot.sound
Ieme.C72_neg_positive_denominator: propext, Classical.choice, Quot.sound
Ieme.C72_expressions_partial: propext, Classical.choice, Quot.sound
Ieme.C72_division_by_negative: none
Ieme.C73_numerators_separate: propext, Classical.choice, Quot.sound
Ieme.C73_same_denominator_iff: propext, Classical.choice, Quot.sound
Ieme.C73_narrower: propext, Classical.choice, Quot.sound
Ieme.C73_denominators_separate_partial: propext, Classical.choice, Quot.sound
Ieme.C73_denominator_collision: propext, Classical.choice, Quot.sound
Ieme.C73_small_collision: propext, Quot.sound
Ieme.C73_same_numerator_iff: propext, Classical.choice, Quot.sound
Ieme.C74_monotone_partial: propext, Classical.choice, Quot.sound
Ieme.C74_narrow_monotone: propext, Classical.choice, Quot.sound
Ieme.C74_not_monotone: propext, Classical.choice, Quot.sound
Ieme.C74_value_only: propext, Classical.choice, Quot.sound
Ieme.C74_opposite: propext, Classical.choice, Quot.sound
Ieme.C74_monotone_iff: propext, Classical.choice, Quot.sound
Ieme.C74_apart: propext, Classical.choice, Quot.sound
Ieme.C75_in_range: propext, Classical.choice, Quot.sound
Ieme.C75_failure_keeps_target_partial: propext, Quot.sound
Ieme.C75_denominator_kept: propext
Ieme.C75_failure_changes_target: propext, Classical.choice, Quot.sound
Ieme.C75_failure_iff: propext, Classical.choice, Quot.sound
Ieme.C76_all_read_back: propext, Classical.choice, Quot.sound
Ieme.C76_stops_at_failure: propext
Ieme.C77_equal_values_identical: propext, Classical.choice, Quot.sound
Ieme.C77_whole_is_trunc: propext, Classical.choice, Quot.sound
Ieme.C78_redenominate_idempotent_partial: propext, Classical.choice, Quot.sound
Ieme.C78_redenominate_drifts: none
Ieme.C78_redenominate_drifts_always: propext, Classical.choice, Quot.sound
Ieme.C79_round_integer_one_more: propext, Classical.choice, Quot.sound
Ieme.C79_floor_le_trunc_le_ceil: propext, Classical.choice, Quot.sound
Ieme.C79_round_near_floor: propext, Quot.sound
Ieme.C79_integers_fixed_partial: propext, Classical.choice, Quot.sound
Ieme.C79_round_integer_wrong: none
Ieme.C80_quotient_remainder: propext, Classical.choice, Quot.sound
Ieme.C81_order_same_value: propext, Classical.choice, Quot.sound
Ieme.C81_order_identical: propext, Classical.choice, Quot.sound
Ieme.C82_case_irrelevant: propext, Classical.choice, Quot.sound
Ieme.C83_zeros_same_value_partial: propext, Classical.choice, Quot.sound
Ieme.C83_zeros_overflow: propext, Classical.choice, Quot.sound
Ieme.C83_shorter_finishes: propext, Classical.choice, Quot.sound
Ieme.C84_arith_cancel: propext, Classical.choice, Quot.sound
Ieme.C84_cmp_cancel: propext, Classical.choice, Quot.sound
Ieme.C84_reduced_input_resists: propext, Classical.choice, Quot.sound
Ieme.C84_reduced_input_resists_cmp: propext, Classical.choice, Quot.sound
Ieme.C84_reduced_input_gains: none
Ieme.C84_normalizing_signs_overflows: none
Ieme.C84_minimum_lost: none
Ieme.C85_fast_iff: propext, Classical.choice, Quot.sound
Ieme.C85_safe_eq_fast: propext
Ieme.C85_safe_iff: propext, Classical.choice, Quot.sound
Ieme.C85_fast_cmp_iff: propext, Classical.choice, Quot.sound
Ieme.C85_safe_cmp_eq_fast: none
Ieme.C85_safe_cmp_iff: propext, Classical.choice, Quot.sound
Ieme.C85_negate_iff: propext, Quot.sound
Ieme.C86_fast_unsigned: propext, Classical.choice, Quot.sound
Ieme.C87_common_period: propext, Classical.choice, Quot.sound
Ieme.C87_common_period_exists: propext, Classical.choice, Quot.sound
Ieme.C87_arith_exact: propext, Classical.choice, Quot.sound
Ieme.C87_assign_exact: propext, Classical.choice, Quot.sound
Ieme.C87_scale_exact: propext, Classical.choice, Quot.sound
Ieme.C87_accepted_iff: propext, Classical.choice, Quot.sound
Ieme.C87_finishes: propext, Classical.choice, Quot.sound
Ieme.C88_compare_iff: propext, Classical.choice, Quot.sound
Ieme.C88_eq_exact: propext, Classical.choice, Quot.sound
Ieme.C88_compare_exact_partial: propext, Classical.choice, Quot.sound
Ieme.C88_finishes: propext, Classical.choice, Quot.sound
Ieme.C88_wrong_for_negative_denominator: propext, Classical.choice, Quot.sound
Ieme.C89_epsilon_partial: propext, Classical.choice, Quot.sound
Ieme.C89_unsigned_gap: propext, Classical.choice, Quot.sound
Ieme.C90_reduce_iff: propext, Classical.choice, Quot.sound
Ieme.C90_reduced_output_arith: propext, Classical.choice, Quot.sound
Ieme.C90_reduced_input_arith: propext, Classical.choice, Quot.sound
Ieme.C90_cmp: propext, Classical.choice, Quot.sound
Ieme.C90_negate: propext, Classical.choice, Quot.sound
Ieme.C90_named_policies: none
Ieme.C91_operators: propext, Classical.choice, Quot.sound
Ieme.C91_assignments: propext, Classical.choice, Quot.sound
Ieme.C91_expressions: propext, Classical.choice, Quot.sound
Ieme.C91_functions: propext, Classical.choice, Quot.sound
Ieme.C91_mixed_numbers: propext, Classical.choice, Quot.sound
Ieme.C91_conversions: propext, Classical.choice, Quot.sound
Ieme.C91_durations: propext, Classical.choice, Quot.sound
Ieme.C92_trunc_iff: propext, Classical.choice, Quot.sound
Ieme.C92_floor_iff: propext, Classical.choice, Quot.sound
Ieme.C92_ceil_iff: propext, Classical.choice, Quot.sound
Ieme.C92_whole_parts_never_wrap: propext, Classical.choice, Quot.sound
Ieme.C92_round_iff: propext, Classical.choice, Quot.sound
Ieme.C92_trunc_redenominate_iff: propext, Classical.choice, Quot.sound
Ieme.C92_floor_ceil_redenominate_iff: propext, Classical.choice, Quot.sound
Ieme.C92_round_redenominate_iff: propext, Classical.choice, Quot.sound
Ieme.C93_construct_iff: propext, Classical.choice, Quot.sound
Ieme.C93_from_fraction_iff: propext, Classical.choice, Quot.sound
Ieme.C93_as_fraction_iff: propext, Quot.sound
Ieme.C93_negate_iff: propext, Quot.sound
Ieme.C93_add_iff: propext, Quot.sound
Ieme.C93_add_others_iff: propext, Quot.sound
Ieme.C94_literal_iff: propext, Classical.choice, Quot.sound
Ieme.C94_literal_parts: propext, Classical.choice, Quot.sound
Ieme.C94_literal_lowest_terms: propext, Classical.choice, Quot.sound
Ieme.C94_dec_lowest_terms: propext, Classical.choice, Quot.sound
Ieme.C95_nan_iff: propext, Classical.choice, Quot.sound
Ieme.C95_float_iff: propext, Classical.choice, Quot.sound
Ieme.C95_float_parts: propext, Classical.choice, Quot.sound
Ieme.C95_float_lowest_terms: propext, Classical.choice, Quot.sound
Ieme.C96_arith_iff: propext, Classical.choice, Quot.sound
Ieme.C96_cmp_iff: propext, Classical.choice, Quot.sound
Ieme.C96_bounded: propext, Classical.choice, Quot.sound
Ieme.C97_arith: propext, Classical.choice, Quot.sound
Ieme.C97_fast: propext, Classical.choice, Quot.sound
Ieme.C97_cmp: propext, Classical.choice, Quot.sound
Ieme.C97_fast_cmp: propext, Classical.choice, Quot.sound
Ieme.C97_neg: propext, Classical.choice, Quot.sound
Ieme.C97_expressions: propext, Classical.choice, Quot.sound
Ieme.C97_queries: propext, Classical.choice, Quot.sound
Ieme.C97_reduce: propext, Classical.choice, Quot.sound
Ieme.C97_round: propext, Classical.choice, Quot.sound
Ieme.C97_whole: propext, Classical.choice, Quot.sound
Ieme.C97_pow: propext, Classical.choice, Quot.sound
Ieme.C97_mixed: propext, Classical.choice, Quot.sound
Ieme.C97_mixed_add: propext, Classical.choice, Quot.sound
Ieme.C97_parse: propext, Classical.choice, Quot.sound
Ieme.C97_from_float: propext, Classical.choice, Quot.sound
Ieme.C97_to_float: propext, Classical.choice, Quot.sound
Ieme.C97_durations: propext, Classical.choice, Quot.sound
Ieme.C98_round_trip_partial: propext, Classical.choice, Quot.sound
Ieme.C98_succeeds_iff: propext, Classical.choice, Quot.sound
Ieme.C98_never_silently_wrong: propext, Classical.choice, Quot.sound
Ieme.C98_written_decimal: propext, Classical.choice, Quot.sound
Ieme.C98_written_hex: propext, Classical.choice, Quot.sound
Ieme.C98_written_oct: propext, Classical.choice, Quot.sound
Ieme.C98_width: propext, Quot.sound
Ieme.C98_default: propext, Classical.choice, Quot.sound
Ieme.C98_hex_negative: propext, Classical.choice, Quot.sound
Ieme.C98_internal: propext, Classical.choice, Quot.sound
Ieme.C98_zero_fill: propext, Classical.choice, Quot.sound
Ieme.C98_text_exact: propext, Classical.choice, Quot.sound
Ieme.C99_selected: none
Ieme.C99_first_wins: propext
Ieme.C99_first_defined: none
Ieme.C99_normalizes_iff: propext
Ieme.C99_dec_throws_iff: propext, Classical.choice, Quot.sound
Ieme.C99_dec_exact: propext, Classical.choice, Quot.sound
Ieme.C99_dec_lowest_terms: propext, Classical.choice, Quot.sound
Ieme.C99_dec_agree: propext, Classical.choice, Quot.sound
Ieme.C99_dec_returns: propext, Classical.choice, Quot.sound
Ieme.C99_dec_default: propext, Quot.sound
Ieme.C100_within_iff: propext, Classical.choice, Quot.sound
Ieme.C100_operators: propext, Classical.choice, Quot.sound
Ieme.C100_comparisons: propext, Classical.choice, Quot.sound
Ieme.C100_expressions: propext, Classical.choice, Quot.sound
Ieme.C100_functions: propext, Classical.choice, Quot.sound
Ieme.C100_queries: propext, Classical.choice, Quot.sound
Ieme.C100_mixed_numbers: propext, Classical.choice, Quot.sound
Ieme.C100_mixed_sums: propext, Classical.choice, Quot.sound
Ieme.C100_conversions: propext, Classical.choice, Quot.sound
Ieme.C100_durations: propext, Classical.choice, Quot.sound
Ieme.C101_deterministic: propext, Quot.sound
Ieme.C101_operators: propext, Quot.sound
Ieme.C101_expressions: propext, Quot.sound
Ieme.C101_functions: propext, Quot.sound
Ieme.C101_mixed_numbers: propext, Quot.sound
Ieme.C101_conversions: propext, Quot.sound
Ieme.C101_exponent_arithmetic: propext, Classical.choice, Quot.sound
Ieme.C102_integer_iff: propext, Classical.choice, Quot.sound
Ieme.C102_success_iff: propext, Classical.choice, Quot.sound
Ieme.C102_failure_iff: propext, Classical.choice, Quot.sound
Ieme.C102_unambiguous: propext, Quot.sound
Ieme.C102_default: propext
Ieme.C103_library_instances: propext, Quot.sound
Ieme.C103_library_sound: propext, Classical.choice, Quot.sound
Ieme.C103_expressions_iff: propext, Classical.choice, Quot.sound
Ieme.C103_wrappers_sound: propext, Classical.choice, Quot.sound
Ieme.C103_canonical_inputs: propext, Classical.choice, Quot.sound
Ieme.C103_fast_comparisons: propext, Classical.choice, Quot.sound
Ieme.C103_canonical_outputs: propext, Classical.choice, Quot.sound
Ieme.C103_assignments: propext, Classical.choice, Quot.sound
Ieme.C103_abs: propext, Classical.choice, Quot.sound
Ieme.C103_round: propext, Classical.choice, Quot.sound
Ieme.C103_redenominate: propext, Classical.choice, Quot.sound
Ieme.C103_mixed: propext, Classical.choice, Quot.sound
Ieme.C103_strings: propext, Classical.choice, Quot.sound
Ieme.C103_floats: propext, Classical.choice, Quot.sound
Ieme.C103_durations: propext, Classical.choice, Quot.sound
Ieme.C103_checked_sound: propext, Classical.choice, Quot.sound
Ieme.C104_default_direction: propext, Classical.choice, Quot.sound
Ieme.C104_rounded_unique: propext, Classical.choice, Quot.sound
Ieme.C104_finishes_alike: propext, Classical.choice, Quot.sound
Ieme.C104_rounded_partial: propext, Classical.choice, Quot.sound
Ieme.C104_narrow_rounded: propext, Classical.choice, Quot.sound
Ieme.C104_exact: propext, Classical.choice, Quot.sound
Ieme.C104_float_round_trip: propext, Classical.choice, Quot.sound
Ieme.C104_brackets_partial: propext, Classical.choice, Quot.sound
Ieme.C104_downward_goes_above: propext, Classical.choice, Quot.sound
Ieme.C104_monotone_partial: propext, Classical.choice, Quot.sound
Ieme.C104_nonneg_downward: propext, Classical.choice, Quot.sound
Ieme.C104_three_roundings: propext, Classical.choice, Quot.sound
Ieme.C104_rounded_iff: propext, Classical.choice, Quot.sound
Ieme.C104_brackets_denominator: propext, Classical.choice, Quot.sound
Ieme.C104_monotone_parts: propext, Classical.choice, Quot.sound
Ieme.C104_monotone_same_denominator: propext, Classical.choice, Quot.sound
Ieme.C105_relative_error: propext, Classical.choice, Quot.sound
Ieme.C105_four_units: propext, Classical.choice, Quot.sound
Ieme.C105_nearly_attained: propext, Classical.choice, Quot.sound
Ieme.C105_representable_parts: propext, Classical.choice, Quot.sound
Ieme.C106_bounded_finishes: propext, Classical.choice, Quot.sound
Ieme.C106_operand_count: propext, Classical.choice, Quot.sound
Ieme.C106_fast_bound_exact: propext, Classical.choice, Quot.sound
Ieme.C107_common_denominator: propext, Classical.choice, Quot.sound
Ieme.C107_magnitudes: propext, Classical.choice, Quot.sound
Ieme.C107_safe_repeated: propext, Classical.choice, Quot.sound
Ieme.C107_fast_repeated: propext, Classical.choice, Quot.sound
Ieme.C107_tenths: propext, Classical.choice, Quot.sound
Ieme.C108_less: propext, Classical.choice, Quot.sound
Ieme.C108_max_min: propext, Classical.choice, Quot.sound
Ieme.C108_clamp: propext, Classical.choice, Quot.sound
Ieme.C108_max_element: propext, Classical.choice, Quot.sound
Ieme.C108_min_element: propext, Classical.choice, Quot.sound
Ieme.C108_is_sorted: propext, Classical.choice, Quot.sound
Ieme.C108_lower_bound: propext, Classical.choice, Quot.sound
Ieme.C108_sorted: propext, Classical.choice, Quot.sound
Ieme.C108_sort_unique: propext, Classical.choice, Quot.sound
Ieme.C108_sort_not_unique: propext, Classical.choice, Quot.sound
Ieme.C108_finish: propext
Ieme.C108_needed: propext, Quot.sound
Ieme.C109_is_proper_iff: propext, Classical.choice, Quot.sound
Ieme.C109_normalize_signs_iff: propext, Classical.choice, Quot.sound
Ieme.C109_queries: propext, Classical.choice, Quot.sound
Ieme.C109_is_proper_partial: propext, Classical.choice, Quot.sound
Ieme.C109_is_proper_wrong: none
Ieme.C109_is_reduced_partial: propext, Classical.choice, Quot.sound
Ieme.C109_normalize_signs_partial: propext, Classical.choice, Quot.sound
Ieme.C109_normalize_signs_wrong: none
Ieme.C109_rounding_partial: propext, Classical.choice, Quot.sound
Ieme.C109_trunc_wrong: none
Ieme.C109_pow2: propext, Classical.choice, Quot.sound
Ieme.C109_fast_cmp: propext, Classical.choice, Quot.sound
Ieme.C109_unsigned_short_overflows: propext
Ieme.C109_safe_cmp: propext, Classical.choice, Quot.sound
Ieme.C109_safe_lcm: propext
Ieme.C109_mixed_exact: propext, Classical.choice, Quot.sound
Ieme.C109_mixed_finishes: propext, Classical.choice, Quot.sound
Ieme.C109_mixed_overflows: none
Ieme.C109_mixed_cmp: propext, Classical.choice, Quot.sound
Ieme.C110_exact: propext, Classical.choice, Quot.sound
Ieme.C110_terminates: propext, Classical.choice, Quot.sound
Ieme.C110_correctness: propext, Classical.choice, Quot.sound
Ieme.C110_fast_wrong: none
Ieme.C110_positive_exact: propext, Classical.choice, Quot.sound
Ieme.C110_positive_terminates: propext, Classical.choice, Quot.sound
Ieme.C110_fast_division_wrong: none
Ieme.C111_literal: propext, Classical.choice, Quot.sound
Ieme.C111_decimal_double: propext, Classical.choice, Quot.sound
Ieme.C111_decimal_float: propext, Classical.choice, Quot.sound
Ieme.C111_long_numerator_misrounded: propext, Classical.choice, Quot.sound
Ieme.C111_exponent_misrounded: propext, Classical.choice, Quot.sound
Ieme.C111_expression: propext, Classical.choice, Quot.sound
Ieme.C111_program: propext, Classical.choice, Quot.sound
Ieme.C111_independent: propext, Classical.choice, Quot.sound
Ieme.C112_abs_exact_iff: propext, Classical.choice, Quot.sound
Ieme.C112_floor_exact: propext, Classical.choice, Quot.sound
Ieme.C112_ceil_exact: propext, Classical.choice, Quot.sound
Ieme.C112_abs_exact_partial: propext, Classical.choice, Quot.sound
Ieme.C112_abs_wrong: propext, Classical.choice, Quot.sound
Ieme.C112_abs_unsigned: propext, Quot.sound
Ieme.C112_bounds: propext, Classical.choice, Quot.sound
Ieme.C113_same_result: propext, Quot.sound
Ieme.C113_calls_exact: propext, Classical.choice, Quot.sound
Ieme.C113_calls_negative: propext, Classical.choice, Quot.sound
Ieme.C113_calls_bounded: propext, Classical.choice, Quot.sound
Ieme.C113_bound_reached: propext, Classical.choice, Quot.sound
Ieme.C113_calls_of_type: propext, Classical.choice, Quot.sound
Ieme.C114_checked_program: propext, Classical.choice, Quot.sound
Ieme.C114_checked_completes: propext, Classical.choice, Quot.sound
Ieme.C114_checked_steps: propext, Classical.choice, Quot.sound
Ieme.C114_loop_free: propext, Classical.choice, Quot.sound
Ieme.C114_condition: propext, Classical.choice, Quot.sound
Ieme.C115_fraction: propext, Classical.choice, Quot.sound
Ieme.C115_integer: propext, Classical.choice, Quot.sound
Ieme.C115_self: propext, Classical.choice, Quot.sound
Ieme.C115_parts: propext, Classical.choice, Quot.sound
Ieme.C115_chain: propext, Classical.choice, Quot.sound
Ieme.C116_success_iff: propext, Classical.choice, Quot.sound
Ieme.C116_round_trip_iff: propext, Classical.choice, Quot.sound
Ieme.C116_never_decimal: propext, Classical.choice, Quot.sound
Ieme.C117_power_of_two: propext, Classical.choice, Quot.sound
Ieme.C117_directed: propext, Classical.choice, Quot.sound
Ieme.C117_dyadic: propext, Classical.choice, Quot.sound
Ieme.C117_numerator_overflow: propext, Classical.choice, Quot.sound
Ieme.C117_hex_literal: propext, Classical.choice, Quot.sound
Ieme.C117_expression: propext, Classical.choice, Quot.sound
Ieme.C117_change_format: propext, Classical.choice, Quot.sound
Ieme.C118_never_throws: propext
Ieme.C118_terminates_iff: propext
Ieme.C118_returned: propext
Ieme.C118_no_exceptions: propext
Ieme.C118_followed: propext, Classical.choice, Quot.sound
Ieme.C118_last_terminates: propext, Classical.choice, Quot.sound
Ieme.C118_malformed_iff: propext, Classical.choice, Quot.sound
Ieme.C118_uncatchable: propext, Classical.choice, Quot.sound
Ieme.C118_steps: propext
Ieme.C118_loop_ends: propext, Classical.choice, Quot.sound
Ieme.C118_loop_terminates: propext, Classical.choice, Quot.sound
Ieme.C118_loop_collects: propext, Classical.choice, Quot.sound
Ieme.C119_is_signed: propext, Classical.choice, Quot.sound
Ieme.C119_is_integer: propext, Classical.choice, Quot.sound
Ieme.C119_max: propext
Ieme.C119_digits: propext, Classical.choice, Quot.sound
Ieme.C119_digits10: propext, Classical.choice, Quot.sound
Ieme.C119_modulo_whole_partial: propext, Classical.choice, Quot.sound
Ieme.C119_signed_overflow: propext, Classical.choice, Quot.sound
Ieme.C119_not_modulo: propext, Classical.choice, Quot.sound
Ieme.C119_nan_not_quiet: propext, Classical.choice, Quot.sound
Ieme.C120_table_find: propext, Classical.choice, Quot.sound
Ieme.C120_table_distinct_iff: propext, Classical.choice, Quot.sound
Ieme.C120_table_all_iff: propext, Classical.choice, Quot.sound
Ieme.C120_map_insert: propext, Classical.choice, Quot.sound
Ieme.C120_map_find: propext, Classical.choice, Quot.sound
Ieme.C120_map_program: propext, Classical.choice, Quot.sound
Ieme.C120_map_finishes: propext, Classical.choice, Quot.sound
Ieme.C120_map_undefined: propext, Classical.choice, Quot.sound
Ieme.C120_table_program_partial: propext, Classical.choice, Quot.sound
Ieme.C120_table_misses: propext, Quot.sound
Ieme.C120_table_undefined: propext, Classical.choice, Quot.sound
Ieme.C121_signature: propext, Quot.sound
Ieme.C121_more_specialised: propext
Ieme.C121_policies_rejected: propext, Quot.sound
Ieme.C121_comparisons: propext, Quot.sound
Ieme.C121_compound: propext, Quot.sound
Ieme.C121_compound_missing: propext, Quot.sound
Ieme.C121_one_policy: propext, Classical.choice, Quot.sound
Ieme.C121_type_from_leaves: propext, Classical.choice, Quot.sound
Ieme.C121_order_irrelevant: propext, Classical.choice, Quot.sound
Ieme.C121_mixed_type_depends: propext, Quot.sound
Ieme.C121_type_sound: propext, Classical.choice, Quot.sound
Ieme.C121_exact: propext, Classical.choice, Quot.sound
Ieme.C121_homogeneous: propext, Quot.sound
Ieme.C122_expressions: propext, Classical.choice, Quot.sound
Ieme.C122_comparisons: propext, Classical.choice, Quot.sound
Ieme.C122_programs: propext, Classical.choice, Quot.sound
Ieme.C122_unary: propext, Classical.choice, Quot.sound
Ieme.C122_rounding: propext, Classical.choice, Quot.sound
Ieme.C122_redenominate: propext, Classical.choice, Quot.sound
Ieme.C122_pow: propext, Classical.choice, Quot.sound
Ieme.C122_mixed_numbers: propext, Classical.choice, Quot.sound
Ieme.C122_literals: propext, Classical.choice, Quot.sound
Ieme.C122_floating_point: propext, Classical.choice, Quot.sound
Ieme.C122_durations: propext, Classical.choice, Quot.sound
Ieme.C122_never: propext, Classical.choice, Quot.sound
Ieme.C123_typed_expressions: propext, Classical.choice, Quot.sound
Ieme.C123_operators: propext, Classical.choice, Quot.sound
Ieme.C123_functions: propext, Classical.choice, Quot.sound
Ieme.C123_pow2: propext, Classical.choice, Quot.sound
Ieme.C123_conversions: propext, Classical.choice, Quot.sound
Ieme.C123_literals: propext, Classical.choice, Quot.sound
Ieme.C123_mixed_numbers: propext, Classical.choice, Quot.sound
Ieme.C123_mixed_wrong: none
Ieme.C123_programs: propext, Classical.choice, Quot.sound
Ieme.C123_durations: propext, Classical.choice, Quot.sound
Ieme.C123_durations_wrong: none
Ieme.C123_floating_point: propext, Classical.choice, Quot.sound
Ieme.C123_unsigned_wrong: none
Ieme.C124_read_succeeds_iff: propext, Classical.choice, Quot.sound
Ieme.C124_accepted: propext, Classical.choice, Quot.sound
Ieme.C124_round_trip: propext, Classical.choice, Quot.sound
Ieme.C124_read_saturates: propext, Classical.choice, Quot.sound
Ieme.C124_read_any_long: propext, Classical.choice, Quot.sound
Ieme.C124_construction_iff: propext, Classical.choice, Quot.sound
Ieme.C124_construction_exact: propext, Classical.choice, Quot.sound
Ieme.C124_construction_modular: propext, Classical.choice, Quot.sound
Ieme.C124_from_fraction_value: propext, Classical.choice, Quot.sound
Ieme.C124_construction_wrong: propext, Classical.choice, Quot.sound
Ieme.C124_addition_exact: propext, Classical.choice, Quot.sound
Ieme.C124_addition_in_int: propext
Ieme.C124_as_fraction: propext, Classical.choice, Quot.sound
Ieme.C125_exact: propext, Classical.choice, Quot.sound
Ieme.C125_terminates: propext, Classical.choice, Quot.sound
Ieme.C125_correctness: propext, Classical.choice, Quot.sound
Ieme.C125_type_sound: propext, Classical.choice, Quot.sound
Ieme.C125_never_rejected: propext, Classical.choice, Quot.sound
Ieme.C125_rejected: propext, Quot.sound
Ieme.C125_integers: propext, Quot.sound
Ieme.C125_homogeneous: propext, Quot.sound
Ieme.C125_order_wrong: propext, Classical.choice, Quot.sound
Ieme.C126_wider: propext, Classical.choice, Quot.sound
Ieme.C126_wider_wrong: propext, Classical.choice, Quot.sound
Ieme.C126_expressions: propext, Classical.choice, Quot.sound
Ieme.C126_programs: propext, Classical.choice, Quot.sound
Ieme.C126_deterministic: propext, Classical.choice, Quot.sound
Ieme.C127_exact: propext, Classical.choice, Quot.sound
Ieme.C127_terminates: propext, Classical.choice, Quot.sound
Ieme.C127_meaning: propext, Classical.choice, Quot.sound
Ieme.C127_static: propext, Classical.choice, Quot.sound
Ieme.C127_divisor_iff: propext, Classical.choice, Quot.sound
Ieme.C127_completes: propext, Classical.choice, Quot.sound
Ieme.C127_reciprocal_wrong: propext, Classical.choice, Quot.sound
Ieme.C128_reduce: none
Ieme.C128_preserves_iff: propext, Classical.choice, Quot.sound
Ieme.C128_policies: propext, Quot.sound
Ieme.C128_output: propext, Quot.sound
Ieme.C128_input: propext, Classical.choice, Quot.sound
Ieme.C128_input_blind: propext, Quot.sound
Ieme.C128_unsound_wrong: none
Ieme.C129_write: propext, Classical.choice, Quot.sound
Ieme.C129_not_good: propext, Quot.sound
Ieme.C129_good_iff: propext, Classical.choice, Quot.sound
Ieme.C129_exceptions: propext, Quot.sound
Ieme.C129_terminates_iff: propext, Classical.choice, Quot.sound
Ieme.C129_each_not_good: propext, Quot.sound
Ieme.C129_each: propext, Classical.choice, Quot.sound
Ieme.C129_cut_reads_back: propext, Classical.choice, Quot.sound
Ieme.C129_cut_wrong: propext, Classical.choice, Quot.sound
Ieme.C130_typed: propext, Quot.sound
Ieme.C130_exact: propext, Classical.choice, Quot.sound
Ieme.C130_rejected_iff: propext, Classical.choice, Quot.sound
Ieme.C130_operators: propext, Classical.choice, Quot.sound
Ieme.C130_no_operator: propext, Classical.choice, Quot.sound
Ieme.C130_compare: propext, Classical.choice, Quot.sound
Ieme.C130_compare_rejected_iff: propext, Classical.choice, Quot.sound
Ieme.C130_epoch: propext, Classical.choice, Quot.sound
Ieme.C130_epoch_run: propext, Classical.choice, Quot.sound
Ieme.C130_widen: propext, Classical.choice, Quot.sound
Ieme.C130_grouping: propext, Classical.choice, Quot.sound
Ieme.C130_grouping_matters: propext, Quot.sound
Ieme.C131_expressions: propext, Classical.choice, Quot.sound
Ieme.C131_comparisons: propext, Classical.choice, Quot.sound
Ieme.C131_exact: propext, Classical.choice, Quot.sound
Ieme.C131_terminates: propext, Classical.choice, Quot.sound
Ieme.C131_completes: propext, Classical.choice, Quot.sound
Ieme.C131_typed: propext, Quot.sound
Ieme.C131_rejected_iff: propext, Classical.choice, Quot.sound
Ieme.C131_widen: propext, Classical.choice, Quot.sound
Ieme.C131_epoch: propext, Classical.choice, Quot.sound
Ieme.C131_compound: propext, Classical.choice, Quot.sound
Ieme.C131_timer: propext, Classical.choice, Quot.sound
Ieme.C131_compound_only: propext, Quot.sound
Ieme.C131_fast_wrong: propext, Classical.choice, Quot.sound
Ieme.C132_expressions: propext, Classical.choice, Quot.sound
Ieme.C132_transient: propext, Classical.choice, Quot.sound
Ieme.C132_truncation: propext, Classical.choice, Quot.sound
Ieme.C132_comparisons: propext, Classical.choice, Quot.sound
Ieme.C132_programs: propext, Classical.choice, Quot.sound
Ieme.C132_safe: propext, Classical.choice, Quot.sound
Ieme.C132_safe_transient: propext, Classical.choice, Quot.sound
Ieme.C132_wrong: propext, Classical.choice, Quot.sound
Ieme.C133_accumulate: propext, Classical.choice, Quot.sound
Ieme.C133_accumulate_product: propext, Classical.choice, Quot.sound
Ieme.C133_reduce: propext, Classical.choice, Quot.sound
Ieme.C133_accumulate_is_reduce: propext, Quot.sound
Ieme.C133_reduce_identical: propext, Classical.choice, Quot.sound
Ieme.C133_reduce_finishes: propext, Classical.choice, Quot.sound
Ieme.C133_reduce_bounded: propext, Classical.choice, Quot.sound
Ieme.C133_inner_product: propext, Classical.choice, Quot.sound
Ieme.C133_partial_sum: propext, Classical.choice, Quot.sound
Ieme.C133_adjacent_difference: propext, Classical.choice, Quot.sound
Ieme.C133_inverse: propext, Classical.choice, Quot.sound
Ieme.C133_inverse_identical: propext, Classical.choice, Quot.sound
Ieme.C133_order_matters: none
Ieme.C134_plain: propext, Quot.sound
Ieme.C134_round_trip: propext, Classical.choice, Quot.sound
Ieme.C134_text: propext, Classical.choice, Quot.sound
Ieme.C134_from_classic: propext, Classical.choice, Quot.sound
Ieme.C134_read: propext, Classical.choice, Quot.sound
Ieme.C134_accepted: propext, Classical.choice, Quot.sound
Ieme.C134_read_by_classic: propext, Classical.choice, Quot.sound
Ieme.C134_read_by_classic_iff: propext, Classical.choice, Quot.sound
Ieme.C134_wrong: propext, Classical.choice, Quot.sound
Ieme.C135_expressions: propext, Classical.choice, Quot.sound
Ieme.C135_comparisons: propext, Classical.choice, Quot.sound
Ieme.C135_checked_program: propext, Classical.choice, Quot.sound
Ieme.C135_checked_completes: propext, Classical.choice, Quot.sound
Ieme.C135_loop_free: propext, Classical.choice, Quot.sound
Ieme.C136_implicit_iff: propext, Quot.sound
Ieme.C136_direct_iff: propext, Classical.choice, Quot.sound
Ieme.C136_unambiguous: propext, Classical.choice, Quot.sound
Ieme.C136_same_result: propext, Classical.choice, Quot.sound
Ieme.C136_policy: propext, Quot.sound
Ieme.C136_value: propext, Classical.choice, Quot.sound
Ieme.C136_chain: propext, Classical.choice, Quot.sound
Ieme.C136_integer_iff: propext, Classical.choice, Quot.sound
Ieme.C136_fraction_iff: propext, Classical.choice, Quot.sound
Ieme.C136_source_policy: propext, Classical.choice, Quot.sound
Ieme.C136_braces: propext, Classical.choice, Quot.sound
Ieme.C136_floating_point: propext, Classical.choice, Quot.sound
Ieme.C136_braces_floating_point: propext, Classical.choice, Quot.sound
Ieme.C136_implicit_loses: propext, Classical.choice, Quot.sound
Ieme.C136_not_transitive: propext, Classical.choice, Quot.sound
Ieme.C136_common_type_converts: propext, Quot.sound
Ieme.C136_common_type_symm: propext, Classical.choice, Quot.sound
Ieme.C136_common_type: propext, Quot.sound
Ieme.C137_reading: propext, Classical.choice, Quot.sound
Ieme.C137_elapsed: propext, Classical.choice, Quot.sound
Ieme.C137_compare: propext, Classical.choice, Quot.sound
Ieme.C137_stopwatch: propext, Classical.choice, Quot.sound
Ieme.C137_wait: propext, Classical.choice, Quot.sound
Ieme.C137_schedule: propext, Classical.choice, Quot.sound
Ieme.C137_nanoseconds: propext, Classical.choice, Quot.sound
Ieme.C137_fast_iff: propext, Classical.choice, Quot.sound
Ieme.C137_fast_overflows: propext, Quot.sound
Ieme.C138_checked_program: propext, Classical.choice, Quot.sound
Ieme.C138_checked_completes: propext, Classical.choice, Quot.sound
Ieme.C138_loop_free: propext, Classical.choice, Quot.sound
Ieme.C138_expression: propext, Classical.choice, Quot.sound
Ieme.C138_condition: propext, Classical.choice, Quot.sound
Ieme.C138_compiles: propext, Quot.sound
Ieme.C138_integers_tight: propext, Classical.choice, Quot.sound
Ieme.C138_limits: propext
Ieme.C139_never_throws: propext, Classical.choice, Quot.sound
Ieme.C139_returns: propext, Classical.choice, Quot.sound
Ieme.C139_terminates_iff: propext, Classical.choice, Quot.sound
Ieme.C139_steps: propext
Ieme.C139_intact: propext, Classical.choice, Quot.sound
Ieme.C139_before_break: propext, Classical.choice, Quot.sound
Ieme.C139_at_break: propext, Classical.choice, Quot.sound
Ieme.C139_bad_iff: propext, Classical.choice, Quot.sound
Ieme.C139_bad_terminates_iff: propext, Classical.choice, Quot.sound
Ieme.C139_not_bad: propext, Classical.choice, Quot.sound
Ieme.C139_nothing_cut: propext, Classical.choice, Quot.sound
Ieme.C139_end_cuts: propext, Classical.choice, Quot.sound
Ieme.C139_success_iff: propext, Classical.choice, Quot.sound
Ieme.C139_round_trip: propext, Classical.choice, Quot.sound
Ieme.C139_half_read: propext, Classical.choice, Quot.sound
Ieme.C139_loop_ends: propext, Classical.choice, Quot.sound
Ieme.C139_loop_prefix: propext, Classical.choice, Quot.sound
Ieme.C139_loop_end_cuts: propext, Classical.choice, Quot.sound
Ieme.C140_tokens: propext, Classical.choice, Quot.sound
Ieme.C140_literals: propext, Classical.choice, Quot.sound
Ieme.C140_suffix: propext, Classical.choice, Quot.sound
Ieme.C140_grammar: propext, Classical.choice, Quot.sound
Ieme.C140_compile_iff: propext, Classical.choice, Quot.sound
Ieme.C140_unambiguous: propext, Classical.choice, Quot.sound
Ieme.C140_layout: propext, Classical.choice, Quot.sound
Ieme.C140_layout_irrelevant: propext, Classical.choice, Quot.sound
Ieme.C140_exact: propext, Classical.choice, Quot.sound
Ieme.C140_silent: propext, Classical.choice, Quot.sound
Ieme.C140_fraction: propext, Classical.choice, Quot.sound
Ieme.C140_decimal: propext, Classical.choice, Quot.sound
Ieme.C140_decimal_throws: propext, Classical.choice, Quot.sound
Ieme.C140_chain: propext, Classical.choice, Quot.sound
Ieme.C140_pitfalls: propext, Classical.choice, Quot.sound
Ieme.C141_result: propext, Classical.choice, Quot.sound
Ieme.C141_integer: propext, Classical.choice, Quot.sound
Ieme.C141_division: propext, Classical.choice, Quot.sound
Ieme.C141_division_special: propext, Classical.choice, Quot.sound
Ieme.C141_inexact: propext, Classical.choice, Quot.sound
Ieme.C141_exact: propext, Classical.choice, Quot.sound
Ieme.C141_inexact_iff_partial: propext, Classical.choice, Quot.sound
Ieme.C141_wide_type: propext, Classical.choice, Quot.sound
Ieme.C141_tininess: propext, Classical.choice, Quot.sound
Ieme.C141_quiet: propext, Classical.choice, Quot.sound
Ieme.C141_undefined: propext, Classical.choice, Quot.sound
Ieme.C141_direction: propext, Classical.choice, Quot.sound
Ieme.C141_round_trip: propext, Classical.choice, Quot.sound
Ieme.C141_sequence: propext, Classical.choice, Quot.sound
Ieme.C142_reads: propext, Classical.choice, Quot.sound
Ieme.C142_unambiguous: propext, Classical.choice, Quot.sound
Ieme.C142_no_comparison: propext, Classical.choice, Quot.sound
Ieme.C142_equation_partial: propext, Classical.choice, Quot.sound
Ieme.C142_equation_wrong: propext, Classical.choice, Quot.sound
Ieme.C142_order_partial: propext, Classical.choice, Quot.sound
Ieme.C142_order_wrong: propext, Classical.choice, Quot.sound
Ieme.C142_decides: propext, Classical.choice, Quot.sound
Ieme.C142_chain: propext, Classical.choice, Quot.sound
Ieme.C142_pitfalls: propext, Classical.choice, Quot.sound
Ieme.C143_collects_iff: propext, Classical.choice, Quot.sound
Ieme.C143_collected_small: propext, Classical.choice, Quot.sound
Ieme.C143_left: propext, Classical.choice, Quot.sound
Ieme.C143_written: propext, Classical.choice, Quot.sound
Ieme.C143_eof_iff: propext, Classical.choice, Quot.sound
Ieme.C143_not_detected: propext, Classical.choice, Quot.sound
Ieme.C143_sum_loop: propext, Classical.choice, Quot.sound
Ieme.C143_sum_exact: propext, Classical.choice, Quot.sound
Ieme.C143_sum_written: propext, Classical.choice, Quot.sound
Ieme.C143_copy: propext, Classical.choice, Quot.sound
Ieme.C143_reduce_finishes_iff: propext, Classical.choice, Quot.sound
Ieme.C143_reduce_again: propext, Classical.choice, Quot.sound
Ieme.C144_unchanged: propext, Quot.sound
Ieme.C144_operators: propext, Quot.sound
Ieme.C144_expressions: propext, Quot.sound
Ieme.C144_math: propext, Quot.sound
Ieme.C144_mixed: propext, Quot.sound
Ieme.C144_conversions: propext, Quot.sound
Ieme.C144_wrappers: propext, Quot.sound
Ieme.C144_any_order: propext, Quot.sound
Ieme.C144_never_stuck: propext, Quot.sound
Ieme.C144_ends: propext, Quot.sound
Ieme.C144_result: propext, Quot.sound
Ieme.C144_same_calls: propext, Quot.sound
Ieme.C144_commuting: propext, Quot.sound
Ieme.C144_count: propext, Quot.sound
Ieme.C144_left_to_right: propext, Quot.sound
Ieme.C144_flagging_iff: propext, Classical.choice, Quot.sound
Ieme.C144_flag_exact: propext, Classical.choice, Quot.sound
Ieme.C144_order_matters: propext, Classical.choice, Quot.sound
Ieme.C144_log_order: propext, Quot.sound
Ieme.C145_text: propext
Ieme.C145_declarations: propext
Ieme.C145_utilities: propext, Classical.choice, Quot.sound
Ieme.C145_raw_construct: propext, Classical.choice, Quot.sound
Ieme.C145_queries: propext, Classical.choice, Quot.sound
Ieme.C145_rewrites: propext, Classical.choice, Quot.sound
Ieme.C145_policies: propext, Classical.choice, Quot.sound
Ieme.C145_fraction_class: propext, Classical.choice, Quot.sound
Ieme.C145_operators: propext, Classical.choice, Quot.sound
Ieme.C145_assignments: propext, Classical.choice, Quot.sound
Ieme.C145_fraction_math: propext, Classical.choice, Quot.sound
Ieme.C145_mixed_class: propext, Classical.choice, Quot.sound
Ieme.C145_mixed_operators: propext, Classical.choice, Quot.sound
Ieme.C146_text: propext
Ieme.C146_valid: propext, Classical.choice, Quot.sound
Ieme.C146_digits: propext, Classical.choice, Quot.sound
Ieme.C146_scan: propext, Classical.choice, Quot.sound
Ieme.C146_to_fraction: propext, Classical.choice, Quot.sound
Ieme.C146_dec: propext, Classical.choice, Quot.sound
Ieme.C146_dec_throws_iff: propext, Classical.choice, Quot.sound
Ieme.C146_dec_exact: propext, Classical.choice, Quot.sound
Ieme.C147_text: propext
Ieme.C147_of_float: propext, Classical.choice, Quot.sound
Ieme.C147_of_double: propext, Classical.choice, Quot.sound
Ieme.C147_to_float: propext, Classical.choice, Quot.sound
Ieme.C147_to_double: propext, Classical.choice, Quot.sound
Ieme.C147_to_long_double: propext, Classical.choice, Quot.sound
Ieme.C147_little_endian_exact: propext, Classical.choice, Quot.sound
Ieme.C147_big_endian_never_right: propext, Classical.choice, Quot.sound
Ieme.C147_narrow_always_rounded: propext, Classical.choice, Quot.sound
Ieme.C148_text: propext
Ieme.C148_hash: propext, Classical.choice, Quot.sound
Ieme.C148_limits: propext, Classical.choice, Quot.sound
Ieme.C148_constants: propext, Quot.sound
Ieme.C148_literals: propext, Classical.choice, Quot.sound
Ieme.C148_equal_hashes_iff: propext, Classical.choice, Quot.sound
Ieme.C148_half_hashes: propext, Classical.choice, Quot.sound
Ieme.C148_limit_values: propext, Classical.choice, Quot.sound
Ieme.C149_limits_ill_formed: propext, Quot.sound
Ieme.C149_numeric_limits_ill_formed: propext, Quot.sound
Ieme.C149_other_policies: propext, Classical.choice, Quot.sound
Ieme.C149_max_never_positive: propext, Classical.choice, Quot.sound
Ieme.C149_corrected: propext, Quot.sound
Ieme.C150_text: propext
Ieme.C150_operators: propext, Quot.sound
Ieme.C150_read: propext, Quot.sound
Ieme.C150_read_throwing: propext, Quot.sound
Ieme.C150_write: propext, Quot.sound
Ieme.C150_round_trip: propext, Classical.choice, Quot.sound
Ieme.C150_never_throws: propext, Quot.sound
Ieme.C151_text: propext
Ieme.C151_types: propext, Quot.sound
Ieme.C151_predefined: propext, Classical.choice, Quot.sound
Ieme.C151_floating: propext
Ieme.C151_convert: propext, Classical.choice, Quot.sound
Ieme.C151_other_clock: propext, Quot.sound
Ieme.C151_to_fractional: propext, Classical.choice, Quot.sound
Ieme.C151_to_fractional_exact: propext, Classical.choice, Quot.sound
Ieme.C151_now: propext, Classical.choice, Quot.sound
Ieme.C151_now_exact: propext, Classical.choice, Quot.sound
Ieme.C151_steady: propext, Quot.sound
Ieme.C152_arith_exact: propext, Classical.choice, Quot.sound
Ieme.C152_comparison_iff: propext, Classical.choice, Quot.sound
Ieme.C152_unary_exact: propext, Classical.choice, Quot.sound
Ieme.C152_rounding_iff: propext, Classical.choice, Quot.sound
Ieme.C152_comparisons_wrong: propext, Classical.choice, Quot.sound
Ieme.C152_arithmetic_wrong: propext, Classical.choice, Quot.sound
Ieme.C152_is_reduced_wrong: propext, Classical.choice, Quot.sound
Ieme.C152_rounding_wrong: propext, Classical.choice, Quot.sound
Ieme.C152_powers_wrong: propext, Classical.choice, Quot.sound
Ieme.C152_mixed_wrong: propext, Classical.choice, Quot.sound
Ieme.C153_power_finishes: propext, Classical.choice, Quot.sound
Ieme.C153_power_finishes_only: propext, Classical.choice, Quot.sound
Ieme.C153_sum_finishes: propext, Classical.choice, Quot.sound
Ieme.C153_sum_fast: propext, Classical.choice, Quot.sound
Ieme.C153_euclid_finishes: propext, Classical.choice, Quot.sound
Ieme.C153_sum_safe_based: propext, Classical.choice, Quot.sound
Ieme.C153_static_bound: propext, Classical.choice, Quot.sound
Ieme.C153_operand_count: propext, Classical.choice, Quot.sound
Ieme.C153_checked_program: propext, Classical.choice, Quot.sound
Ieme.C153_checked_loop_free: propext, Classical.choice, Quot.sound
Ieme.C153_expression: propext, Classical.choice, Quot.sound
Ieme.C153_statements: propext, Classical.choice, Quot.sound
Ieme.C153_code: propext, Classical.choice, Quot.sound
Ieme.C153_policy_irrelevant: propext, Classical.choice, Quot.sound
Ieme.C153_equations: propext, Classical.choice, Quot.sound
Ieme.C153_distributive: propext, Classical.choice, Quot.sound
Ieme.C153_harmonic: propext, Classical.choice, Quot.sound
Ieme.C153_power: propext, Classical.choice, Quot.sound
Ieme.C153_total: propext, Classical.choice, Quot.sound
Ieme.C153_euclid: propext, Classical.choice, Quot.sound
Ieme.C153_greedy: propext, Classical.choice, Quot.sound
Ieme.C153_bisection: propext, Classical.choice, Quot.sound
Ieme.C153_order_with_integer_wrong: propext, Classical.choice, Quot.sound
Ieme.C154_expression: propext, Classical.choice, Quot.sound
Ieme.C154_statements: propext, Classical.choice, Quot.sound
Ieme.C154_code: propext, Classical.choice, Quot.sound
Ieme.C154_runs_iff: propext, Quot.sound
Ieme.C154_trichotomy: propext, Classical.choice, Quot.sound
Ieme.C154_ends: propext, Classical.choice, Quot.sound
