# Axioms

The axioms of every theorem named in MANIFEST.json, from `#print axioms` (all names are in the namespace `Babs.Props`).

## none

`agree_panics`

## propext

`addWord_profile`, `add_profile`, `agree_returns`, `client_wrong`, `cmp_unnormalised_wrong`, `digit_add_wrong`, `digit_profile`, `divWord_large_wrong`, `divWord_profile`, `div_bz_panics`, `div_left_behind`, `div_scale_wrong`, `div_scale_wrong_long`, `div_tie_wrong`, `div_tie_wrong_long`, `div_unnormalised_wrong`, `div_zero_destroys`, `div_zero_destroys_not_normalised`, `div_zero_reported`, `fromStr_terminates`, `mulWord_profile`, `mul_div_binary_wrong`, `mul_panics`, `parse_profile`, `remWordAssign_profile`, `remWord_profile`, `rem_zero_unchanged`, `shl_binary_zero_not_normalised`, `shr_profile`, `square_panics`, `subWord_decimal_wrong`, `subWord_large_left_behind`, `subWord_profile`, `sub_not_normalised`, `sub_profile`, `toDecimal_wrong`

## Quot.sound, propext

`big_forms_agree`, `digit_add_mul_binary`, `digit_add_mul_exact_partial`, `digit_forms_agree`, `digit_neutral`, `display_profile`, `divAssign_profile`, `divOpBase_exact`, `divWord_dec8_wrong`, `div_profile`, `divisionExact_equation`, `divqBase_exact`, `mulInto_equation`, `mul_depth`, `mul_equation`, `mul_profile`, `mul_terminates`, `new_normal_form`, `parse_accepts_plus`, `parse_rejects_non_ascii`, `pow_panics`, `pow_profile`, `remAssign_profile`, `rem_profile`, `shift_forms_agree`, `shl_profile`, `shr_binary_panics`, `shr_decimal_unimplemented`, `squareInto_equation`, `square_depth`, `square_equation`, `square_profile`, `square_terminates`, `toDecimal_profile`, `workSize_equation`

## Classical.choice, Quot.sound, propext

`accepted_iff_wellFormed`, `addDigit_exact`, `addWord_exact`, `addWord_value`, `add_exact`, `add_sub_cancel`, `add_value`, `add_zero_neutral`, `bench_to_decimal_exact`, `bench_to_decimal_panics`, `budget_irrelevant`, `client_agree_of_returned_partial`, `client_agree_partial`, `client_exact_partial`, `client_fine_sound`, `client_panics_exactly_partial`, `client_profile_partial`, `client_sound_partial`, `client_terminates`, `cmp_add`, `cmp_any`, `cmp_contract`, `cmp_mul`, `cmp_numeric`, `cmp_numeric_iff`, `cmp_order`, `collatz_exact`, `digitSum_exact`, `digit_addCarry`, `digit_addProd`, `digit_dec`, `digit_div3Carry`, `digit_divCarry`, `digit_doubleCarry`, `digit_inc`, `digit_max`, `digit_maxShift`, `digit_mulCarry`, `digit_remCarry`, `digit_shlCarry`, `digit_shrCarry`, `digit_subCarry`, `digit_subProd`, `display_binary_iff_partial`, `display_binary_partial`, `display_binary_roundtrip_partial`, `display_binary_wrong`, `display_decimal`, `display_decimal_roundtrip`, `display_long_panics`, `display_terminates`, `display_terminates_partial`, `display_unnormalised_wrong`, `divDigit_exact`, `divLongBase_exact`, `divRemWord_dec8_exact_partial`, `divRemWord_exact`, `divRemWord_large_exact_partial`, `divRemWord_value`, `divRemWord_zero`, `divWord_decimal_release_panics_exactly`, `divWord_large_left_behind`, `div_binary_always_exact_iff`, `div_binary_digit_pow2_exact`, `div_binary_exact_iff`, `div_binary_left_behind`, `div_binary_longer_wrong`, `div_binary_not_longer_exact`, `div_binary_safe_lengths`, `div_binary_short_returns`, `div_binary_upto80_exact_iff`, `div_decimal_all_lengths`, `div_decimal_debug_asserts`, `div_decimal_debug_panics_exactly`, `div_decimal_exact_iff`, `div_decimal_exact_partial`, `div_decimal_left_behind`, `div_decimal_lost_divisor`, `div_decimal_release_panics_exactly`, `div_decimal_safe_lengths`, `div_decimal_upto80_exact_iff`, `div_depth`, `div_equation`, `div_exact_partial`, `div_long_binary_exact_partial`, `div_long_left_behind`, `div_longer_exact`, `div_nonzero_ok`, `div_one_digit_exact`, `div_panics`, `div_panics_exactly`, `div_panics_of_equal_leading`, `div_product_panics`, `div_radix_power_exact`, `div_rem_base_exact`, `div_safe_exact_partial`, `div_safe_lengths`, `div_same_length_exact`, `div_short_binary_exact_partial`, `div_short_decimal_exact_partial`, `div_short_dividend_exact`, `div_short_exact_partial`, `div_smaller_exact`, `div_terminates`, `div_top_only_exact`, `div_unsafe_lengths`, `div_upto80_exact_partial`, `eq_iff`, `expr_agree`, `expr_value`, `expr_value_or_unwrap`, `factorial_exact`, `fib_by_addition_exact`, `fibonacci_agree`, `fibonacci_benchmark`, `fibonacci_exact_or_unwrap`, `fibonacci_exact_partial`, `fibonacci_panics_exactly`, `fibonacci_safe_exact_partial`, `fibonacci_terminates`, `forms_exact`, `gcd_digit_exact`, `gcd_exact_partial`, `hex_roundtrip`, `hex_standard`, `horner_exact`, `interpolation_panics`, `inverse_exponent_188`, `is_zero_iff`, `modPow_exact`, `mulDigit_exact`, `mulInvBase2_exact`, `mulInvBase_exact`, `mulSafe_of_short`, `mulWord_distrib`, `mulWord_divWord`, `mulWord_exact`, `mulWord_value`, `mul_add_of_returned`, `mul_add_short`, `mul_assoc_of_returned`, `mul_comm_exactly`, `mul_comm_or_unwrap`, `mul_div_binary_of_returned`, `mul_div_decimal_partial`, `mul_div_radix_of_returned`, `mul_div_safe_partial`, `mul_exact_or_unwrap`, `mul_exact_partial`, `mul_one_neutral`, `mul_panics_exactly`, `mul_pow2_exact_partial`, `mul_pow_safe_partial`, `mul_safe_exact_partial`, `mul_safe_lengths`, `mul_short_exact`, `mul_unsafe_lengths`, `mul_value_or_unwrap`, `normal_form_minimal`, `nrDigits_add`, `nrDigits_exact`, `nrDigits_mul`, `ofWord_exact`, `op_exact`, `op_panics`, `op_sound`, `panic_leaves_alone`, `parse_accepted_iff`, `parse_accepts_empty`, `parse_decimal`, `parse_hex`, `parse_iff_partial`, `parse_not_wellFormed_accepted_iff`, `parse_plus_is_zero`, `parse_rejects_decimal`, `parse_rejects_hex`, `parse_sound`, `parse_total`, `pow_add_clean_partial`, `pow_add_of_returned_partial`, `pow_add_safe_partial`, `pow_clean_panics_exactly_partial`, `pow_clean_profile_partial`, `pow_exact_or_unwrap_iff`, `pow_exact_or_unwrap_partial`, `pow_exact_partial`, `pow_fresh_exact_partial`, `pow_laws_pow2`, `pow_panics_exactly_partial`, `pow_pow2_any_exact_partial`, `pow_pow2_exact_partial`, `pow_pow_clean_partial`, `pow_pow_of_returned_partial`, `pow_pow_safe_partial`, `pow_safe_exact_partial`, `pow_safe_lengths`, `pow_small_exact`, `pow_sound_partial`, `pow_terminates`, `pow_unsafe_lengths`, `pow_wrong`, `program_agree`, `program_cmp_agree`, `program_exact`, `program_exact_or_unwrap`, `program_sub_agree_partial`, `program_sub_differs`, `remDigit_exact`, `rem_decimal_debug_left_behind`, `scaleFits_binary`, `shift_terminates`, `shl_binary_normalised_partial`, `shl_binary_value`, `shl_decimal_clean_panics_exactly_partial`, `shl_decimal_exact_or_unwrap_partial`, `shl_decimal_exact_partial`, `shl_decimal_fresh_exact_partial`, `shl_decimal_long_panics`, `shl_decimal_panics_exactly`, `shl_decimal_panics_exactly_partial`, `shl_decimal_safe_exact_partial`, `shl_decimal_small_exact`, `shl_decimal_sound`, `shl_decimal_sound_partial`, `shl_eq_mul_binary`, `shl_shl_binary`, `shl_shr_binary`, `shl_shr_decimal_partial`, `shr_binary_exact_partial`, `shr_decimal_exact_partial`, `shr_eq_div_binary`, `shr_shr_binary`, `sorted_numeric`, `sorted_unique`, `squareFresh_of_short`, `squareRight_upto3300`, `square_clean_eq_mul_self_partial`, `square_clean_panics_exactly_partial`, `square_clean_profile_partial`, `square_eq_mul_partial`, `square_eq_mul_self_partial`, `square_exact_or_unwrap_iff`, `square_exact_or_unwrap_partial`, `square_exact_partial`, `square_fresh_eq_mul_partial`, `square_fresh_exact_partial`, `square_ne_mul`, `square_panics_exactly_partial`, `square_pow2_exact_partial`, `square_safe_exact_partial`, `square_safe_lengths`, `square_scale_wrong`, `square_short_exact`, `square_sound_partial`, `square_wrong`, `standard_unique`, `subDigit_exact`, `subDigit_normalised_partial`, `subDigit_not_normalised`, `subWord_binary_exact`, `subWord_large_partial`, `subWord_left_behind`, `subWord_small_exact_partial`, `subWord_value`, `sub_exact`, `sub_left_behind`, `sub_left_behind_wrong`, `sub_normalised_partial`, `sub_normalised_partial_of_length`, `sub_panics_iff`, `sub_self_zero`, `sub_underflow`, `sub_unnormalised_panics`, `sub_value`, `sub_value_or_panic`, `testDivBase_agree`, `toDecimal_exact_iff_partial`, `toDecimal_exact_partial`, `toDecimal_iff`, `toDecimal_long_panics`, `toDecimal_terminates_partial`, `toDecimal_upto10204_exact_iff_partial`, `toDecimal_upto20409_exact_iff_partial`, `toDecimal_upto20409_terminates_partial`, `toDecimal_upto40_exact_iff_partial`, `toDecimal_w8_terminates`, `trialDivision_exact`, `ubig_add_assoc`, `ubig_add_comm`, `ubig_mul_eq_zero`, `ubig_neutral`, `word_forms_agree`
