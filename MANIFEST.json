{
 "claims": [
  {
   "property": "C01",
   "status": "proved",
   "theorems": [
    "Babs.Props.new_normal_form",
    "Babs.Props.normal_form_minimal"
   ],
   "note": ""
  },
  {
   "property": "C02",
   "status": "proved",
   "theorems": [
    "Babs.Props.eq_iff",
    "Babs.Props.is_zero_iff"
   ],
   "note": ""
  },
  {
   "property": "C03",
   "status": "proved",
   "theorems": [
    "Babs.Props.cmp_numeric"
   ],
   "note": ""
  },
  {
   "property": "C04",
   "status": "proved",
   "theorems": [
    "Babs.Props.add_exact"
   ],
   "note": ""
  },
  {
   "property": "C05",
   "status": "proved",
   "theorems": [
    "Babs.Props.addWord_exact",
    "Babs.Props.addDigit_exact"
   ],
   "note": ""
  },
  {
   "property": "C06",
   "status": "proved",
   "theorems": [
    "Babs.Props.sub_exact",
    "Babs.Props.sub_underflow"
   ],
   "note": ""
  },
  {
   "property": "C07",
   "status": "partial",
   "theorems": [
    "Babs.Props.sub_not_normalised",
    "Babs.Props.sub_normalised_partial",
    "Babs.Props.sub_normalised_partial_of_length",
    "Babs.Props.sub_self_zero",
    "Babs.Props.subDigit_not_normalised",
    "Babs.Props.subDigit_normalised_partial"
   ],
   "note": "The property is false of the code: witness for every digit type. The exact condition under which the result is normalised is proved."
  },
  {
   "property": "C08",
   "status": "partial",
   "theorems": [
    "Babs.Props.subDigit_exact",
    "Babs.Props.subWord_binary_exact",
    "Babs.Props.subWord_small_exact_partial",
    "Babs.Props.subWord_decimal_wrong",
    "Babs.Props.subWord_large_partial"
   ],
   "note": "True for binary types and for words below the radix; false for decimal types and words of two digits (witness); the exact condition is proved."
  },
  {
   "property": "C09",
   "status": "proved",
   "theorems": [
    "Babs.Props.mulWord_exact",
    "Babs.Props.mulDigit_exact"
   ],
   "note": ""
  },
  {
   "property": "C10",
   "status": "partial",
   "theorems": [
    "Babs.Props.mul_safe_exact_partial",
    "Babs.Props.mulSafe_of_short",
    "Babs.Props.mul_exact_partial",
    "Babs.Props.mul_pow2_exact_partial",
    "Babs.Props.mul_panics_exactly",
    "Babs.Props.mul_safe_lengths",
    "Babs.Props.mul_panics"
   ],
   "note": "Totality is false of the code: for every digit type and every pair of lengths of at least 20 and 41 digits some product panics. Proved total for factors of any size that meet no difference of the kind the code gets wrong (mulSafe, in terms of numbers), in particular when a factor has fewer than 20 digits, when both have at most 40, and for binary powers of two of any size. The exact condition for all sizes is C52."
  },
  {
   "property": "C11",
   "status": "proved",
   "theorems": [
    "Babs.Props.mul_exact_or_unwrap",
    "Babs.Props.mul_comm_or_unwrap"
   ],
   "note": "All sizes, through long, Karatsuba and Toom-3 multiplication."
  },
  {
   "property": "C12",
   "status": "proved",
   "theorems": [
    "Babs.Props.mul_short_exact",
    "Babs.Props.square_short_exact"
   ],
   "note": ""
  },
  {
   "property": "C13",
   "status": "partial",
   "theorems": [
    "Babs.Props.square_exact_or_unwrap_partial",
    "Babs.Props.square_fresh_exact_partial",
    "Babs.Props.square_fresh_eq_mul_partial",
    "Babs.Props.square_pow2_exact_partial",
    "Babs.Props.square_safe_exact_partial",
    "Babs.Props.square_exact_partial",
    "Babs.Props.square_eq_mul_partial",
    "Babs.Props.squareFresh_of_short",
    "Babs.Props.square_panics",
    "Babs.Props.square_wrong",
    "Babs.Props.square_ne_mul",
    "Babs.Props.square_scale_wrong",
    "Babs.Props.square_exact_or_unwrap_iff",
    "Babs.Props.square_sound_partial"
   ],
   "note": "Any size: exact and returned if the number meets no bad difference and no stale digits (squareSafe, a condition on numbers alone), in particular for all binary powers of two. Any size: exact whenever returned if no stale digits are met (squareSound). Up to 1131 digits: exact whenever returned, and 1131 is the largest such number (square_exact_or_unwrap_iff). False of the code in general: square_toom3_into does not clear its buffers, and for every digit type a number of 1132 digits is shown whose square is returned wrong; 10^8192 in 8-bit digits is another. Other squares panic."
  },
  {
   "property": "C14",
   "status": "partial",
   "theorems": [
    "Babs.Props.pow_exact_or_unwrap_partial",
    "Babs.Props.pow_fresh_exact_partial",
    "Babs.Props.pow_pow2_any_exact_partial",
    "Babs.Props.pow_safe_exact_partial",
    "Babs.Props.pow_exact_partial",
    "Babs.Props.pow_pow2_exact_partial",
    "Babs.Props.pow_small_exact",
    "Babs.Props.pow_panics",
    "Babs.Props.pow_wrong",
    "Babs.Props.pow_exact_or_unwrap_iff",
    "Babs.Props.pow_sound_partial"
   ],
   "note": "Any size: exact and returned if the squares and products met are safe (powSafe, powFresh), in particular for all powers of binary powers of two. Any size: exact whenever returned if the squares met are sound (squareSound). Powers of at most 2262 digits are exact when returned, and 2262 is the largest such number (pow_exact_or_unwrap_iff). False of the code otherwise: a number of which every power from the second on panics, and one of which the square is wrong, in every digit type (pow_panics, pow_wrong)."
  },
  {
   "property": "C15",
   "status": "proved",
   "theorems": [
    "Babs.Props.divDigit_exact",
    "Babs.Props.remDigit_exact",
    "Babs.Props.divRemWord_exact",
    "Babs.Props.divRemWord_zero"
   ],
   "note": ""
  },
  {
   "property": "C16",
   "status": "partial",
   "theorems": [
    "Babs.Props.divRemWord_large_exact_partial",
    "Babs.Props.divRemWord_dec8_exact_partial",
    "Babs.Props.divWord_large_wrong",
    "Babs.Props.divWord_dec8_wrong",
    "Babs.Props.divWord_decimal_release_panics_exactly"
   ],
   "note": "False of the code for words that overflow when scaled (witness; for 8 bits exactly the words 157..199). Exact for all other words. In release builds the words for which division panics (instead of returning a wrong result) are stated exactly."
  },
  {
   "property": "C17",
   "status": "partial",
   "theorems": [
    "Babs.Props.div_exact_partial",
    "Babs.Props.div_safe_exact_partial",
    "Babs.Props.div_upto80_exact_partial",
    "Babs.Props.div_smaller_exact",
    "Babs.Props.div_panics",
    "Babs.Props.div_panics_exactly",
    "Babs.Props.div_decimal_exact_iff",
    "Babs.Props.div_panics_of_equal_leading",
    "Babs.Props.div_decimal_upto80_exact_iff",
    "Babs.Props.div_binary_upto80_exact_iff",
    "Babs.Props.div_top_only_exact",
    "Babs.Props.div_long_binary_exact_partial",
    "Babs.Props.div_binary_digit_pow2_exact",
    "Babs.Props.div_short_exact_partial",
    "Babs.Props.div_decimal_exact_partial",
    "Babs.Props.div_one_digit_exact",
    "Babs.Props.div_radix_power_exact",
    "Babs.Props.div_same_length_exact",
    "Babs.Props.div_longer_exact",
    "Babs.Props.divisionExact_equation",
    "Babs.Props.div_tie_wrong",
    "Babs.Props.div_tie_wrong_long",
    "Babs.Props.div_scale_wrong",
    "Babs.Props.div_scale_wrong_long",
    "Babs.Props.div_bz_panics",
    "Babs.Props.div_binary_exact_iff",
    "Babs.Props.div_binary_always_exact_iff",
    "Babs.Props.div_binary_short_returns",
    "Babs.Props.div_decimal_release_panics_exactly",
    "Babs.Props.div_decimal_debug_asserts",
    "Babs.Props.div_decimal_debug_panics_exactly"
   ],
   "note": "False of the code: wrong quotients on ties (binary) and on scaling overflow (decimal), and panics for divisors of 20 digits or more. Proved, when the scaled divisor fits and for binary types no tie occurs, for all sizes: every returned result is right, and it is returned if and only if the numbers meet no equal leading digits and no product that panics (NoBlockPanic, productOk). Below 20 digits also the cases with a wrong quotient: binary division never panics, decimal division in release builds panics exactly if the scaled leading digit becomes zero, and in debug builds (8 and 32 bits, 3 to 19 digits) exactly if the scaled divisor does not fit. Missing: exact conditions for ties and misfits from 20 digits on."
  },
  {
   "property": "C18",
   "status": "proved",
   "theorems": [
    "Babs.Props.div_short_exact_partial",
    "Babs.Props.div_short_decimal_exact_partial",
    "Babs.Props.div_short_binary_exact_partial",
    "Babs.Props.scaleFits_binary",
    "Babs.Props.div_binary_exact_iff",
    "Babs.Props.div_binary_always_exact_iff"
   ],
   "note": "The condition is exact for binary types: below 20 digits the quotient is right if and only if no tie occurs."
  },
  {
   "property": "C19",
   "status": "proved",
   "theorems": [
    "Babs.Props.div_zero_reported",
    "Babs.Props.div_nonzero_ok",
    "Babs.Props.divRemWord_zero"
   ],
   "note": ""
  },
  {
   "property": "C20",
   "status": "partial",
   "theorems": [
    "Babs.Props.rem_zero_unchanged",
    "Babs.Props.div_zero_destroys",
    "Babs.Props.div_zero_destroys_not_normalised"
   ],
   "note": "True of rem_assign_big; false of div_assign_big for every dividend."
  },
  {
   "property": "C21",
   "status": "partial",
   "theorems": [
    "Babs.Props.shl_binary_value",
    "Babs.Props.shl_binary_normalised_partial",
    "Babs.Props.shl_binary_zero_not_normalised"
   ],
   "note": "The value is right for all shifts; zero shifted by a digit or more is not normalised (witness), all other results are."
  },
  {
   "property": "C22",
   "status": "partial",
   "theorems": [
    "Babs.Props.shr_binary_exact_partial",
    "Babs.Props.shr_binary_panics"
   ],
   "note": "Exact up to one digit more than there are; panics for every larger shift."
  },
  {
   "property": "C23",
   "status": "partial",
   "theorems": [
    "Babs.Props.shl_decimal_small_exact",
    "Babs.Props.shl_decimal_exact_partial",
    "Babs.Props.shl_decimal_safe_exact_partial",
    "Babs.Props.shl_decimal_fresh_exact_partial",
    "Babs.Props.shl_decimal_exact_or_unwrap_partial",
    "Babs.Props.shl_decimal_sound",
    "Babs.Props.shl_decimal_sound_partial",
    "Babs.Props.shl_decimal_long_panics",
    "Babs.Props.shl_decimal_panics_exactly",
    "Babs.Props.shr_decimal_exact_partial",
    "Babs.Props.shr_decimal_unimplemented"
   ],
   "note": "Left shifts: exact whenever returned, for all n in 16-bit digits (shl_decimal_sound), and for n < 2^18, 2^21 and 2^22 in 8-, 32- and 64-bit digits; which of these panic is stated exactly. False of the code otherwise: shifts by 2^20 places or more in 16-bit digits panic (shl_decimal_long_panics). Missing: longer shifts in the other types. Right shifts by more than 4*MAX_HEX_PLACES bits are not implemented."
  },
  {
   "property": "C24",
   "status": "proved",
   "theorems": [
    "Babs.Props.ofWord_exact"
   ],
   "note": ""
  },
  {
   "property": "C25",
   "status": "proved",
   "theorems": [
    "Babs.Props.parse_decimal"
   ],
   "note": ""
  },
  {
   "property": "C26",
   "status": "proved",
   "theorems": [
    "Babs.Props.parse_hex"
   ],
   "note": ""
  },
  {
   "property": "C27",
   "status": "partial",
   "theorems": [
    "Babs.Props.parse_total",
    "Babs.Props.parse_rejects_non_ascii",
    "Babs.Props.parse_rejects_decimal",
    "Babs.Props.parse_rejects_hex",
    "Babs.Props.parse_iff_partial",
    "Babs.Props.parse_sound",
    "Babs.Props.parse_accepted_iff",
    "Babs.Props.accepted_iff_wellFormed",
    "Babs.Props.parse_not_wellFormed_accepted_iff",
    "Babs.Props.parse_accepts_plus",
    "Babs.Props.parse_plus_is_zero",
    "Babs.Props.parse_accepts_empty"
   ],
   "note": "False of the code: a plus sign is accepted inside the number (for every type) and read as a zero, and the empty text is read as zero. For all texts, the exact set of accepted texts is proved (Accepted: a plus sign may stand where a chunk counted from the end begins, unless alone in it); without a plus sign it is the well-formed texts. Every other character is rejected."
  },
  {
   "property": "C28",
   "status": "proved",
   "theorems": [
    "Babs.Props.display_decimal",
    "Babs.Props.display_decimal_roundtrip",
    "Babs.Props.standard_unique"
   ],
   "note": ""
  },
  {
   "property": "C29",
   "status": "proved",
   "theorems": [
    "Babs.Props.hex_standard",
    "Babs.Props.hex_roundtrip",
    "Babs.Props.standard_unique"
   ],
   "note": ""
  },
  {
   "property": "C30",
   "status": "partial",
   "theorems": [
    "Babs.Props.toDecimal_exact_partial",
    "Babs.Props.toDecimal_iff",
    "Babs.Props.toDecimal_exact_iff_partial",
    "Babs.Props.toDecimal_upto10204_exact_iff_partial",
    "Babs.Props.toDecimal_upto20409_exact_iff_partial",
    "Babs.Props.toDecimal_upto40_exact_iff_partial",
    "Babs.Props.squareRight_upto3300",
    "Babs.Props.display_binary_partial",
    "Babs.Props.display_binary_iff_partial",
    "Babs.Props.display_binary_roundtrip_partial",
    "Babs.Props.toDecimal_wrong",
    "Babs.Props.display_binary_wrong",
    "Babs.Props.toDecimal_long_panics",
    "Babs.Props.display_long_panics"
   ],
   "note": "Exact below 16 digits; false of the code from 16 digits on, with a witness for each type. At any size, if the squares and divisions met are right (C13, C17), the conversion, the text and the round trip are right if and only if every lower part of a split has its full number of digits (padded); otherwise a smaller number is returned. Up to 10204 digits (20409 except for 8-bit digits) the squares are always right. Every 8-bit number of 40821 digits or more panics."
  },
  {
   "property": "C31",
   "status": "proved",
   "theorems": [
    "Babs.Props.digit_max",
    "Babs.Props.digit_maxShift",
    "Babs.Props.digit_inc",
    "Babs.Props.digit_dec",
    "Babs.Props.digit_addCarry",
    "Babs.Props.digit_subCarry",
    "Babs.Props.digit_shlCarry",
    "Babs.Props.digit_shrCarry",
    "Babs.Props.digit_doubleCarry",
    "Babs.Props.digit_mulCarry",
    "Babs.Props.digit_remCarry",
    "Babs.Props.digit_divCarry",
    "Babs.Props.digit_div3Carry",
    "Babs.Props.digit_addProd",
    "Babs.Props.digit_subProd"
   ],
   "note": "All eight digit types, debug and release."
  },
  {
   "property": "C32",
   "status": "proved",
   "theorems": [
    "Babs.Props.div_rem_base_exact",
    "Babs.Props.inverse_exponent_188"
   ],
   "note": "Including the remark in the source that the exponent 188 would suffice."
  },
  {
   "property": "C33",
   "status": "partial",
   "theorems": [
    "Babs.Props.agree_returns",
    "Babs.Props.agree_panics",
    "Babs.Props.add_profile",
    "Babs.Props.sub_profile",
    "Babs.Props.mul_profile",
    "Babs.Props.div_profile",
    "Babs.Props.rem_profile",
    "Babs.Props.divAssign_profile",
    "Babs.Props.remAssign_profile",
    "Babs.Props.square_profile",
    "Babs.Props.pow_profile",
    "Babs.Props.digit_profile",
    "Babs.Props.addWord_profile",
    "Babs.Props.subWord_profile",
    "Babs.Props.mulWord_profile",
    "Babs.Props.divWord_profile",
    "Babs.Props.remWord_profile",
    "Babs.Props.remWordAssign_profile",
    "Babs.Props.shl_profile",
    "Babs.Props.shr_profile",
    "Babs.Props.parse_profile",
    "Babs.Props.toDecimal_profile",
    "Babs.Props.display_profile",
    "Babs.Props.div_scale_wrong_long",
    "Babs.Props.square_clean_profile_partial",
    "Babs.Props.pow_clean_profile_partial"
   ],
   "note": "Proved for every operation and all arguments: what a debug build returns, a release build returns too. Squares and powers that meet no stale digits agree in their panics as well, at any size. The clause that no debug assertion guards a live defect is false: a decimal division panics in a debug build and returns a wrong quotient in a release build (div_scale_wrong_long)."
  },
  {
   "property": "C34",
   "status": "partial",
   "theorems": [
    "Babs.Props.mul_exact_or_unwrap",
    "Babs.Props.mul_panics_exactly",
    "Babs.Props.square_exact_or_unwrap_partial",
    "Babs.Props.square_fresh_exact_partial",
    "Babs.Props.square_clean_panics_exactly_partial",
    "Babs.Props.div_decimal_exact_partial",
    "Babs.Props.div_short_exact_partial",
    "Babs.Props.div_panics_exactly",
    "Babs.Props.div_safe_exact_partial",
    "Babs.Props.div_panics_of_equal_leading",
    "Babs.Props.div_decimal_upto80_exact_iff",
    "Babs.Props.div_binary_upto80_exact_iff",
    "Babs.Props.div_bz_panics",
    "Babs.Props.div_binary_short_returns",
    "Babs.Props.div_decimal_release_panics_exactly"
   ],
   "note": "Multiplication: all sizes. Squaring: up to 1131 digits, or any size if no stale digits are met, with the exact condition for a panic. Division: no panic below 20 digits when the scaled divisor fits (always so for binary types; decimal types can divide by zero otherwise); from 20 digits on it panics exactly if equal leading digits are met or a product panics (stated in terms of numbers by NoBlockPanic)."
  },
  {
   "property": "C35",
   "status": "partial",
   "theorems": [
    "Babs.Props.program_exact_or_unwrap",
    "Babs.Props.program_exact",
    "Babs.Props.program_agree",
    "Babs.Props.program_cmp_agree",
    "Babs.Props.program_sub_agree_partial",
    "Babs.Props.program_sub_differs",
    "Babs.Props.expr_value_or_unwrap",
    "Babs.Props.expr_value",
    "Babs.Props.expr_agree",
    "Babs.Props.sub_unnormalised_panics"
   ],
   "note": "All programs of construction, parsing, addition, multiplication, division by a word and subtraction of subtraction-free programs give the same numbers. False when a difference is compared or itself subtracted, because it need not be in normal form (witnesses)."
  },
  {
   "property": "C36",
   "status": "proved",
   "theorems": [
    "Babs.Props.add_sub_cancel",
    "Babs.Props.sub_panics_iff"
   ],
   "note": ""
  },
  {
   "property": "C37",
   "status": "proved",
   "theorems": [
    "Babs.Props.mulWord_distrib",
    "Babs.Props.mulWord_divWord"
   ],
   "note": ""
  },
  {
   "property": "C38",
   "status": "proved",
   "theorems": [
    "Babs.Props.ubig_add_comm",
    "Babs.Props.ubig_add_assoc",
    "Babs.Props.ubig_neutral",
    "Babs.Props.mul_comm_or_unwrap",
    "Babs.Props.mul_assoc_of_returned",
    "Babs.Props.mul_add_of_returned",
    "Babs.Props.mul_add_short",
    "Babs.Props.ubig_mul_eq_zero"
   ],
   "note": "Laws for products hold whenever both sides are returned (C10 is about when they are); with a factor of fewer than 20 digits they are."
  },
  {
   "property": "C39",
   "status": "proved",
   "theorems": [
    "Babs.Props.cmp_add",
    "Babs.Props.cmp_mul",
    "Babs.Props.cmp_order"
   ],
   "note": ""
  },
  {
   "property": "C40",
   "status": "partial",
   "theorems": [
    "Babs.Props.shl_shr_binary",
    "Babs.Props.shl_shl_binary",
    "Babs.Props.shr_shr_binary",
    "Babs.Props.shr_eq_div_binary",
    "Babs.Props.shl_eq_mul_binary",
    "Babs.Props.shl_shr_decimal_partial",
    "Babs.Props.shr_binary_panics",
    "Babs.Props.shr_decimal_unimplemented"
   ],
   "note": "Binary types: all sizes, except where the shift itself panics (C22). Decimal types: shifts up to 4*MAX_HEX_PLACES bits; larger right shifts are not implemented."
  },
  {
   "property": "C41",
   "status": "partial",
   "theorems": [
    "Babs.Props.pow_add_of_returned_partial",
    "Babs.Props.pow_pow_of_returned_partial",
    "Babs.Props.pow_add_safe_partial",
    "Babs.Props.pow_pow_safe_partial",
    "Babs.Props.mul_pow_safe_partial",
    "Babs.Props.pow_laws_pow2",
    "Babs.Props.mul_div_decimal_partial",
    "Babs.Props.mul_div_safe_partial",
    "Babs.Props.mul_div_binary_of_returned",
    "Babs.Props.mul_div_radix_of_returned",
    "Babs.Props.mul_div_binary_wrong",
    "Babs.Props.pow_add_clean_partial",
    "Babs.Props.pow_pow_clean_partial"
   ],
   "note": "Laws of powers: of any size if the squares and products met are safe (C14), in particular for binary powers of two; when returned, up to 2262 digits or of any size if no square meets stale digits. (x*y)/y = x: of any size if the product is safe and the division meets its conditions (C17); always for divisors that are powers of the radix, or of two in binary types, once returned; false for binary types in general (witness)."
  },
  {
   "property": "C42",
   "status": "partial",
   "theorems": [
    "Babs.Props.fibonacci_panics_exactly",
    "Babs.Props.fibonacci_exact_or_unwrap",
    "Babs.Props.fibonacci_safe_exact_partial",
    "Babs.Props.fibonacci_exact_partial",
    "Babs.Props.fibonacci_agree"
   ],
   "note": "For every k the number is right if it is returned, and it is returned if and only if no product on the way panics, which is a condition on k and the radix alone (fibPanics); in particular if it has at most 40 digits. Missing: whether there is a k for which the condition fails."
  },
  {
   "property": "C43",
   "status": "partial",
   "theorems": [
    "Babs.Props.add_value",
    "Babs.Props.addWord_value",
    "Babs.Props.sub_value",
    "Babs.Props.sub_value_or_panic",
    "Babs.Props.subWord_value",
    "Babs.Props.mulWord_value",
    "Babs.Props.mul_value_or_unwrap",
    "Babs.Props.divRemWord_value",
    "Babs.Props.expr_value_or_unwrap",
    "Babs.Props.expr_value",
    "Babs.Props.sub_unnormalised_panics",
    "Babs.Props.div_unnormalised_wrong",
    "Babs.Props.display_unnormalised_wrong"
   ],
   "note": "True of addition, multiplication, division by a word, and as minuend; false as subtrahend, as divisor, in comparisons and in display (witnesses)."
  },
  {
   "property": "C44",
   "status": "partial",
   "theorems": [
    "Babs.Props.digit_add_mul_exact_partial",
    "Babs.Props.digit_add_mul_binary",
    "Babs.Props.digit_neutral",
    "Babs.Props.digit_add_wrong"
   ],
   "note": "True of binary digits; false of decimal digits of every width (witness)."
  },
  {
   "property": "C45",
   "status": "proved",
   "theorems": [
    "Babs.Props.nrDigits_exact",
    "Babs.Props.nrDigits_add",
    "Babs.Props.nrDigits_mul"
   ],
   "note": ""
  },
  {
   "property": "C46",
   "status": "proved",
   "theorems": [
    "Babs.Props.mulInvBase_exact",
    "Babs.Props.mulInvBase2_exact",
    "Babs.Props.divOpBase_exact",
    "Babs.Props.divLongBase_exact",
    "Babs.Props.divqBase_exact",
    "Babs.Props.testDivBase_agree"
   ],
   "note": "The instruction of the routine written in inline assembly is modelled after the processor's manual."
  },
  {
   "property": "C47",
   "status": "partial",
   "theorems": [
    "Babs.Props.client_exact_partial",
    "Babs.Props.client_agree_partial",
    "Babs.Props.op_exact",
    "Babs.Props.factorial_exact",
    "Babs.Props.fib_by_addition_exact",
    "Babs.Props.horner_exact",
    "Babs.Props.digitSum_exact",
    "Babs.Props.gcd_exact_partial",
    "Babs.Props.gcd_digit_exact"
   ],
   "note": "Proved for all programs each step of which meets the conditions under which that operation is right (stated on numbers: no lost borrow C07, products and squares that do not panic C52, C56, or meet C13, divisions C17, shifts C21-C23). Unconditional for factorials, Fibonacci numbers by addition, Horner evaluation, sums of digits, and greatest common divisors with a number of one digit. Without the conditions it is false of the code."
  },
  {
   "property": "C48",
   "status": "partial",
   "theorems": [
    "Babs.Props.mul_terminates",
    "Babs.Props.square_terminates",
    "Babs.Props.pow_terminates",
    "Babs.Props.div_terminates",
    "Babs.Props.shift_terminates",
    "Babs.Props.fromStr_terminates",
    "Babs.Props.fibonacci_terminates",
    "Babs.Props.client_terminates",
    "Babs.Props.mul_depth",
    "Babs.Props.square_depth",
    "Babs.Props.div_depth",
    "Babs.Props.budget_irrelevant",
    "Babs.Props.mul_equation",
    "Babs.Props.square_equation",
    "Babs.Props.mulInto_equation",
    "Babs.Props.squareInto_equation",
    "Babs.Props.div_equation",
    "Babs.Props.workSize_equation",
    "Babs.Props.toDecimal_w8_terminates",
    "Babs.Props.display_terminates",
    "Babs.Props.toDecimal_terminates_partial",
    "Babs.Props.toDecimal_upto20409_terminates_partial",
    "Babs.Props.display_terminates_partial"
   ],
   "note": "For all lists of digits: multiplication, squares, powers, division, shifts, parsing and all programs of C47 end, and the recursion is at most k levels deep for up to 16*2^k digits. The budgets of the model do not matter: the functions satisfy the equations of the code, which has none. Printing: for all lists of decimal digits and of 8-bit digits; for the other binary types up to 20409 digits and, beyond, if the powers of the decimal radix are computed right. Missing: longer numbers of these types for which a square is wrong (C13)."
  },
  {
   "property": "C49",
   "status": "partial",
   "theorems": [
    "Babs.Props.client_sound_partial",
    "Babs.Props.client_agree_of_returned_partial",
    "Babs.Props.client_fine_sound",
    "Babs.Props.op_sound",
    "Babs.Props.client_wrong"
   ],
   "note": "Proved for all programs that perform none of the operations known to return a wrong or unnormalised number (lost borrow C07, words of two decimal digits C08 and C16, ties and misfits in division C17, long squares C13, 0 << n C21). No condition for addition, multiplication of any size, right shifts, underflow and division by zero. False of the code without the conditions: client_wrong, for every type."
  },
  {
   "property": "C50",
   "status": "proved",
   "theorems": [
    "Babs.Props.big_forms_agree",
    "Babs.Props.digit_forms_agree",
    "Babs.Props.word_forms_agree",
    "Babs.Props.shift_forms_agree",
    "Babs.Props.forms_exact"
   ],
   "note": "All forms of all operators, on all lists of digits."
  },
  {
   "property": "C51",
   "status": "partial",
   "theorems": [
    "Babs.Props.panic_leaves_alone",
    "Babs.Props.sub_left_behind",
    "Babs.Props.sub_left_behind_wrong",
    "Babs.Props.subWord_left_behind",
    "Babs.Props.subWord_large_left_behind",
    "Babs.Props.div_left_behind",
    "Babs.Props.div_long_left_behind",
    "Babs.Props.div_binary_left_behind",
    "Babs.Props.div_decimal_left_behind",
    "Babs.Props.rem_decimal_debug_left_behind",
    "Babs.Props.divWord_large_left_behind"
   ],
   "note": "True of *=, %= by zero, /= and %= by the word zero, and shifts; true of every panic of %= with binary types and of %= by divisors of 20 digits or more. False of -=, of every panicking /= by a big number (zeros are left) and of %= by shorter divisors with decimal types (the scaled number is left): what is left behind is stated exactly, for all panics of /= and %= with binary types and with decimal types in release builds. Missing: decimal types in debug builds when a divisor of fewer than 20 digits does not fit when scaled, except the assertion of the 8 and 32 bit types at 3 to 19 digits."
  },
  {
   "property": "C52",
   "status": "proved",
   "theorems": [
    "Babs.Props.mul_panics_exactly",
    "Babs.Props.mul_comm_exactly",
    "Babs.Props.interpolation_panics"
   ],
   "note": "For factors of any size, in all three algorithms. interpolation_panics is a number whose product with itself fails in the interpolation of Toom-Cook multiplication alone."
  },
  {
   "property": "C53",
   "status": "proved",
   "theorems": [
    "Babs.Props.mul_safe_lengths",
    "Babs.Props.mul_unsafe_lengths",
    "Babs.Props.square_safe_lengths"
   ],
   "note": "For all pairs of lengths, in all algorithms."
  },
  {
   "property": "C54",
   "status": "proved",
   "theorems": [
    "Babs.Props.div_binary_safe_lengths",
    "Babs.Props.div_decimal_all_lengths",
    "Babs.Props.div_decimal_lost_divisor",
    "Babs.Props.div_binary_longer_wrong",
    "Babs.Props.div_binary_not_longer_exact",
    "Babs.Props.div_safe_lengths",
    "Babs.Props.div_unsafe_lengths",
    "Babs.Props.div_decimal_safe_lengths",
    "Babs.Props.div_short_dividend_exact"
   ],
   "note": "For all pairs of lengths, in all types, without conditions; and, for divisors of 20 digits and more, exactly which lengths admit panics if the scaled divisor fits and no tie occurs."
  },
  {
   "property": "C55",
   "status": "partial",
   "theorems": [
    "Babs.Props.pow_panics_exactly_partial",
    "Babs.Props.shl_decimal_panics_exactly_partial",
    "Babs.Props.pow_clean_panics_exactly_partial",
    "Babs.Props.shl_decimal_clean_panics_exactly_partial",
    "Babs.Props.shl_decimal_panics_exactly",
    "Babs.Props.pow_unsafe_lengths",
    "Babs.Props.pow_safe_lengths"
   ],
   "note": "Exact for powers of at most 2262 digits, for powers of any size of which no square meets stale digits (powClean, a condition on numbers alone), and for the shifts that need them; for all shifts in 16-bit decimal digits. Missing: longer powers of which a square meets stale digits."
  },
  {
   "property": "C56",
   "status": "partial",
   "theorems": [
    "Babs.Props.square_panics_exactly_partial",
    "Babs.Props.square_clean_panics_exactly_partial",
    "Babs.Props.square_eq_mul_self_partial",
    "Babs.Props.square_safe_lengths",
    "Babs.Props.interpolation_panics",
    "Babs.Props.square_clean_eq_mul_self_partial"
   ],
   "note": "Exact for numbers of at most 1131 digits, and for numbers of any size of which the square meets no stale digits (squareClean, a condition on numbers alone). Missing: the other numbers, of which some are squared wrongly without a panic (square_wrong, C13)."
  },
  {
   "property": "C57",
   "status": "proved",
   "theorems": [
    "Babs.Props.fibonacci_benchmark",
    "Babs.Props.fibonacci_panics_exactly"
   ],
   "note": "For all eight number types; the benchmark runs four of them. The condition of fibonacci_panics_exactly is evaluated by the kernel. The second benchmark, F(4_784_969), is not evaluated."
  },
  {
   "property": "C58",
   "status": "proved",
   "theorems": [
    "Babs.Props.div_panics_exactly",
    "Babs.Props.div_panics",
    "Babs.Props.div_decimal_exact_iff",
    "Babs.Props.div_product_panics"
   ],
   "note": "For all sizes. div_product_panics: for every type a division without equal leading digits that panics because of a product. Divisors that do not fit when scaled, and ties, are the subject of C17 and C18."
  },
  {
   "property": "C59",
   "status": "partial",
   "theorems": [
    "Babs.Props.client_panics_exactly_partial",
    "Babs.Props.client_profile_partial",
    "Babs.Props.op_panics"
   ],
   "note": "For all programs that perform none of the operations known to return a wrong number (C49). Missing: programs with squares of more than 1131 digits or powers of more than 2262 digits that meet stale digits."
  },
  {
   "property": "C60",
   "status": "partial",
   "theorems": [
    "Babs.Props.bench_to_decimal_exact",
    "Babs.Props.bench_to_decimal_panics"
   ],
   "note": "2^100000 in digits of 32 and 64 bits, and the panic from 2^326560 on in digits of 8 bits. Missing: digits of 8 bits at 2^100000, and digits of 32 and 64 bits at 2^1000000."
  },
  {
   "property": "C61",
   "status": "partial",
   "theorems": [
    "Babs.Props.cmp_contract",
    "Babs.Props.cmp_any",
    "Babs.Props.cmp_numeric_iff",
    "Babs.Props.cmp_unnormalised_wrong",
    "Babs.Props.sorted_numeric",
    "Babs.Props.sorted_unique",
    "Babs.Props.add_zero_neutral",
    "Babs.Props.mul_one_neutral"
   ],
   "note": "Proved for all values, except that one() is neutral for normalised numbers only: the product of a number with leading zeros with one has no leading zeros. What the order means for numbers with leading zeros is stated exactly."
  },
  {
   "property": "C62",
   "status": "proved",
   "theorems": [
    "Babs.Props.modPow_exact",
    "Babs.Props.trialDivision_exact",
    "Babs.Props.collatz_exact"
   ],
   "note": ""
  }
 ]
}
