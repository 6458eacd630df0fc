{
 "claims": [
  {
   "property": "C01",
   "status": "proved",
   "theorems": [
    "Imath.C01_add",
    "Imath.C01_add_value"
   ],
   "note": ""
  },
  {
   "property": "C02",
   "status": "proved",
   "theorems": [
    "Imath.C02_sub",
    "Imath.C02_sub_value"
   ],
   "note": ""
  },
  {
   "property": "C03",
   "status": "proved",
   "theorems": [
    "Imath.C03_mul",
    "Imath.C03_mul_value"
   ],
   "note": "Includes Karatsuba at every depth and every multiply threshold from 8 on."
  },
  {
   "property": "C04",
   "status": "proved",
   "theorems": [
    "Imath.C04_sqr"
   ],
   "note": ""
  },
  {
   "property": "C05",
   "status": "proved",
   "theorems": [
    "Imath.C05_div",
    "Imath.C05_div_zero"
   ],
   "note": ""
  },
  {
   "property": "C06",
   "status": "partial",
   "theorems": [
    "Imath.C06_remainder_range_partial",
    "Imath.C06_remainder_negative",
    "Imath.C06_witness"
   ],
   "note": "The documented claim is false: the remainder is negative for every negative a not divisible by b; it holds for a >= 0."
  },
  {
   "property": "C07",
   "status": "proved",
   "theorems": [
    "Imath.C07_div_value",
    "Imath.C07_div_value_zero",
    "Imath.C07_divisible_value"
   ],
   "note": "mp_int_mod_value is a macro for mp_int_div_value with q = NULL."
  },
  {
   "property": "C08",
   "status": "proved",
   "theorems": [
    "Imath.C08_mod",
    "Imath.C08_mod_zero",
    "Imath.C08_negative_modulus",
    "Imath.C08_mod_negative"
   ],
   "note": "The third theorem shows what happens outside the property, for a negative modulus."
  },
  {
   "property": "C09",
   "status": "partial",
   "theorems": [
    "Imath.C09_mul_pow2_partial",
    "Imath.C09_mul_pow2_truncates",
    "Imath.C09_mul_pow2_witness",
    "Imath.C09_div_pow2_partial",
    "Imath.C09_negative_zero",
    "Imath.C09_alias_witness",
    "Imath.C09_div_pow2_truncates",
    "Imath.C09_div_pow2_alias",
    "Imath.C09_div_pow2_alias_truncates"
   ],
   "note": "False in full: exponents are truncated to 32 bits, mp_int_div_pow2 can leave a negative zero, and computes the remainder from the quotient if q == a."
  },
  {
   "property": "C10",
   "status": "proved",
   "theorems": [
    "Imath.C10_compare",
    "Imath.C10_compare_unsigned",
    "Imath.C10_compare_zero",
    "Imath.C10_compare_value",
    "Imath.C10_compare_uvalue"
   ],
   "note": ""
  },
  {
   "property": "C11",
   "status": "proved",
   "theorems": [
    "Imath.C11_copy",
    "Imath.C11_neg",
    "Imath.C11_abs",
    "Imath.C11_zero",
    "Imath.C11_swap",
    "Imath.C11_set_value",
    "Imath.C11_set_uvalue",
    "Imath.C11_init",
    "Imath.C11_init_size",
    "Imath.C11_init_copy",
    "Imath.C11_init_value",
    "Imath.C11_init_uvalue",
    "Imath.C11_clear"
   ],
   "note": ""
  },
  {
   "property": "C12",
   "status": "partial",
   "theorems": [
    "Imath.C12_canonical_partial",
    "Imath.C12_unique",
    "Imath.C09_negative_zero"
   ],
   "note": "For every program of admissible calls (Verif/SpecHistory.lean). False without the restriction: mp_int_div_pow2 can produce a negative zero."
  },
  {
   "property": "C13",
   "status": "partial",
   "theorems": [
    "Imath.C13_history_partial",
    "Imath.C13_from_start_partial",
    "Imath.C13_rat_history_partial",
    "Imath.C13_fake_min",
    "Imath.C13_init_size_max"
   ],
   "note": "For every program of admissible calls, with integers and with rationals, which may branch on what calls return. Witnesses of undefined behaviour outside: -2^63 as machine integer argument, mp_int_init_size(UINT_MAX), and those listed under C26, C29, C31, C33, C34."
  },
  {
   "property": "C14",
   "status": "partial",
   "theorems": [
    "Imath.C14_no_leak_partial",
    "Imath.C14_all_cleared_partial",
    "Imath.C14_rat_cleared_partial"
   ],
   "note": "For every program of admissible calls, with integers and with rationals, including error returns."
  },
  {
   "property": "C15",
   "status": "partial",
   "theorems": [
    "Imath.C15_frame_partial"
   ],
   "note": "For every admissible call."
  },
  {
   "property": "C16",
   "status": "partial",
   "theorems": [
    "Imath.C16_deterministic_partial",
    "Imath.C16_exact_partial",
    "Imath.C16_results_partial",
    "Imath.C16_tuning",
    "Imath.C16_rat_deterministic_partial"
   ],
   "note": "For all programs of admissible calls; not covered are calls that are not admissible. Rounding of double arithmetic is a parameter."
  },
  {
   "property": "C17",
   "status": "partial",
   "theorems": [
    "Imath.C17_expt_partial",
    "Imath.C17_expt_value_partial",
    "Imath.C17_expt_negative",
    "Imath.C17_expt_value_negative",
    "Imath.C17_expt_truncates",
    "Imath.C17_witness",
    "Imath.C17_expt_value_truncates",
    "Imath.C17_expt_value_negative_any"
   ],
   "note": "False in full: exponents are truncated to 32 bits."
  },
  {
   "property": "C18",
   "status": "partial",
   "theorems": [
    "Imath.C18_expt_full_partial",
    "Imath.C18_expt_full_negative",
    "Imath.C18_alias_witness",
    "Imath.C18_alias_small",
    "Imath.C18_alias_large"
   ],
   "note": "False in full: if the result variable is the exponent variable, the result is wrong (base of one digit) or the call exhausts memory (larger base); both are proved."
  },
  {
   "property": "C19",
   "status": "partial",
   "theorems": [
    "Imath.C19_exptmod_partial",
    "Imath.C19_exptmod_undef",
    "Imath.C19_exptmod_range",
    "Imath.C19_evalue_partial",
    "Imath.C19_bvalue_partial",
    "Imath.C19_witness",
    "Imath.C19_negative_modulus",
    "Imath.C19_negative_modulus_wrong",
    "Imath.C19_exptmod_negmod",
    "Imath.C19_evalue_negmod",
    "Imath.C19_bvalue_negmod",
    "Imath.C19_negmod_large",
    "Imath.C19_evalue_negative",
    "Imath.C19_bvalue_negative",
    "Imath.C19_exptmod_one",
    "Imath.C19_evalue_one",
    "Imath.C19_bvalue_one",
    "Imath.C19_exptmod_negative"
   ],
   "note": "False for the modulus 1 with exponent 0, where 1 is stored, and for negative moduli (not excluded by the documentation), where the result is given by negResult and is never a remainder; the value -2^63 as machine integer argument is undefined behaviour."
  },
  {
   "property": "C20",
   "status": "partial",
   "theorems": [
    "Imath.C20_redux_const_partial",
    "Imath.C20_exptmod_known_partial",
    "Imath.C20_compose_partial",
    "Imath.C20_known_undef",
    "Imath.C20_negative_witness",
    "Imath.C20_alias_witness",
    "Imath.C20_known_negmod",
    "Imath.C20_compose_sign",
    "Imath.C20_known_negative",
    "Imath.C20_known_one",
    "Imath.C20_redux_const_sign",
    "Imath.C20_redux_const_undef"
   ],
   "note": "False in full: mp_int_redux_const keeps the sign of the old value of its result variable; mp_int_exptmod_known is wrong if the result variable is that of the constant; modulus 1 with exponent 0 gives 1."
  },
  {
   "property": "C21",
   "status": "proved",
   "theorems": [
    "Imath.C21_gcd",
    "Imath.C21_gcd_zero"
   ],
   "note": ""
  },
  {
   "property": "C22",
   "status": "partial",
   "theorems": [
    "Imath.C22_egcd_abs",
    "Imath.C22_egcd_partial",
    "Imath.C22_negative",
    "Imath.C22_zero",
    "Imath.C22_witness",
    "Imath.C22_null_witness",
    "Imath.C22_left_zero",
    "Imath.C22_right_zero",
    "Imath.C22_left_zero_any",
    "Imath.C22_right_zero_any"
   ],
   "note": "Bezout's identity is proved for non-negative operands; the code establishes it for the absolute values, so it is false for negative operands. A NULL coefficient with a zero operand fails an assertion."
  },
  {
   "property": "C23",
   "status": "proved",
   "theorems": [
    "Imath.C23_lcm",
    "Imath.C23_lcm_zero",
    "Imath.C23_witness"
   ],
   "note": "The result is negative when exactly one operand is."
  },
  {
   "property": "C24",
   "status": "partial",
   "theorems": [
    "Imath.C24_invmod_partial",
    "Imath.C24_invmod_range",
    "Imath.C24_invmod_undef",
    "Imath.C24_witness",
    "Imath.C24_invmod_one"
   ],
   "note": "False only for negative a with m = 1, where 1 instead of 0 is stored."
  },
  {
   "property": "C25",
   "status": "partial",
   "theorems": [
    "Imath.C25_root_partial",
    "Imath.C25_root_undef",
    "Imath.C25_sqrt",
    "Imath.C25_witness",
    "Imath.C25_root_any",
    "Imath.C25_root_multiple",
    "Imath.C25_root_multiple_zero"
   ],
   "note": "mp_int_sqrt is proved in full; mp_int_root for exponents below 2^32. Beyond that the property is false: only the low 32 bits of the exponent count, and the exact outcome is proved for every exponent."
  },
  {
   "property": "C26",
   "status": "partial",
   "theorems": [
    "Imath.C26_to_int_partial",
    "Imath.C26_min_ub",
    "Imath.C26_to_uint",
    "Imath.C26_to_ints_partial",
    "Imath.C26_to_ints_min"
   ],
   "note": "False in full: mp_int_to_int has undefined behaviour for -2^63."
  },
  {
   "property": "C27",
   "status": "partial",
   "theorems": [
    "Imath.C27_is_pow2_partial",
    "Imath.C27_zero_witness",
    "Imath.C27_negative_witness",
    "Imath.C27_count_bits",
    "Imath.C27_is_odd",
    "Imath.C27_is_even",
    "Imath.C27_is_pow2_zero",
    "Imath.C27_is_pow2_negative"
   ],
   "note": "mp_int_is_pow2 reports 0 for zero and ignores the sign."
  },
  {
   "property": "C28",
   "status": "proved",
   "theorems": [
    "Imath.C28_to_string",
    "Imath.C28_to_string_trunc"
   ],
   "note": "For limits from 2 on, as the code asserts. With too small a limit one character more than the limit is written (C29)."
  },
  {
   "property": "C29",
   "status": "partial",
   "theorems": [
    "Imath.C29_to_string_limit_partial",
    "Imath.C29_to_string_overrun",
    "Imath.C29_witness",
    "Imath.C29_to_string_truncated",
    "Imath.C29_no_room"
   ],
   "note": "False: whenever the output does not fit a NUL is written at index limit; never more than that."
  },
  {
   "property": "C30",
   "status": "partial",
   "theorems": [
    "Imath.C30_string_len_partial",
    "Imath.C30_string_len_plus_one",
    "Imath.C30_string_of_partial",
    "Imath.C30_string_len_insufficient",
    "Imath.C30_string_len_insufficient_radix"
   ],
   "note": "False in full: in exactly 17 of the 35 radices the estimate is one too small for some integers, of which 13^5458 (radix 13) is the smallest. Proved for all integers in the other 18 radices, for all integers below 13^5458 in all radices, and with one character added always; for every rounding of double arithmetic."
  },
  {
   "property": "C31",
   "status": "partial",
   "theorems": [
    "Imath.C31_read_cstring_partial",
    "Imath.C31_every_string",
    "Imath.C31_read_cstring_overflow",
    "Imath.C31_unterminated"
   ],
   "note": "Proved for strings of at most 800000000 characters; for longer ones the size estimate can overflow (undefined behaviour)."
  },
  {
   "property": "C32",
   "status": "proved",
   "theorems": [
    "Imath.C32_round_trip"
   ],
   "note": ""
  },
  {
   "property": "C33",
   "status": "partial",
   "theorems": [
    "Imath.C33_binary_len",
    "Imath.C33_to_binary",
    "Imath.C33_read_binary_partial",
    "Imath.C33_read_binary_overflow",
    "Imath.C33_round_trip",
    "Imath.C33_read_binary_short"
   ],
   "note": "The round trip holds for all integers; reading is undefined behaviour for arrays of 2^28 bytes and more."
  },
  {
   "property": "C34",
   "status": "partial",
   "theorems": [
    "Imath.C34_unsigned_len",
    "Imath.C34_to_unsigned",
    "Imath.C34_read_unsigned_partial",
    "Imath.C34_read_unsigned_overflow",
    "Imath.C34_round_trip",
    "Imath.C34_read_unsigned_short"
   ],
   "note": "The round trip holds for all integers; reading is undefined behaviour for arrays of 2^28 bytes and more."
  },
  {
   "property": "C35",
   "status": "proved",
   "theorems": [
    "Imath.C35_to_binary",
    "Imath.C35_to_unsigned",
    "Imath.C35_limit_zero_witness",
    "Imath.C35_no_room",
    "Imath.C35_limit_zero"
   ],
   "note": ""
  },
  {
   "property": "C36",
   "status": "partial",
   "theorems": [
    "Imath.C36_error_string_partial",
    "Imath.C36_int_min"
   ],
   "note": "For the code -2^31 the negation overflows."
  },
  {
   "property": "C37",
   "status": "partial",
   "theorems": [
    "Imath.C37_history_partial",
    "Imath.C37_reduce_partial",
    "Imath.C37_reduce_zero"
   ],
   "note": "After every program of admissible calls with rationals and integers (Verif/SpecRatHistory.lean). False without the restriction: mp_rat_reduce with denominator zero, and the cases under C38 and C41."
  },
  {
   "property": "C38",
   "status": "partial",
   "theorems": [
    "Imath.C38_add",
    "Imath.C38_sub",
    "Imath.C38_mul",
    "Imath.C38_div",
    "Imath.C38_div_zero",
    "Imath.C38_add_int",
    "Imath.C38_sub_int",
    "Imath.C38_mul_int_partial",
    "Imath.C38_div_int_partial",
    "Imath.C38_div_int_zero",
    "Imath.C38_mul_int_alias",
    "Imath.C38_div_int_alias",
    "Imath.C38_neg",
    "Imath.C38_abs",
    "Imath.C38_recip",
    "Imath.C38_recip_zero",
    "Imath.C38_expt_partial",
    "Imath.C38_expt_negative",
    "Imath.C38_expt_wraps",
    "Imath.C38_copy",
    "Imath.C38_zero",
    "Imath.C38_set_value_partial",
    "Imath.C38_set_value_zero",
    "Imath.C38_set_uvalue",
    "Imath.C38_init",
    "Imath.C38_init_size",
    "Imath.C38_init_copy",
    "Imath.C38_clear",
    "Imath.C38_numer",
    "Imath.C38_denom",
    "Imath.C38_mul_int_part",
    "Imath.C38_div_int_part",
    "Imath.C38_div_int_zero_any",
    "Imath.C38_expt_residue",
    "Imath.C38_set_value_zero_any",
    "Imath.C38_set_uvalue_zero",
    "Imath.C38_set_value_min",
    "Imath.C38_init_size_max"
   ],
   "note": "False in two cases: mul_int and div_int with a part of the result as the integer; exponents from 2^32 on."
  },
  {
   "property": "C39",
   "status": "partial",
   "theorems": [
    "Imath.C39_compare",
    "Imath.C39_compare_unsigned",
    "Imath.C39_compare_zero",
    "Imath.C39_compare_value_partial",
    "Imath.C39_compare_value_zero",
    "Imath.C39_compare_value_min",
    "Imath.C39_is_integer",
    "Imath.C39_sign",
    "Imath.C39_compare_value_zero_any",
    "Imath.C39_compare_value_min_any"
   ],
   "note": "The value -2^63 is undefined behaviour in compare_value."
  },
  {
   "property": "C40",
   "status": "partial",
   "theorems": [
    "Imath.C40_to_decimal_partial",
    "Imath.C40_carry",
    "Imath.C40_room",
    "Imath.C40_large_precision",
    "Imath.C40_carry_exact",
    "Imath.C40_carry_always_wrong",
    "Imath.C40_bad_mode",
    "Imath.C40_mode_leaks",
    "Imath.C40_trunc_int",
    "Imath.C40_trunc_point",
    "Imath.C40_trunc_last",
    "Imath.C40_trunc_carry",
    "Imath.C40_small_limit",
    "Imath.C40_last_digit",
    "Imath.C40_short_int",
    "Imath.C40_short_frac",
    "Imath.C40_radix",
    "Imath.C40_radix_empty",
    "Imath.C40_big_trunc",
    "Imath.C40_big_fault"
   ],
   "note": "False in full: the text is wrong exactly when rounding carries into another digit position (C40_carry_exact gives the text written then, C40_carry_always_wrong shows that it is never right), and one character more than the output is needed. Proved for every rational, radix, precision and mode in all other cases. An unknown mode leaks the temporaries. What is written and returned with too little room, in every case: C40_trunc_*, C40_small_limit, C40_last_digit, C40_short_*; a radix out of range: C40_radix."
  },
  {
   "property": "C41",
   "status": "partial",
   "theorems": [
    "Imath.C41_to_string",
    "Imath.C41_to_string_trunc_partial",
    "Imath.C41_to_string_assert",
    "Imath.C41_read_string_partial",
    "Imath.C41_read_string_int_partial",
    "Imath.C41_read_string_unreduced",
    "Imath.C41_read_string_zero",
    "Imath.C41_round_trip_partial",
    "Imath.C41_read_decimal_partial",
    "Imath.C41_read_decimal_int_partial",
    "Imath.C41_read_decimal_no_end",
    "Imath.C41_to_string_mid",
    "Imath.C41_to_string_limit",
    "Imath.C41_to_string_short",
    "Imath.C41_read_fraction_partial",
    "Imath.C41_read_fraction_raw_partial",
    "Imath.C41_read_integer_partial",
    "Imath.C41_read_decimal_point_partial",
    "Imath.C41_unterminated",
    "Imath.C41_read_radix",
    "Imath.C41_to_string_trunc_num",
    "Imath.C41_to_string_trunc_den",
    "Imath.C41_read_decimal_radix"
   ],
   "note": "For strings of at most 800000000 characters. Witnesses: a buffer limit that fails an assertion; fractions followed by other characters are not reduced."
  },
  {
   "property": "C42",
   "status": "proved",
   "theorems": [
    "Imath.C42_is_prime",
    "Imath.C42_prime",
    "Imath.C42_rejects",
    "Imath.C42_below_million",
    "Imath.C42_pseudoprime"
   ],
   "note": "C42_is_prime says exactly which integers are accepted; the other theorems follow."
  },
  {
   "property": "C43",
   "status": "partial",
   "theorems": [
    "Imath.C43_find_prime_partial",
    "Imath.C43_start_below_three",
    "Imath.C43_two_is_accepted"
   ],
   "note": "Termination is proved for every start (Bertrand). False for starts below 3: the search then ends at 3, although 2 is accepted."
  },
  {
   "property": "C44",
   "status": "proved",
   "theorems": [
    "Imath.C44_round_trip",
    "Imath.C44_transform",
    "Imath.C44_range"
   ],
   "note": ""
  },
  {
   "property": "C45",
   "status": "partial",
   "theorems": [
    "Imath.C45_round_trip",
    "Imath.C45_encode",
    "Imath.C45_encode_range",
    "Imath.C45_decode",
    "Imath.C45_malformed_partial",
    "Imath.C45_no_separator",
    "Imath.C45_short_padding",
    "Imath.C45_max_message_len"
   ],
   "note": "The round trip is proved. Not every malformed buffer is refused: without a zero byte after the tag the search leaves the array; too short a padding is accepted."
  },
  {
   "property": "C46",
   "status": "partial",
   "theorems": [
    "Imath.C46_i2osp_partial",
    "Imath.C46_longer",
    "Imath.C46_overrun",
    "Imath.C46_os2ip_partial",
    "Imath.C46_os2ip_signed",
    "Imath.C46_shorter",
    "Imath.C46_overrun_witness"
   ],
   "note": "False: the comparison of lengths is the wrong way round, and octet strings are read as signed. Proved for the one length for which it works."
  },
  {
   "property": "C47",
   "status": "proved",
   "theorems": [
    "Imath.C47_cdiv_q",
    "Imath.C47_fdiv_q",
    "Imath.C47_tdiv_q",
    "Imath.C47_fdiv_r",
    "Imath.C47_fdiv_q_ui",
    "Imath.C47_zero_divisor"
   ],
   "note": ""
  },
  {
   "property": "C48",
   "status": "partial",
   "theorems": [
    "Imath.C48_get_ui",
    "Imath.C48_get_si_partial",
    "Imath.C48_get_si_min",
    "Imath.C48_addmul",
    "Imath.C48_submul",
    "Imath.C48_gcd",
    "Imath.C48_lcm",
    "Imath.C48_divisible_p",
    "Imath.C48_divexact",
    "Imath.C48_divexact_ui",
    "Imath.C48_add_ui",
    "Imath.C48_sub_ui",
    "Imath.C48_mul_ui",
    "Imath.C48_pow_ui",
    "Imath.C48_mul_2exp_partial",
    "Imath.C48_mul_2exp_large"
   ],
   "note": "False in two cases: get_si of -2^63 is undefined behaviour, mul_2exp reduces the exponent modulo 2^32."
  },
  {
   "property": "C49",
   "status": "partial",
   "theorems": [
    "Imath.C49_round_trip_partial",
    "Imath.C49_export_partial",
    "Imath.C49_import_partial",
    "Imath.C49_zero",
    "Imath.C49_zero_witness",
    "Imath.C49_size_zero"
   ],
   "note": "False for 0 (the variable is not set) and for words of 0 bytes. Proved for all other integers, every order, endianness and word size up to 2^33."
  },
  {
   "property": "C50",
   "status": "partial",
   "theorems": [
    "Imath.C50_oom_partial",
    "Imath.C50_abort_partial"
   ],
   "note": "For every program of admissible calls."
  },
  {
   "property": "C51",
   "status": "proved",
   "theorems": [
    "Imath.C51_arctan_error"
   ],
   "note": ""
  },
  {
   "property": "C52",
   "status": "partial",
   "theorems": [
    "Imath.C52_pi",
    "Imath.C52_not_digits",
    "Imath.C52_overrun",
    "Imath.C52_overrun_witness"
   ],
   "note": "False in full: the last digits printed may be wrong (11 digits in radix 10), and in radices 2 and 3 the buffer is overrun. C52_pi bounds the error for all other radices and all digit counts."
  },
  {
   "property": "C53",
   "status": "partial",
   "theorems": [
    "Imath.C53_string_len_partial",
    "Imath.C53_decimal_len_partial",
    "Imath.C53_string_len_insufficient",
    "Imath.C53_decimal_len_carry_partial",
    "Imath.C53_decimal_len_carry_short",
    "Imath.C53_string_len_bounds",
    "Imath.C53_decimal_len_bounds",
    "Imath.C53_len_radix"
   ],
   "note": "False for large numbers in some radices, as for integers (C30). Proved for every rational in the radices where the estimate is safe, and below 13^5458 in all radices; for decimals in the carrying case of C40 only if the numerator has two digits or more; with one digit the buffer can be too short (C53_decimal_len_carry_short)."
  },
  {
   "property": "C54",
   "status": "partial",
   "theorems": [
    "Imath.C54_randomize",
    "Imath.C54_seed_partial",
    "Imath.C54_all_values",
    "Imath.C54_few_bits"
   ],
   "note": "False for multiples of 8 bits (the highest bit is not set) and undefined for 0 bits. The stored value is described exactly for every other case."
  },
  {
   "property": "C55",
   "status": "partial",
   "theorems": [
    "Imath.C55_find_prime",
    "Imath.C55_find_strong_prime",
    "Imath.C55_randprime",
    "Imath.C55_randprime_strong",
    "Imath.C55_bits"
   ],
   "note": "The number of bits is not kept: seeds have one bit less, and the strong prime may have one more. The search for strong primes is shown to end if there is one (whether there always is, is open)."
  },
  {
   "property": "C56",
   "status": "partial",
   "theorems": [
    "Imath.C56_round_trip",
    "Imath.C56_same_primes"
   ],
   "note": "False: the two primes may be equal. Proved for all keys with two different primes."
  },
  {
   "property": "C57",
   "status": "partial",
   "theorems": [
    "Imath.C57_rsakey_partial",
    "Imath.C57_rsakey_random",
    "Imath.C57_overrun"
   ],
   "note": "False: an exponent longer than the modulus overruns the buffer, which can happen with random exponents. Proved whenever the exponent is not longer; this is always so with random exponents if half the number of bits is not a multiple of 8."
  },
  {
   "property": "C58",
   "status": "proved",
   "theorems": [
    "Imath.C58_reader_int",
    "Imath.C58_reader_fraction",
    "Imath.C58_reader_decimal",
    "Imath.C58_reader_lowest",
    "Imath.C58_read_int",
    "Imath.C58_read_fraction",
    "Imath.C58_read_fraction_string",
    "Imath.C58_read_decimal",
    "Imath.C58_read_decimal_string",
    "Imath.C58_read_text",
    "Imath.C58_read_text_lowest",
    "Imath.C58_zero_denominator"
   ],
   "note": "For texts of up to 800 000 000 characters. The reader itself is shown to read the numerals, fractions and decimals of Spec correctly."
  },
  {
   "property": "C59",
   "status": "partial",
   "theorems": [
    "Imath.C59_basecvt",
    "Imath.C59_basecvt_partial",
    "Imath.C59_basecvt_bad_radix",
    "Imath.C59_basecvt_overruns",
    "Imath.C59_input",
    "Imath.C59_input_partial",
    "Imath.C59_input_overruns"
   ],
   "note": "False: the buffer is too short for 13^5458 in radix 13. Proved for all arguments of up to 3906 characters, and for all longer ones whose numbers are not too long for mp_int_string_len."
  },
  {
   "property": "C60",
   "status": "partial",
   "theorems": [
    "Imath.C60_rounding_partial",
    "Imath.C60_carry_wrong",
    "Imath.C60_bad_mode_prints_garbage",
    "Imath.C60_bad_mode_overruns",
    "Imath.C60_bad_radix",
    "Imath.C60_carry_partial"
   ],
   "note": "False: carries are lost by mp_rat_to_decimal; with a bad mode the buffer is printed uninitialised. Proved for the four modes without carry; what is printed with a carry is given exactly for numerators of two or more digits."
  },
  {
   "property": "C61",
   "status": "partial",
   "theorems": [
    "Imath.C61_findprime_refuses",
    "Imath.C61_findprime_partial",
    "Imath.C61_findprime_4094",
    "Imath.C61_findprime_overruns"
   ],
   "note": "False: the buffer is overrun if the number found has more than 4095 digits. Proved for all others; the two cases are complementary."
  },
  {
   "property": "C62",
   "status": "proved",
   "theorems": [
    "Imath.C62_alloc_free",
    "Imath.C62_rat_alloc_free"
   ],
   "note": "The value given in between is any that mp_int_set_value takes."
  },
  {
   "property": "C63",
   "status": "proved",
   "theorems": [
    "Imath.C63_calculator"
   ],
   "note": "The options -h and -o and refused allocations are not covered. The radices in which the output buffer is long enough depend on floating-point-free library results given as a function L that is the same for all states, with bounds (Lib.Sound)."
  },
  {
   "property": "C64",
   "status": "proved",
   "theorems": [
    "Imath.C64_expression"
   ],
   "note": "For literals of up to 16382 characters and values of fewer than 2147483585 bits."
  },
  {
   "property": "C65",
   "status": "partial",
   "theorems": [
    "Imath.C65_root_aborts",
    "Imath.C65_min_undefined",
    "Imath.C65_expt_wraps",
    "Imath.C65_overrun",
    "Imath.C65_status",
    "Imath.C65_first_file",
    "Imath.C65_xgcd_negative",
    "Imath.C65_divmod_negative",
    "Imath.C65_emod_negative"
   ],
   "note": "False in each of these ways; what happens instead is shown in general."
  },
  {
   "property": "C66",
   "status": "partial",
   "theorems": [
    "Imath.C66_timer_partial",
    "Imath.C66_top_digit",
    "Imath.C66_wrong_arguments",
    "Imath.C66_default_threshold_aborts",
    "Imath.C66_default_precision_undefined",
    "Imath.C66_zero_top_digit_diverges",
    "Imath.C66_shift_of_zero"
   ],
   "note": "False: aborts without option -t, undefined with precision 0, loops for ever if a modulus with top digit 0 is drawn. Proved for all other arguments and sequences."
  },
  {
   "property": "C67",
   "status": "partial",
   "theorems": [
    "Imath.C67_bug_swap",
    "Imath.C67_bug_qread_partial",
    "Imath.C67_bug_qread_status",
    "Imath.C67_bug_qread_error_ok"
   ],
   "note": "False for the status and the OK line of bug-qread, which do not depend on the tests; the ERROR lines are right for every table."
  },
  {
   "property": "C68",
   "status": "partial",
   "theorems": [
    "Imath.C68_bintest_partial",
    "Imath.C68_bintest_rest"
   ],
   "note": "False: numbers with 512 or more decimal characters (and up to 512 bytes) are written beyond the array. The cases are complete."
  },
  {
   "property": "C69",
   "status": "proved",
   "theorems": [
    "Imath.C69_rtest",
    "Imath.C69_random_fill",
    "Imath.C69_rtest_refused",
    "Imath.C69_zero_filler"
   ],
   "note": "All lengths are covered. The filler of the program meets the hypothesis of C69_rtest if the generator does not return multiples of 256 for ever."
  },
  {
   "property": "C70",
   "status": "partial",
   "theorems": [
    "Imath.C70_trim_line",
    "Imath.C70_strip",
    "Imath.C70_trim_line_as_documented_iff",
    "Imath.C70_trim_line_violation",
    "Imath.C70_trim_line_again",
    "Imath.C70_trim_line_newline"
   ],
   "note": "False: white space at the start is removed only if there is some at the end, too; otherwise the end of the text is repeated. What happens is given for every text, with the exact condition for the documented behaviour."
  },
  {
   "property": "C71",
   "status": "partial",
   "theorems": [
    "Imath.C71_parts",
    "Imath.C71_parse_line_syntax",
    "Imath.C71_parse_line",
    "Imath.C71_parse_line_overflow"
   ],
   "note": "False: a list that ends with a comma overruns an array. The cases are complete."
  },
  {
   "property": "C72",
   "status": "partial",
   "theorems": [
    "Imath.C72_run_test_partial",
    "Imath.C72_decided",
    "Imath.C72_numerals",
    "Imath.C72_add",
    "Imath.C72_mul",
    "Imath.C72_qadd",
    "Imath.C72_qdiv",
    "Imath.C72_qmulz_overwritten",
    "Imath.C72_egcd_any",
    "Imath.C72_cmpv_tag",
    "Imath.C72_meta",
    "Imath.C72_mulp2_truncated"
   ],
   "note": "Proved for all texts and 52 of the tests, including those of rational numbers and meta; left open are initu and initv, and for divp2 and qtodec some operands. False as a statement about what a test checks: egcd is passed whatever is expected (C72_egcd_any), cmpv compares with another number than the one read (C72_cmpv_tag), qmulz with the result in place of the integer multiplies by the numerator (C72_qmulz_overwritten)."
  },
  {
   "property": "C73",
   "status": "partial",
   "theorems": [
    "Imath.C73_driver_partial",
    "Imath.C73_report",
    "Imath.C73_status",
    "Imath.C73_missing",
    "Imath.C73_negative",
    "Imath.C73_twice"
   ],
   "note": "Proved for all files and arguments whose tests are not left open by C72. False: the number of tests passed can be negative, and naming the standard input twice is undefined behaviour."
  },
  {
   "property": "C74",
   "status": "partial",
   "theorems": [
    "Imath.C74_abs",
    "Imath.C74_neg",
    "Imath.C74_set",
    "Imath.C74_add",
    "Imath.C74_sub",
    "Imath.C74_mul",
    "Imath.C74_swap",
    "Imath.C74_set_si_partial",
    "Imath.C74_set_si_min",
    "Imath.C74_set_ui",
    "Imath.C74_init",
    "Imath.C74_clear",
    "Imath.C74_cmp",
    "Imath.C74_cmpabs",
    "Imath.C74_cmp_si",
    "Imath.C74_sgn",
    "Imath.C74_q_init",
    "Imath.C74_q_clear",
    "Imath.C74_q_set",
    "Imath.C74_q_mul",
    "Imath.C74_q_cmp",
    "Imath.C74_q_sgn",
    "Imath.C74_q_set_ui",
    "Imath.C74_q_set_ui_zero",
    "Imath.C74_q_canonicalize_partial",
    "Imath.C74_q_canonicalize_zero"
   ],
   "note": "False for set_si of LONG_MIN (undefined), set_ui with denominator 0 (assertion) and canonicalize of n/0. All other functions and arguments are covered; for rationals the variables must be equal or disjoint."
  },
  {
   "property": "C75",
   "status": "partial",
   "theorems": [
    "Imath.C75_get_str_partial",
    "Imath.C75_get_str_overrun",
    "Imath.C75_q_get_str_partial",
    "Imath.C75_q_get_str_junk",
    "Imath.C75_set_str_partial",
    "Imath.C75_set_str_base",
    "Imath.C75_round_trip_partial",
    "Imath.C75_q_set_str_partial",
    "Imath.C75_sizeinbase_partial",
    "Imath.C75_sizeinbase_pow2_partial",
    "Imath.C75_sizeinbase_zero",
    "Imath.C75_sizeinbase_short"
   ],
   "note": "False: get_str(NULL) overruns its array for 13^5458 in radix 13, impq_get_str(NULL) may pass uninitialised characters to toupper; sizeinbase can be too small. Proved otherwise, for numbers up to 2^25 bits and texts up to 800000000 characters."
  },
  {
   "property": "C76",
   "status": "partial",
   "theorems": [
    "Imath.C76_history_partial",
    "Imath.C76_canonical_partial",
    "Imath.C76_abort_partial",
    "Imath.C76_no_leak_partial",
    "Imath.C76_results_partial",
    "Imath.C76_deterministic_partial",
    "Imath.C76_frame_partial",
    "Imath.C76_euclid"
   ],
   "note": "For the calls with a rule in SpecGmpHistory, SpecHistory and SpecRatHistory. Arguments for which a function is undefined or aborts are not admissible (witnesses are with the theorems on the functions); streams, the calculator and the test driver are separate."
  },
  {
   "property": "C77",
   "status": "partial",
   "theorems": [
    "Imath.C77_ready",
    "Imath.C77_breaks",
    "Imath.C77_exhausts",
    "Imath.C77_classified_partial",
    "Imath.C77_exclusive",
    "Imath.C77_history"
   ],
   "note": "Calls that are ready are right, calls that break fault, for all values. Left open (Call.Open): remainders of mp_int_div_pow2 that are a negative zero, another constant given to mp_int_exptmod_known, texts whose terminator comes after more than 800 million characters, mp_int_to_unsigned with a limit of 0 or less, the default precision 2^32-1. False as stated for mp_int_expt_full whose result variable is the exponent: the number grows until memory is exhausted (C77_exhausts)."
  },
  {
   "property": "C78",
   "status": "partial",
   "theorems": [
    "Imath.C78_ready",
    "Imath.C78_breaks",
    "Imath.C78_raw",
    "Imath.C78_classified_partial",
    "Imath.C78_exclusive",
    "Imath.C78_arithmetic",
    "Imath.C78_history",
    "Imath.C78_leaks",
    "Imath.C78_on_int"
   ],
   "note": "Calls that are ready are right, calls that break fault, raw texts store what is stated, an unknown rounding mode is reported (the temporaries are leaked), calls on the parts of rationals are right as calls on integers, for all values. Left open (QCall.Open): the lengths of texts of more than two billion bits or places, texts of more than 800 million characters, and what C77 leaves open."
  },
  {
   "property": "C79",
   "status": "partial",
   "theorems": [
    "Imath.C79_round_trip_partial",
    "Imath.C79_exact",
    "Imath.C79_error",
    "Imath.C79_carry",
    "Imath.C79_carry_exact",
    "Imath.C79_carry_off",
    "Imath.C79_idempotent",
    "Imath.C79_monotone",
    "Imath.C79_buffer_partial",
    "Imath.C79_reader_text",
    "Imath.C79_ustring_partial"
   ],
   "note": "Proved unless rounding carries into another digit position, where the code writes the digits in the wrong places: C79_carry_exact and C79_carry_off give the value that is read back and its distance, and C79_carry shows 99/100 to one place written as 0.10 and read back as 1/10. Texts of more than 800 million characters are left out."
  }
 ]
}