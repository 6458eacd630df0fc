{"id": "C01", "title": "Addition is exact, under every aliasing", "statement": "After mp_int_add(a,b,c) returns MP_OK, the value of c equals the old value of a plus the old value of b, for any sharing among a, b, c (including a==b==c); no other integer changes value. The call only ever returns MP_OK, or aborts because malloc refused memory. Same for mp_int_add_value with any value other than MP_SMALL_MIN.", "quantifier": "all well-formed memories, all integers of any size and sign, all aliasing patterns of the three arguments, all contents of uninitialised memory, all allocator behaviours", "why_tests_cant": "Values have unbounded size; carries, digit boundaries and aliasing patterns form an infinite family that a test suite only samples.", "anchors": ["imath.c:mp_int_add", "imath.c:mp_int_add_value", "imath.c:s_uadd", "imath.c:s_usub", "imath.c:s_pad", "imath.c:s_fake"]}
{"id": "C02", "title": "Subtraction is exact, under every aliasing", "statement": "After mp_int_sub(a,b,c) returns MP_OK the value of c equals old a minus old b, whatever arguments coincide; nothing else changes value. Same for mp_int_sub_value.", "quantifier": "all well-formed memories, integers, aliasing patterns, allocator behaviours", "why_tests_cant": "Values have unbounded size; carries, digit boundaries and aliasing patterns form an infinite family that a test suite only samples.", "anchors": ["imath.c:mp_int_sub", "imath.c:mp_int_sub_value", "imath.c:s_usub"]}
{"id": "C03", "title": "Multiplication is exact at every size and threshold", "statement": "After mp_int_mul(a,b,c) returns MP_OK the value of c equals old a times old b, for every operand size, for every multiply threshold accepted by mp_int_multiply_threshold (so across the schoolbook/Karatsuba switch and all recursion shapes), whatever arguments coincide. Same for mp_int_mul_value.", "quantifier": "all integers, all thresholds >= 8, all aliasing patterns, all allocator behaviours", "why_tests_cant": "The Karatsuba recursion has infinitely many split shapes, and the thresholds are run-time parameters; tests cover few shapes.", "anchors": ["imath.c:mp_int_mul", "imath.c:mp_int_mul_value", "imath.c:s_kmul", "imath.c:s_umul", "imath.c:mp_int_multiply_threshold"]}
{"id": "C04", "title": "Squaring is exact at every size and threshold", "statement": "After mp_int_sqr(a,c) returns MP_OK the value of c equals the square of old a (c may be a), for every operand size and every accepted multiply threshold.", "quantifier": "all integers, thresholds >= 8, both aliasing patterns", "why_tests_cant": "Values have unbounded size; carries, digit boundaries and aliasing patterns form an infinite family that a test suite only samples.", "anchors": ["imath.c:mp_int_sqr", "imath.c:s_ksqr", "imath.c:s_usqr"]}
{"id": "C05", "title": "Division: quotient and remainder", "statement": "mp_int_div(a,b,q,r) returns MP_UNDEF and changes nothing when b is zero. Otherwise it returns MP_OK with a = q*b + r, |r| < |b|, q truncated toward zero and r having the sign of a (or zero), with q or r optionally NULL, and with q, r allowed to coincide with a or b.", "quantifier": "all integers a, b, all NULL choices, all aliasing patterns with q != r", "why_tests_cant": "Knuth's algorithm D has rare correction branches (probability about 2/2^32) that random tests practically never reach.", "anchors": ["imath.c:mp_int_div", "imath.c:s_udiv_knuth", "imath.c:s_ddiv", "imath.c:s_norm", "imath.c:s_isp2", "imath.c:s_qdiv", "imath.c:s_qmod"]}
{"id": "C06", "title": "Documented range of the division remainder", "statement": "imath.h says of mp_int_div and mp_int_div_value that the remainder is pinned to 0 <= r < b.", "quantifier": "all integers a and b", "why_tests_cant": "A universally quantified documentation claim; the tests record the actual results and do not check the claim.", "anchors": ["imath.h:mp_int_div", "imath.h:mp_int_div_value", "imath.c:mp_int_div"]}
{"id": "C07", "title": "Division by a small value", "statement": "mp_int_div_value(a,v,q,r) returns MP_UNDEF when v is zero; otherwise it stores the truncated quotient of a by v in q (if not NULL) and the matching remainder in *r (if not NULL) for every v other than MP_SMALL_MIN. mp_int_mod_value and mp_int_divisible_value agree with it: divisible reports exactly whether v divides a.", "quantifier": "all integers a, all machine values v except MP_SMALL_MIN", "why_tests_cant": "Values have unbounded size; carries, digit boundaries and aliasing patterns form an infinite family that a test suite only samples.", "anchors": ["imath.c:mp_int_div_value", "imath.h:mp_int_mod_value", "imath.c:mp_int_divisible_value", "imath.c:s_fake", "imath.c:mp_int_to_int"]}
{"id": "C08", "title": "Modular reduction", "statement": "mp_int_mod(a,m,c) with m > 0 returns MP_OK and sets c to the unique residue with 0 <= c < m congruent to a; with m = 0 it returns MP_UNDEF. a, m, c may coincide.", "quantifier": "all integers a, all m, all aliasing patterns", "why_tests_cant": "Values have unbounded size; carries, digit boundaries and aliasing patterns form an infinite family that a test suite only samples.", "anchors": ["imath.c:mp_int_mod"]}
{"id": "C09", "title": "Multiplying and dividing by powers of two", "statement": "mp_int_mul_pow2(a,p,c) sets c to a*2^p for every p >= 0; mp_int_div_pow2(a,p,q,r) sets q to a/2^p truncated toward zero and r to the remainder, leaving canonical values.", "quantifier": "all integers a and all exponents p >= 0 of type mp_small", "why_tests_cant": "Values have unbounded size; carries, digit boundaries and aliasing patterns form an infinite family that a test suite only samples.", "anchors": ["imath.c:mp_int_mul_pow2", "imath.c:mp_int_div_pow2", "imath.c:s_qmul", "imath.c:s_qdiv", "imath.c:s_qmod"]}
{"id": "C10", "title": "Comparison is the order of the integers", "statement": "mp_int_compare, mp_int_compare_unsigned, mp_int_compare_zero, mp_int_compare_value and mp_int_compare_uvalue return a negative, zero or positive result exactly as the first value (magnitude) is less than, equal to or greater than the second, and change nothing; this includes v = MP_SMALL_MIN.", "quantifier": "all integers and all machine values", "why_tests_cant": "Values have unbounded size; carries, digit boundaries and aliasing patterns form an infinite family that a test suite only samples.", "anchors": ["imath.c:mp_int_compare", "imath.c:mp_int_compare_unsigned", "imath.c:mp_int_compare_zero", "imath.c:mp_int_compare_value", "imath.c:mp_int_compare_uvalue", "imath.c:s_ucmp", "imath.c:s_cdig"]}
{"id": "C11", "title": "Copy, negate, absolute value, zero, swap, set", "statement": "mp_int_copy, mp_int_neg, mp_int_abs, mp_int_zero, mp_int_swap, mp_int_set_value, mp_int_set_uvalue and the init functions give their targets exactly the documented value, also when source and target coincide, and leave every other integer unchanged.", "quantifier": "all integers, machine values (except MP_SMALL_MIN for signed setters) and aliasing patterns", "why_tests_cant": "Values have unbounded size; carries, digit boundaries and aliasing patterns form an infinite family that a test suite only samples.", "anchors": ["imath.c:mp_int_copy", "imath.c:mp_int_neg", "imath.c:mp_int_abs", "imath.c:mp_int_zero", "imath.c:mp_int_swap", "imath.c:mp_int_set_value", "imath.c:mp_int_set_uvalue", "imath.c:mp_int_init_copy", "imath.c:mp_int_init_size"]}
{"id": "C12", "title": "Canonical representation is an invariant", "statement": "After any sequence of successful calls every initialised integer has no leading zero digits and zero is never negative, so equal values have equal representations.", "quantifier": "all call histories", "why_tests_cant": "Quantifies over all finite sequences of API calls.", "anchors": ["imath.c:CLAMP", "imath.c:mp_int_add", "imath.c:mp_int_mul", "imath.c:mp_int_div", "imath.c:mp_int_div_pow2"]}
{"id": "C13", "title": "Memory safety of every call history", "statement": "Starting from initialised integers, no sequence of arithmetic calls reads or writes outside a live digit buffer, uses a freed buffer, frees twice, trips an internal assertion or executes undefined shifts, whatever malloc returns and whatever uninitialised memory contains; the only abnormal end is the out-of-memory assertion.", "quantifier": "all call histories, all inputs, all allocator behaviours", "why_tests_cant": "Sanitised tests only observe the executed paths; buffer-size arithmetic must hold for every size.", "anchors": ["imath.c:s_pad", "imath.c:s_alloc", "imath.c:s_realloc", "imath.c:s_kmul", "imath.c:s_udiv_knuth"]}
{"id": "C14", "title": "No leaks", "statement": "When a call returns, the live digit buffers are exactly the ones owned by initialised integers: temporaries are released on every return path, including error returns.", "quantifier": "all call histories and all return paths", "why_tests_cant": "Needs every path, including error paths.", "anchors": ["imath.c:DECLARE_TEMP", "imath.c:CLEANUP_TEMP", "imath.c:mp_int_clear", "imath.c:mp_int_mul"]}
{"id": "C15", "title": "Only the output arguments change", "statement": "Every call leaves the value of each integer that is not one of its output arguments unchanged.", "quantifier": "all calls, all states with arbitrarily many other integers", "why_tests_cant": "Values have unbounded size; carries, digit boundaries and aliasing patterns form an infinite family that a test suite only samples.", "anchors": ["imath.c"]}
{"id": "C16", "title": "Results do not depend on uninitialised memory or tuning", "statement": "Results do not depend on the contents of freshly allocated memory, on previously allocated capacity, on mp_int_default_precision or on mp_int_multiply_threshold.", "quantifier": "all junk contents, capacities, precisions and thresholds", "why_tests_cant": "Junk contents and capacities range over an unbounded space.", "anchors": ["imath.c:default_precision", "imath.c:multiply_threshold", "imath.c:s_alloc"]}
{"id": "C17", "title": "Powers", "statement": "mp_int_expt(a,b,c) and mp_int_expt_value(a,b,c) return MP_RANGE for b < 0 and otherwise set c to a^b, for every b of type mp_small; c may be a.", "quantifier": "all integers a and all b of type mp_small", "why_tests_cant": "Values have unbounded size; carries, digit boundaries and aliasing patterns form an infinite family that a test suite only samples.", "anchors": ["imath.c:mp_int_expt", "imath.c:mp_int_expt_value"]}
{"id": "C18", "title": "Powers with big exponent", "statement": "mp_int_expt_full(a,b,c) returns MP_RANGE for b < 0 and otherwise sets c to a^b; per doc.md the same variable may be used for inputs and output.", "quantifier": "all integers a, b and all aliasing patterns", "why_tests_cant": "Values have unbounded size; carries, digit boundaries and aliasing patterns form an infinite family that a test suite only samples.", "anchors": ["imath.c:mp_int_expt_full", "doc.md.in"]}
{"id": "C19", "title": "Modular powers", "statement": "mp_int_exptmod(a,b,m,c) returns MP_UNDEF when m is zero, MP_RANGE when b < 0, and otherwise (m > 0) sets c to the residue of a^b in [0,m); the _evalue, _bvalue variants agree. Any arguments may coincide.", "quantifier": "all integers a, all b >= 0, all m > 0, all aliasing patterns", "why_tests_cant": "Barrett reduction is exact only up to two corrections that random tests rarely exercise.", "anchors": ["imath.c:mp_int_exptmod", "imath.c:mp_int_exptmod_evalue", "imath.c:mp_int_exptmod_bvalue", "imath.c:s_embar", "imath.c:s_reduce", "imath.c:s_brmu", "imath.c:s_qsub"]}
{"id": "C20", "title": "Modular powers with precomputed constant", "statement": "mp_int_redux_const(m,c) sets c to floor(B^(2k)/m) with k the digit count of m; mp_int_exptmod_known with that constant gives the same result as mp_int_exptmod.", "quantifier": "all m > 0, all a, all b >= 0", "why_tests_cant": "Values have unbounded size; carries, digit boundaries and aliasing patterns form an infinite family that a test suite only samples.", "anchors": ["imath.c:mp_int_redux_const", "imath.c:mp_int_exptmod_known", "imath.c:s_2expt"]}
{"id": "C21", "title": "Greatest common divisor", "statement": "mp_int_gcd(a,b,c) returns MP_UNDEF when a = b = 0, and otherwise terminates and sets c to the (positive) gcd, whatever arguments coincide.", "quantifier": "all integers a, b and aliasing patterns", "why_tests_cant": "Termination and correctness of the binary loop over all inputs.", "anchors": ["imath.c:mp_int_gcd", "imath.c:s_dp2k"]}
{"id": "C22", "title": "Extended gcd satisfies Bezout's identity", "statement": "mp_int_egcd(a,b,c,x,y) sets c to gcd(a,b) and x, y to values with c = a*x + b*y.", "quantifier": "all integers a, b", "why_tests_cant": "Termination and the loop invariant over all inputs; the documentation claim covers negative inputs.", "anchors": ["imath.c:mp_int_egcd"]}
{"id": "C23", "title": "Least common multiple", "statement": "mp_int_lcm(a,b,c) returns MP_UNDEF when a = b = 0 and otherwise sets c to a value whose magnitude is the lcm of |a| and |b| (sign of a*b).", "quantifier": "all integers a, b and aliasing patterns", "why_tests_cant": "Values have unbounded size; carries, digit boundaries and aliasing patterns form an infinite family that a test suite only samples.", "anchors": ["imath.c:mp_int_lcm"]}
{"id": "C24", "title": "Modular inverse", "statement": "mp_int_invmod(a,m,c) returns MP_RANGE if a = 0 or m <= 0, MP_UNDEF if gcd(a,m) != 1, and otherwise sets c to the least non-negative c with a*c = 1 mod m.", "quantifier": "all integers a, m and aliasing patterns", "why_tests_cant": "Values have unbounded size; carries, digit boundaries and aliasing patterns form an infinite family that a test suite only samples.", "anchors": ["imath.c:mp_int_invmod"]}
{"id": "C25", "title": "Integer roots", "statement": "mp_int_root(a,b,c) (and mp_int_sqrt) with b > 0 returns MP_UNDEF for a < 0 with b even, and otherwise terminates with c = sign(a)*floor(|a|^(1/b)).", "quantifier": "all integers a, all b > 0", "why_tests_cant": "Newton iteration: termination and exactness for every input.", "anchors": ["imath.c:mp_int_root", "imath.h:mp_int_sqrt"]}
{"id": "C26", "title": "Conversion to machine integers", "statement": "mp_int_to_int and mp_int_to_uint return MP_OK and the exact value precisely when the value is representable, and MP_RANGE otherwise.", "quantifier": "all integers", "why_tests_cant": "Values have unbounded size; carries, digit boundaries and aliasing patterns form an infinite family that a test suite only samples.", "anchors": ["imath.c:mp_int_to_int", "imath.c:mp_int_to_uint"]}
{"id": "C27", "title": "Power-of-two test, bit count, parity", "statement": "mp_int_is_pow2(z) returns k when z = 2^k and -1 otherwise; mp_int_count_bits(z) is the bit length of |z| (1 for zero); mp_int_is_odd/is_even report parity.", "quantifier": "all integers", "why_tests_cant": "Values have unbounded size; carries, digit boundaries and aliasing patterns form an infinite family that a test suite only samples.", "anchors": ["imath.c:mp_int_is_pow2", "imath.c:s_isp2", "imath.c:mp_int_count_bits", "imath.h:mp_int_is_odd"]}
{"id": "C28", "title": "Conversion to strings", "statement": "mp_int_to_string(z,r,str,limit) with a large enough limit writes the canonical numeral of z in radix r (upper-case digits, '-' for negatives, no leading zeros, NUL-terminated) and returns MP_OK; with too small a limit it returns MP_TRUNC.", "quantifier": "all integers, all radixes 2..36, all limits", "why_tests_cant": "Values have unbounded size; carries, digit boundaries and aliasing patterns form an infinite family that a test suite only samples.", "anchors": ["imath.c:mp_int_to_string", "imath.c:s_ddiv", "imath.c:s_val2ch"]}
{"id": "C29", "title": "String output respects the limit", "statement": "mp_int_to_string never writes more than limit characters including the terminating NUL.", "quantifier": "all integers, radixes and limits", "why_tests_cant": "A claim about every limit, in particular the too-small ones.", "anchors": ["imath.h:mp_int_to_string", "imath.c:mp_int_to_string"]}
{"id": "C30", "title": "String length is sufficient", "statement": "A buffer of mp_int_string_len(z,r) characters always suffices for mp_int_to_string(z,r).", "quantifier": "all integers and radixes", "why_tests_cant": "The estimate uses floating point and a rounded table of logarithms; failures appear only at huge sizes.", "anchors": ["imath.c:mp_int_string_len", "imath.c:s_outlen", "imath.c:s_log2"]}
{"id": "C31", "title": "Reading strings", "statement": "mp_int_read_cstring(z,r,str,end) skips leading white space, takes an optional sign, reads the longest run of radix-r digits (case-insensitive), sets z to the denoted value, sets *end to the first unread character, and returns MP_OK exactly when the whole string was used, else MP_TRUNC; the digit buffer reserved from the floating-point estimate is always large enough.", "quantifier": "all NUL-terminated strings and radixes 2..36", "why_tests_cant": "Values have unbounded size; carries, digit boundaries and aliasing patterns form an infinite family that a test suite only samples.", "anchors": ["imath.c:mp_int_read_cstring", "imath.c:mp_int_read_string", "imath.c:s_inlen", "imath.c:s_ch2val", "imath.c:s_dmul", "imath.c:s_dadd"]}
{"id": "C32", "title": "String round trip", "statement": "Reading the string produced by mp_int_to_string gives back the same value.", "quantifier": "all integers and radixes", "why_tests_cant": "Values have unbounded size; carries, digit boundaries and aliasing patterns form an infinite family that a test suite only samples.", "anchors": ["imath.c:mp_int_to_string", "imath.c:mp_int_read_string"]}
{"id": "C33", "title": "Two's complement round trip", "statement": "mp_int_to_binary with limit >= mp_int_binary_len(z) returns MP_OK and writes a big-endian two's complement encoding from which mp_int_read_binary recovers z; read_binary restores the caller's buffer.", "quantifier": "all integers, all byte strings, all limits", "why_tests_cant": "Values have unbounded size; carries, digit boundaries and aliasing patterns form an infinite family that a test suite only samples.", "anchors": ["imath.c:mp_int_to_binary", "imath.c:mp_int_read_binary", "imath.c:mp_int_binary_len", "imath.c:s_tobin", "imath.c:s_2comp"]}
{"id": "C34", "title": "Unsigned binary round trip", "statement": "mp_int_to_unsigned with limit >= mp_int_unsigned_len(z) writes the big-endian magnitude of z, from which mp_int_read_unsigned recovers |z|; any byte string reads as its base-256 value.", "quantifier": "all integers, all byte strings", "why_tests_cant": "Values have unbounded size; carries, digit boundaries and aliasing patterns form an infinite family that a test suite only samples.", "anchors": ["imath.c:mp_int_to_unsigned", "imath.c:mp_int_read_unsigned", "imath.c:mp_int_unsigned_len", "imath.c:s_tobin"]}
{"id": "C35", "title": "Binary output truncation", "statement": "mp_int_to_binary and mp_int_to_unsigned never write more than limit bytes, and return MP_TRUNC exactly when limit is smaller than the required length.", "quantifier": "all integers and limits >= 1", "why_tests_cant": "Values have unbounded size; carries, digit boundaries and aliasing patterns form an infinite family that a test suite only samples.", "anchors": ["imath.c:s_tobin"]}
{"id": "C36", "title": "Error strings are total", "statement": "mp_error_string returns one of the documented static strings for every result code, reading only inside its table.", "quantifier": "all int codes", "why_tests_cant": "Out-of-range indices must be safe for every int.", "anchors": ["imath.c:mp_error_string"]}
{"id": "C37", "title": "Rationals stay in lowest terms", "statement": "Every successful rational operation leaves the denominator positive and coprime to the numerator, and zero as 0/1.", "quantifier": "all call histories on rationals", "why_tests_cant": "Values have unbounded size; carries, digit boundaries and aliasing patterns form an infinite family that a test suite only samples.", "anchors": ["imrat.c:s_rat_reduce", "imrat.c:s_rat_combine", "imrat.c:mp_rat_set_value"]}
{"id": "C38", "title": "Rational arithmetic is exact", "statement": "mp_rat_add, sub, mul, div, add_int, sub_int, mul_int, div_int, neg, abs, recip, expt compute the exact rational results under every aliasing, returning MP_UNDEF exactly for division by zero (reciprocal of zero).", "quantifier": "all rationals, all aliasing patterns", "why_tests_cant": "Values have unbounded size; carries, digit boundaries and aliasing patterns form an infinite family that a test suite only samples.", "anchors": ["imrat.c:mp_rat_add", "imrat.c:mp_rat_sub", "imrat.c:mp_rat_mul", "imrat.c:mp_rat_div", "imrat.c:mp_rat_recip", "imrat.c:mp_rat_expt"]}
{"id": "C39", "title": "Rational comparison", "statement": "mp_rat_compare, compare_unsigned, compare_zero, compare_value order rationals by value; mp_rat_is_integer holds exactly for integral values.", "quantifier": "all canonical rationals", "why_tests_cant": "Values have unbounded size; carries, digit boundaries and aliasing patterns form an infinite family that a test suite only samples.", "anchors": ["imrat.c:mp_rat_compare", "imrat.c:mp_rat_compare_unsigned", "imrat.c:mp_rat_compare_value", "imrat.c:mp_rat_is_integer"]}
{"id": "C40", "title": "Rational decimal output rounds correctly", "statement": "mp_rat_to_decimal writes the value rounded to prec places in the requested mode.", "quantifier": "all rationals, radixes, precisions and rounding modes", "why_tests_cant": "Carries out of the fractional part happen only for rare values.", "anchors": ["imrat.c:mp_rat_to_decimal"]}
{"id": "C41", "title": "Rational string round trip", "statement": "mp_rat_read_string of the output of mp_rat_to_string recovers the value; mp_rat_read_decimal reads z.ffff exactly.", "quantifier": "all rationals and radixes, all strings", "why_tests_cant": "Values have unbounded size; carries, digit boundaries and aliasing patterns form an infinite family that a test suite only samples.", "anchors": ["imrat.c:mp_rat_to_string", "imrat.c:mp_rat_read_cstring", "imrat.c:mp_rat_read_cdecimal"]}
{"id": "C42", "title": "Primality test never rejects a prime", "statement": "mp_int_is_prime returns MP_TRUE for every prime; it returns MP_FALSE only for values below 2 or composite.", "quantifier": "all integers", "why_tests_cant": "Values have unbounded size; carries, digit boundaries and aliasing patterns form an infinite family that a test suite only samples.", "anchors": ["iprime.c:mp_int_is_prime"]}
{"id": "C43", "title": "Prime search terminates on the first accepted candidate", "statement": "mp_int_find_prime terminates, and the result is the first value accepted by mp_int_is_prime at or above the starting value.", "quantifier": "all starting values", "why_tests_cant": "Values have unbounded size; carries, digit boundaries and aliasing patterns form an infinite family that a test suite only samples.", "anchors": ["iprime.c:mp_int_find_prime"]}
{"id": "C44", "title": "RSA primitives invert each other", "statement": "For n = p*q with distinct primes and e*d = 1 mod lcm(p-1,q-1), rsa_rsadp(rsa_rsaep(m)) = m for every 0 <= m < n; out-of-range messages give MP_RANGE.", "quantifier": "all keys and messages", "why_tests_cant": "Values have unbounded size; carries, digit boundaries and aliasing patterns form an infinite family that a test suite only samples.", "anchors": ["rsamath.c:rsa_rsaep", "rsamath.c:rsa_rsadp", "rsamath.c:s_rsa_transform"]}
{"id": "C45", "title": "PKCS#1 v1.5 padding round trip", "statement": "rsa_pkcs1v15_decode inverts rsa_pkcs1v15_encode for every message that fits and every non-zero filler; malformed buffers give MP_UNDEF.", "quantifier": "all messages, fillers, buffer sizes, all malformed buffers", "why_tests_cant": "Values have unbounded size; carries, digit boundaries and aliasing patterns form an infinite family that a test suite only samples.", "anchors": ["rsamath.c:rsa_pkcs1v15_encode", "rsamath.c:rsa_pkcs1v15_decode"]}
{"id": "C46", "title": "Integer to octet string conversion", "statement": "rsa_i2osp writes the len-byte big-endian encoding of a non-negative integer that fits in len bytes; rsa_os2ip inverts it (PKCS#1).", "quantifier": "all integers and lengths", "why_tests_cant": "Values have unbounded size; carries, digit boundaries and aliasing patterns form an infinite family that a test suite only samples.", "anchors": ["rsamath.c:rsa_i2osp", "rsamath.c:rsa_os2ip"]}
{"id": "C47", "title": "GMP-compatible rounding divisions", "statement": "impz_cdiv_q, fdiv_q, fdiv_r, tdiv_q, fdiv_q_ui give ceiling, floor and truncated quotients and floor remainder.", "quantifier": "all integers n, all d != 0, all aliasing patterns", "why_tests_cant": "Values have unbounded size; carries, digit boundaries and aliasing patterns form an infinite family that a test suite only samples.", "anchors": ["gmp_compat.c:GMPZAPI(cdiv_q)", "gmp_compat.c:GMPZAPI(fdiv_q)", "gmp_compat.c:GMPZAPI(fdiv_r)", "gmp_compat.c:GMPZAPI(fdiv_q_ui)"]}
{"id": "C48", "title": "GMP-compatible get_ui/get_si and arithmetic wrappers", "statement": "impz_get_ui returns the low bits of |op|, impz_get_si the documented clipped value; addmul, submul, *_ui, divisible_p, gcd, lcm, pow_ui, mul_2exp match their GMP meaning.", "quantifier": "all integers and machine words", "why_tests_cant": "Values have unbounded size; carries, digit boundaries and aliasing patterns form an infinite family that a test suite only samples.", "anchors": ["gmp_compat.c:GMPZAPI(get_ui)", "gmp_compat.c:GMPZAPI(get_si)", "gmp_compat.c:GMPZAPI(lcm)", "gmp_compat.c:GMPZAPI(addmul)"]}
{"id": "C49", "title": "GMP-compatible import/export round trip", "statement": "impz_import of what impz_export wrote recovers |op|, for every word order, size and endianness.", "quantifier": "all integers, orders, word sizes, endiannesses", "why_tests_cant": "Values have unbounded size; carries, digit boundaries and aliasing patterns form an infinite family that a test suite only samples.", "anchors": ["gmp_compat.c:GMPZAPI(export)", "gmp_compat.c:GMPZAPI(import)"]}
{"id": "C50", "title": "Out of memory never yields a wrong result", "statement": "Whatever requests malloc refuses, a call either completes with the correct result or aborts; it never returns success with a wrong value.", "quantifier": "all allocator behaviours at every allocation point", "why_tests_cant": "Failure points range over every allocation of every run.", "anchors": ["imath.c:s_alloc", "imath.c:s_realloc", "imath.c:s_kmul"]}
{"id": "C51", "title": "Error bound of the arctangent series", "statement": "arctan(radix, mul, x, prec, sum) stores an integer that differs from mul * radix^prec * arctan(1/x) by less than one unit plus half a guard digit unit per term of the series.", "quantifier": "all radices, factors, arguments x >= 2 and precisions", "why_tests_cant": "The claim ranges over unboundedly many values, precisions and radices; tests compare a few digits for a few inputs and run in buffers whose overrun goes unnoticed.", "anchors": ["examples/pi.c:arctan"]}
{"id": "C52", "title": "The pi program prints digits of pi", "statement": "For every number of digits n and every radix from 2 to 36 that the program accepts, the text written to its buffer is the numeral of floor(radix^n * pi), and fits.", "quantifier": "all digit counts and radices", "why_tests_cant": "The claim ranges over unboundedly many values, precisions and radices; tests compare a few digits for a few inputs and run in buffers whose overrun goes unnoticed.", "anchors": ["examples/pi.c:main"]}
{"id": "C53", "title": "Buffer sizes for rationals suffice", "statement": "A buffer of mp_rat_string_len (mp_rat_decimal_len) characters is sufficient for mp_rat_to_string (mp_rat_to_decimal) with the same arguments, which then return the complete text.", "quantifier": "all rationals, radices, precisions, rounding modes", "why_tests_cant": "The claim ranges over unboundedly many values, precisions and radices; tests compare a few digits for a few inputs and run in buffers whose overrun goes unnoticed.", "anchors": ["imrat.c:mp_rat_string_len", "imrat.c:mp_rat_decimal_len", "imrat.c:mp_rat_to_string", "imrat.c:mp_rat_to_decimal"]}
{"id": "C54", "title": "Random numbers have the number of bits asked for", "statement": "mp_int_randomize(a, n_bits, fp) stores an odd number with n_bits significant bits made of bytes read from fp, or reports an error if too few can be read and leaves a unchanged.", "quantifier": "all bit counts and byte contents", "why_tests_cant": "The results depend on random bytes and on unboundedly many sizes; tests see a few runs, and neither the missing bits, equal primes nor an overrun of the buffer shows in typical ones.", "anchors": ["examples/randprime.c:mp_int_randomize", "examples/rsakey.c:mp_int_randomize"]}
{"id": "C55", "title": "randprime prints a probable prime of the size asked for", "statement": "The program prints the first number accepted by the primality test from a random odd seed on, and it has <bits> significant bits; with -s, (p - 1) / 2 is accepted too.", "quantifier": "all sizes and random bytes", "why_tests_cant": "The results depend on random bytes and on unboundedly many sizes; tests see a few runs, and neither the missing bits, equal primes nor an overrun of the buffer shows in typical ones.", "anchors": ["examples/randprime.c:main", "examples/randprime.c:find_prime", "examples/randprime.c:find_strong_prime"]}
{"id": "C56", "title": "Generated RSA keys work", "statement": "For every key that the program generates, decryption with d undoes encryption with e for every message below the modulus, if the two probable primes are primes.", "quantifier": "all keys generated from any random bytes; all messages", "why_tests_cant": "The results depend on random bytes and on unboundedly many sizes; tests see a few runs, and neither the missing bits, equal primes nor an overrun of the buffer shows in typical ones.", "anchors": ["examples/rsakey.c:main"]}
{"id": "C57", "title": "rsakey writes its key", "statement": "The program generates accepted primes p, q, n = p q and exponents with e d = 1 modulo (p - 1)(q - 1), and writes their numerals without leaving its buffer; n has the size asked for.", "quantifier": "all sizes, exponents and random bytes", "why_tests_cant": "The results depend on random bytes and on unboundedly many sizes; tests see a few runs, and neither the missing bits, equal primes nor an overrun of the buffer shows in typical ones.", "anchors": ["examples/rsakey.c:main", "examples/rsakey.c:rsa_key_write"]}
{"id": "C58", "title": "Reading arbitrary text", "statement": "For every NUL-terminated text, mp_int_read_cstring, mp_rat_read_cstring, mp_rat_read_cdecimal and mp_rat_read_ustring store the number, return the code and set the end pointer that a short reference reader gives; a complete reading leaves a rational in lowest terms.", "quantifier": "all texts of up to 800 000 000 characters, not only well-formed numerals; all radices 2..36", "why_tests_cant": "Tests try a few texts; the quirks depend on combinations of spaces, signs, digits, points and slashes at unbounded lengths.", "anchors": ["imath.c:mp_int_read_cstring", "imrat.c:mp_rat_read_cstring", "imrat.c:mp_rat_read_cdecimal", "imrat.c:mp_rat_read_ustring"]}
{"id": "C59", "title": "basecvt and input print the number given", "statement": "The programs print, in the output radix and in lowest terms, exactly the numbers in the arguments that can be read completely, and end with the documented status.", "quantifier": "all lists of arguments, all pairs of radices", "why_tests_cant": "Tests run a few arguments; the overruns need numbers of thousands of digits or particular roundings.", "anchors": ["examples/basecvt.c:main", "examples/input.c:main"]}
{"id": "C60", "title": "rounding prints the rounded number", "statement": "The program prints the number read, rounded to the given precision in the given mode.", "quantifier": "all texts, modes, precisions and radices", "why_tests_cant": "Tests run a few arguments; the overruns need numbers of thousands of digits or particular roundings.", "anchors": ["examples/rounding.c:main", "imrat.c:mp_rat_to_decimal"]}
{"id": "C61", "title": "findprime prints the next probable prime", "statement": "For an argument above 131 the program prints the least number from there on that passes the library's test, within its buffer of 4096 characters.", "quantifier": "all arguments", "why_tests_cant": "Tests run a few arguments; the overruns need numbers of thousands of digits or particular roundings.", "anchors": ["examples/findprime.c:main"]}
{"id": "C62", "title": "allocated variables are fresh and are released completely", "statement": "mp_int_alloc gives a new variable with value 0 that is distinct from all others and leaves them unchanged; mp_int_free releases its digits and its structure, whatever value it has been given. mp_rat_alloc and mp_rat_free do the same for a rational number.", "quantifier": "all states, values and allocator behaviours", "why_tests_cant": "A leak or an overlap with an existing variable is not visible in results, and depends on the state of the heap.", "anchors": ["imath.c:mp_int_alloc", "imath.c:mp_int_free", "imrat.c:mp_rat_alloc", "imrat.c:mp_rat_free"]}
{"id": "C63", "title": "the calculator does what its commands say", "statement": "For all inputs, the output, exit status, and end state of the calculator are those of a reference interpreter on lists of integers; all variables and buffers are within bounds, and the memory of the integers is released at the end, unless a file cannot be opened. Failed commands are handled; the cases in which the program crashes are exactly described.", "quantifier": "all texts of any length, any number of files, all environments", "why_tests_cant": "The space of command sequences, stack depths (the arrays grow by doubling) and variable sets is unbounded.", "anchors": ["examples/imcalc.c:main", "examples/imcalc.c:run_file", "examples/imcalc.c:next_token", "examples/imcalc.c:g_ops"]}
{"id": "C64", "title": "the calculator evaluates expressions", "statement": "The postfix text of any arithmetic expression that has a value makes the calculator print the numeral of the value.", "quantifier": "all expressions over the operations, of any depth", "why_tests_cant": "Expressions are unbounded in depth and size.", "anchors": ["examples/imcalc.c:main"]}
{"id": "C65", "title": "the calculator keeps to its own description", "statement": "Commands of the calculator do what their help texts say, errors are reported by the exit status, all named files are read, and no input makes the program crash.", "quantifier": "all inputs", "why_tests_cant": "The failures need particular operands (an exponent of 2^32, -2^63, a number of 5459 digits in radix 13).", "anchors": ["examples/imcalc.c:g_ops", "examples/imcalc.c:main", "examples/imcalc.c:print_value"]}
{"id": "C66", "title": "the timing program runs to its end", "statement": "For every positive number of tests, every nonnegative precision (0 means default), every threshold and every sequence of random numbers, imtimer performs the multiplications and modular exponentiations and ends with status 0; the numbers it draws are valid operands and everything is released.", "quantifier": "all arguments and random sequences, all environments", "why_tests_cant": "The random numbers differ in each run; a top digit of 0 is drawn once in 2^32 runs; the effect of the stored digits on later calls is not printed.", "anchors": ["imtimer.c:main", "imtimer.c:mp_int_random", "imtimer.c:get_multiply_time", "imtimer.c:get_exptmod_time"]}
{"id": "C67", "title": "the regression test programs report what they find", "statement": "bug-swap prints OK and ends with status 0 in every environment; bug-qread prints one ERROR line for each text that is not read with the expected result, and its status and its OK line tell whether there was one, for every table of tests.", "quantifier": "all environments and tables", "why_tests_cant": "These are the tests: nothing tests them, and a wrong verdict is invisible as long as nothing else fails.", "anchors": ["tests/bug-swap.c:main", "tests/bug-qread.c:main"]}
{"id": "C68", "title": "bintest prints the bytes of a number and reads them back", "statement": "For every decimal argument, bintest prints the two's complement bytes, the number read back from them, the bytes of the magnitude and the magnitude read back; numbers that do not fit the buffer are refused.", "quantifier": "all texts", "why_tests_cant": "Numbers at the limits of the buffer (511 or 512 decimal characters, 512 bytes) are not among the samples.", "anchors": ["tests/bintest.c:main"]}
{"id": "C69", "title": "rtest prints a message, its encoding and the message decoded", "statement": "For all lengths of buffer and message, rtest prints the message, its PKCS#1 v1.5 encoding and the same message decoded, or the error if the message does not fit.", "quantifier": "all lengths and all fillers", "why_tests_cant": "Lengths are unbounded and the padding is random.", "anchors": ["tests/rtest.c:main", "tests/rtest.c:random_fill"]}
{"id": "C70", "title": "trim_line removes white space at the start and the end of a text", "statement": "For every text, trim_line leaves the text without the white space at its start and at its end, does not write outside of the array, and trimming again changes nothing.", "quantifier": "all texts of characters other than 0, all array contents behind them", "why_tests_cant": "The driver is only run on its own test files, whose lines end with a line feed; the case that goes wrong (leading white space, none at the end) gives another number instead of a failure of its own.", "anchors": ["imtest.c:trim_line"]}
{"id": "C71", "title": "parse_line splits a test line into code, inputs and outputs", "statement": "For every line, parse_line reports a syntax error if it has fewer than two colons and otherwise gives the code, the input texts and the output texts between the commas, without writing outside of the arrays it allocates.", "quantifier": "all lines", "why_tests_cant": "Only well-formed lines occur in the test files; a list that ends with a comma overruns a heap array silently.", "anchors": ["imtest.c:parse_line", "imtest.c:count_fields", "imtest.c:parse_fields"]}
{"id": "C72", "title": "run_test answers a test as its line demands", "statement": "For every code and all texts of inputs and outputs, run_test answers OK exactly if the operation on the values denoted by the inputs gives the outputs or the result code that are expected; otherwise it prints the results or the error, or reports the line as bogus. It changes nothing but the registers.", "quantifier": "all codes, texts, register contents and allocators", "why_tests_cant": "The driver is what runs the tests; nothing tests whether it reports a wrong result. A test that is passed whatever the result is cannot be noticed by running it.", "anchors": ["imtest.c:run_test", "imdrover.c:parse_int_values", "imdrover.c:test_add", "imdrover.c:test_egcd", "imdrover.c:test_cmpv"]}
{"id": "C73", "title": "The test driver's report and exit status are right", "statement": "For all arguments and files the driver prints a line for each test and the numbers of tests passed, failed and in error for each file, its status is 0 exactly if there are no failures and errors, and it frees all that it has allocated.", "quantifier": "all files, all arguments, all addresses at which files are opened", "why_tests_cant": "The repository has no test of its own driver; files with errors in them are never run.", "anchors": ["imtest.c:main", "imtest.c:process_file", "imtest.c:read_line", "imdrover.c:init_testing", "imdrover.c:done_testing"]}
{"id": "C74", "title": "GMP-compatible wrappers pass their arguments in the right order", "statement": "Each function of gmp_compat.c that calls one function of the library (abs, add, sub, mul, neg, set, set_si, set_ui, swap, cmp, cmpabs, cmp_si, sgn, init, clear; for rationals clear, cmp, init, mul, set, sgn, set_ui, canonicalize) stores the value of its GMP namesake in its first argument, for all values and all coincidences of variables, and no assertion fails.", "quantifier": "all integers, rationals and machine words; all assignments of variables to arguments", "why_tests_cant": "The values are unbounded; exchanged operands are visible only for some values and aliasing patterns.", "anchors": ["gmp_compat.c:GMPZAPI(sub)", "gmp_compat.c:GMPZAPI(set_si)", "gmp_compat.c:GMPQAPI(mul)", "gmp_compat.c:GMPQAPI(canonicalize)"]}
{"id": "C75", "title": "GMP-compatible text functions", "statement": "impz_get_str and impq_get_str write the numeral of the value in lower case for a positive radix and in upper case for a negative one, within the array they allocate or the one that is given; impz_set_str and impq_set_str return 0 exactly if the whole text is a number and store it; reading gives back what has been written; impz_sizeinbase is the number of digits or one more, and exact for powers of two.", "quantifier": "all integers and rationals, all radices from 2 to 36 and their negatives, all texts", "why_tests_cant": "The first number for which the estimated length is too small has 20197 bits; the effect of uninitialised memory depends on the allocator.", "anchors": ["gmp_compat.c:GMPZAPI(get_str)", "gmp_compat.c:GMPQAPI(get_str)", "gmp_compat.c:GMPZAPI(set_str)", "gmp_compat.c:GMPQAPI(set_str)", "gmp_compat.c:GMPZAPI(sizeinbase)"]}
{"id": "C76", "title": "Histories of calls of all interfaces", "statement": "Every program of admissible calls of the functions of imath.h, imrat.h, gmp_compat.h, iprime.h and rsamath.h, in any order and with any coincidence of variables, whose course may depend on what the calls return, runs to its end without undefined behaviour, failing assertion or divergence unless the allocator refuses a request; every call returns and stores what the specification of its function says, all integers are canonical, nothing leaks, variables that are no output arguments are unchanged, and the results do not depend on the allocator, the contents of new memory or the tuning parameters.", "quantifier": "all programs of admissible calls; all values; all environments", "why_tests_cant": "Programs are sequences of any length, and their values are unbounded; whether an interface breaks an invariant another one relies on depends on the history.", "anchors": ["gmp_compat.c:GMPZAPI(add)", "gmp_compat.c:GMPQAPI(mul)", "iprime.c:mp_int_find_prime", "rsamath.c:rsa_rsaep", "imrat.c:mp_rat_add", "imath.c:mp_int_clear"]}
{"id": "C77", "title": "Every call of the interface is right or breaks for a stated reason", "statement": "Every call of a function of imath.h whose arguments have the declared types and whose variables are initialised either returns and stores what is specified, or ends in undefined behaviour or a failing assertion, and which of the two happens is decided by a condition on the arguments alone: there is no further call for which the result is wrong or unspecified.", "quantifier": "all calls, all values of the variables, all coincidences of variables, all environments", "why_tests_cant": "The claim is about the arguments nobody thought of; it can be refuted by tests but not established, since arguments are unbounded and the faulting ones are singular (the least machine number, one operand zero and a null pointer, coinciding variables).", "anchors": ["imath.h:mp_int_div", "imath.c:s_fake", "imath.c:mp_int_egcd", "imath.c:mp_int_to_int", "imath.c:mp_int_expt_full", "imath.c:mp_int_init_size"]}
{"id": "C78", "title": "Every call of the rational interface is right, breaks for a stated reason, or stores a pair that is no rational", "statement": "Every call of a function of imrat.h whose arguments have the declared types and whose variables are initialised either returns and stores what is specified, or ends in undefined behaviour or a failing assertion, or (reading a fraction whose denominator is zero or is followed by other characters) stores an integer pair that is not in lowest terms; which of these happens is decided by a condition on the arguments alone.", "quantifier": "all calls, all values of the variables, all texts, all coincidences of variables, all environments", "why_tests_cant": "Texts and values are unbounded, and the faulting arguments are singular (limits one or two above the length of the numerator, the least machine number, a part of the result as operand).", "anchors": ["imrat.c:mp_rat_to_string", "imrat.c:mp_rat_read_cstring", "imrat.c:mp_rat_read_cdecimal", "imrat.c:mp_rat_mul_int", "imrat.c:mp_rat_div_int", "imrat.c:mp_rat_set_value", "imrat.c:mp_rat_compare_value"]}
{"id": "C79", "title": "A rational written in positional notation reads back as its rounded value", "statement": "Reading with mp_rat_read_decimal what mp_rat_to_decimal wrote stores the value rounded to the requested number of places in the requested mode: the value itself if it has no more places than that, and otherwise a value less than one unit of the last place away (at most half a unit in the two modes that round to the nearest).", "quantifier": "all rationals, radices 2 to 36, numbers of places below 2^31 - 1, rounding modes, buffers, environments", "why_tests_cant": "Rationals and numbers of places are unbounded, and the failures (a rounding carry that lengthens the fraction or reaches the integer part) depend on runs of the largest digit.", "anchors": ["imrat.c:mp_rat_to_decimal", "imrat.c:mp_rat_read_decimal", "imrat.c:mp_rat_read_cdecimal"]}
