# Formal model of imath: design

## Trusted base

* Lean 4.33.0's kernel, and Mathlib as installed.
* Axioms: only `propext`, `Classical.choice`, `Quot.sound`.
  No axioms of our own, no `sorry`, no `native_decide`, no `bv_decide`.
* The hand translation of the C sources in `/repo` into the Lean model in `lean/Verif/Model`.
  Every definition cites the file and lines it transcribes.
* The memory model described below (C abstract machine, LP64).

## Configuration modelled

Default build of the Makefile: `-std=c99`, LP64, 32-bit `mp_digit`, 64-bit `mp_word`
(`USE_32BIT_WORDS` not set), `unsigned int mp_size`, `long mp_small`, asserts enabled
(`NDEBUG` is never set), `DEBUG` off.

## Memory model (level 0)

* Memory is a set of digit blocks (heap blocks, the one-digit `single` member of each `mpz_t`, and
  stack arrays) and a set of `mpz_t` structs.  Pointers into digit blocks are a block and an offset.
* Every C function is a function in a state monad whose result is `ok` or a fault.  Faults:
  `oom` (malloc refused and the `assert` in `s_alloc`/`s_realloc` aborts), `assert` (any other failed
  assertion), `ub` (undefined behaviour: out-of-bounds or dangling access, bad free, signed overflow,
  oversized shift, null dereference), `diverge` (fuel of an unbounded loop exhausted; proved impossible).
* malloc is an oracle: it may refuse any request and must refuse requests above `MAXD` digits
  (this bound, about 2^26 digits, keeps all `mp_size` and bit-count arithmetic below 2^31).
  Contents of new blocks come from a second, arbitrary oracle.
* `mp_size` and `mp_word` arithmetic wraps explicitly in the model wherever the C could wrap.
* Simplifications: forming (not dereferencing) a pointer one before the start of a block is not a
  fault (`impz_export` and `impz_import` form pointers outside of the array at the end of a word);
  `malloc` of characters in gmp_compat.c, which is not checked there, does not fail; the host is
  little-endian; character and byte buffers are values (lists) with explicit bounds; `mpz_t` structs cannot
  overlap partially.

## Levels of the proof

* L0 kernels: loops over digit arrays, specified by Hoare-style `wp` statements about digit lists.
* L1: stores of cells (digit buffer, used, sign), related to memory by `Rep`, which also says that
  blocks are disjoint, owned by exactly one integer, and that there are no unowned heap blocks (no leak).
* L2: stores of mathematical integers.  The API theorems say: from any memory representing the store
  `σ`, the call returns `MP_OK` in a memory representing `σ[c ↦ result]`.  Aliasing is covered because
  arguments are identifiers which may coincide; the frame and leak-freedom are covered because the
  relation describes the whole memory.

## What the property theorems say

* `Verif/Spec.lean`, `SpecConv.lean`, `SpecGmp.lean`, `SpecGmpStr.lean`, `SpecPrime.lean` and `SpecHistory.lean` contain what the theorems are stated with;
  they do not use the notions of the proof (`wp`, `Rep`, `R2`).
* `State m ρ`: memory `m` represents exactly the initialised variables `ρ` with their values: every one
  is canonical, no two share digits, every live heap block belongs to one of them.
* `Runs env f m P`: the call terminates with `P`, or the allocator refused a request and the process
  aborts; undefined behaviour, other failing assertions and divergence are excluded.
* Theorems are about an arbitrary environment `env`: allocator, contents of new memory, and rounding of
  `double` arithmetic.  `double` operations are modelled as real (rational) arithmetic followed by an
  arbitrary function with relative error at most 2^-53.
* `FaultsOr env f m e`: the call always ends with the fault `e`, unless the allocator refused a request before.  Used to
  show that too short arrays are always overrun (C29, C35, C46, C52, C59, C61; rules in `Proof/Overrun.lean`),
  and that input from too short an array or an unterminated text reads beyond its end (C31, C33, C34; `Props/Overread.lean`).
* `Props/RatQuirks.lean`, `Props/RatRead.lean`: what the rational functions compute, exactly, where C38, C39 and C41 do not hold as documented.  These
  outcomes are rules of the histories of rational calls as well (`SpecRatHistory.lean`).
* `SpecRatTrunc.lean`, `Props/RatDecTrunc.lean` (C40): what `mp_rat_to_decimal` writes and returns, or how it fails, with too little room, for
  every limit and every length of the array.
* `Props/RatOut.lean` (C26, C53): `mp_rat_to_ints`, and bounds for `mp_rat_string_len` and `mp_rat_decimal_len`.
* `SpecRatDomain.lean`, `Props/RatDomain.lean` (C78): which rational calls are admissible, which fault, which store a pair of integers
  that is not in lowest terms, and what is left open, as C77 does for integers.
* `Props/RatDecTrip.lean` (C79): what is written in positional notation and read back.
* `Verif/Concrete.lean` runs the model on concrete integers (`outcome`, `faultOf`); used for witnesses
  of wrong behaviour and as tests of the model.
* Histories: `SpecHistory.lean` gives a rule for every call of the interface, and
  programs whose course may depend on returned values (`SpecRatHistory.lean` the same for rationals,
  `SpecGmpHistory.lean` for the calls of all interfaces together).
  `DStep` has the documented outcomes, `UStep` those which are defined but differ from the documentation
  (proved in `Props/Quirks.lean`), `NStep` those which are not fixed by the specification (`mp_int_egcd`,
  `mp_int_string_len`).
  `Props/History.lean`, `Props/RatHistory.lean` and `Props/GmpHistory.lean` prove by induction
  that all programs of admissible calls behave (C12 - C16, C50, C76).  Of the texts that `impz_get_str(NULL, ...)` and
  `impq_get_str` produce the part before the terminator is observed.  The arrays that `get_str` and `export` allocate for the
  caller are not blocks of the modelled heap, so C76 does not say who frees them.
  `SpecDomain.lean` says call by call which calls of imath.h have a rule (`Call.Ready`), which fault (`Breaks`) or use up
  the memory (`Exhausts`), and which are left open (`Call.Open`); `Props/Domain.lean` proves that these are all (C77).
  One of the open ones is `mp_int_to_unsigned` with a limit of 0 or less: the model writes nothing and returns `MP_TRUNC`, but the
  code computes the pointer `buf - 1` (`REV`, imath.c:104), which is undefined in C though harmless on common machines.

* Rationals: a variable of type `mpq_t` is a pair of integer variables (`RVar`, `Verif/SpecRat.lean`);
  `HasQ ρ a q` says that its parts are the numerator and denominator of the rational number `q` of
  Mathlib, that is, in lowest terms with positive denominator.  Not modelled in imrat.c: `mp_rat_numer_ref`, `mp_rat_denom_ref` (the
  parts of a rational are ordinary variables of the model, so every use of a reference is covered).

## Properties

Each property of `properties.jsonl`, what is modelled and how it is (to be) proved:

| Property | Model | Method |
|---|---|---|
| C01, C02 | mp_int_add/sub, s_uadd, s_usub, s_ucmp, s_pad, CLAMP, s_fake | digit-loop invariants, then L2 |
| C03, C04 | s_umul, s_kmul, s_usqr, s_ksqr, mp_int_mul/sqr | induction on size with frame conditions for overlapping Karatsuba scratch |
| C05, C07, C08 | mp_int_div, s_udiv_knuth, s_ddiv, s_norm, s_qdiv, s_qmod, s_isp2 | Knuth's theorem B |
| C06 | as C05 | negation proved by witness; the true statement is C05 |
| C09 | mp_int_mul_pow2, mp_int_div_pow2 | witnesses for the 2^32 truncation and for negative zero, `_partial` positive theorem |
| C10, C11 | as listed | L2 |
| C12..C16 | the relation `Rep` and a language of call histories | induction over histories |
| C17, C18 | mp_int_expt, expt_value, expt_full | binary power invariant; witnesses for exponent truncation and aliasing |
| C19, C20 | mp_int_exptmod, s_embar, s_reduce, s_brmu | Barrett bound |
| C21..C24 | gcd, egcd, lcm, invmod | loop invariants, termination measure |
| C25 | mp_int_root | Newton iteration from above |
| C26, C27 | to_int, to_uint, is_pow2, count_bits | digit arithmetic |
| C28..C32 | to_string, read_cstring, string_len | digit loops; floats treated through a relative error bound |
| C33..C35 | s_tobin, s_2comp, read_binary, read_unsigned | byte loops |
| C36 | mp_error_string | table |
| C37..C41 | imrat.c on top of the L2 specs | L2 programs |
| C42, C43 | iprime.c | Fermat's theorem; Bertrand for termination |
| C44..C46 | rsamath.c | Carmichael's theorem; byte loops |
| C47..C49 | gmp_compat.c | L2 programs; byte loops |
| C51, C52 | examples/pi.c: `arctan`, and `main` after the processing of arguments | alternating series bound, Machin's formula from Mathlib; error of truncating divisions |
| C53 | as C40, C41 and string_len | L2 programs |
| C54..C57 | examples/randprime.c, examples/rsakey.c, from reading random bytes on (processing of arguments and files is not modelled; random bytes are an input) | L2 programs on top of C42, C43, C24 and C28 |
| C58 | all reading functions of imath.c and imrat.c | a reference reader on lists of characters (`SpecRead.lean`), total over arbitrary text |
| C59..C61 | examples/basecvt.c, input.c, rounding.c, findprime.c (`main`; usage messages, `atoi` and messages on stderr are not modelled) | L2 programs on top of C58, C30, C53, C40, C43 |
| C62 | `mp_int_alloc`, `mp_int_free`, `mp_rat_alloc`, `mp_rat_free` | L2 |
| C63..C65 | examples/imcalc.c, all but the options `-h`, `-o` and the help texts | a reference interpreter on lists of integers (`SpecCalc.lean`); simulation |
| C66..C69 | imtimer.c, tests/bug-swap.c, tests/bug-qread.c, tests/bintest.c, tests/rtest.c (`Model/Tests.lean`; options, usage messages, the clock and messages on stderr are not modelled; `rand()` is an arbitrary sequence) | L2 programs; L1 for numbers stored digit by digit |
| C70, C71 | imtest.c, imdrover.c (`Model/Driver.lean`) | a reference on lists of characters (`SpecDriver.lean`) |
| C72, C73 | imtest.c, imdrover.c: `run_test`, `process_file`, `main` and the tests of integers | a reference for values, verdicts and reports (`SpecVerdict.lean`, `SpecRun.lean`); simulation |
| C74 | the functions of gmp_compat.c that call one library function | `CHECK` on top of C01..C11, C38, C39 |
| C75 | gmp_compat.c: `get_str`, `set_str` (integers and rationals), `sizeinbase` | a reference for the texts (`SpecGmpStr.lean`); bounds of the estimated length from both sides |
| C76 | programs of calls of imath.h, imrat.h, gmp_compat.h, iprime.h and rsamath.h | rules per call (`SpecGmpHistory.lean`), soundness of each rule from C01..C49, C74, C75; induction over programs |
| C77 | every call of a function of imath.h | conditions per call (`SpecDomain.lean`): `Call.Ready` implies a rule of `Step`, `Breaks` implies a fault, the rest is `Exhausts` or `Call.Open`; case analysis over the calls |
| C78 | every call of a function of imrat.h | as C77, with `QCall.Ready`, `QBreaks`, `Raw`, `Leaks`, `OnInt`, `QCall.Open` (`SpecRatDomain.lean`) |
| C79 | what is written in positional notation and read back | `rounded` (the sign times `roundQ` of the absolute value in units of the last place), `carried` if rounding carries, in `Props/RatDecTrip.lean` |
| C50 | allocator oracle | part of every theorem: the only fault is `oom` |

Status of each property is in `MANIFEST.json`.

## Where code and documentation (or expectation) disagree

Each is shown by a theorem (in parentheses).

* `mp_int_div` documents a remainder in the range `0 <= r < |b|`; it has the sign of `a` (C06).
* `mp_int_mul_pow2`, `mp_int_div_pow2`, `mp_int_expt`, `mp_int_root` reduce their machine integer argument modulo 2^32 (C09, C17, C25);
  the root of zero is then refused with `MP_UNDEF` if the degree is a multiple of 2^32 (C25).
* `mp_int_div_pow2` can leave a negative zero, and computes the remainder from the quotient if `q == a` (C09).
* `mp_int_expt_full` is wrong if the result variable is the exponent variable (C18): with `|a| < 2^32` it
  returns a wrong power, with larger `a` the exponent grows and no memory suffices (`C18_alias_large`).
* `mp_int_redux_const` keeps the sign of the old value of its result, and changes the result even when it
  returns `MP_UNDEF` (C20); `mp_int_exptmod_known` is
  wrong if the result variable is that of the constant (C20).
* `mp_int_exptmod` and its variants accept a negative modulus (the documentation excludes zero only), but Barrett reduction then
  adds twice the magnitude of the modulus each time, and if the difference in it is negative the complement is taken with respect to the wrong power.
  The result is `negResult` (`SpecExptmod.lean`), never a remainder and not even congruent in general (`C19_negmod_large`, `C19_negative_modulus_wrong`).
  The memory is safe: all variants are covered for all negative moduli.
* `x^0 mod 1` is 1 in `mp_int_exptmod` (C19); the inverse of a negative number modulo 1 is 1 (C24).
* `mp_int_egcd` gives coefficients for the absolute values (C22); with a zero operand, a `NULL` coefficient fails an assertion.
* `mp_int_is_pow2` reports exponent 0 for the value 0 and ignores the sign (C27).
* Undefined behaviour: `mp_int_to_int` for -2^63 (C26); -2^63 as machine integer argument of all
  functions that use `s_fake` (C13); `mp_int_init_size(z, UINT_MAX)` (C13); reading 2^28 or more bytes (C33, C34) or
  very long strings (C31); `mp_error_string(INT_MIN)` (C36); `limit == 0` in `mp_int_to_binary` (C35).
* `mp_int_to_string` writes a NUL at `str[limit]` when the output does not fit (C29).
* `mp_int_string_len` can be one too small, in exactly 17 of the 35 radices; the smallest integer is 13^5458, in radix 13 (C30).
* `MP_MEMORY` is never returned while assertions are enabled; allocation failure aborts.
* imath.h:303 describes the root as the "greatest integer not less than" the real root; it is rounded towards zero (C25).
* `mp_rat_mul_int` and `mp_rat_div_int` are wrong if the integer is the numerator or denominator of the
  result (C38); `mp_rat_expt` inherits the reduction of the exponent modulo 2^32 (C38).
* `mp_rat_compare_value` returns `INT_MAX` for a zero denominator where imrat.h:171 promises `MP_UNDEF` (C39).
* `mp_rat_reduce` reports success for a zero denominator (C37).
* `mp_rat_to_string` fails an assertion if the limit leaves room for none or one character after the
  slash (C41).
* `mp_rat_read_cstring` and `mp_rat_read_cdecimal`: a fraction followed by other characters is left unreduced
  and unchecked, even with denominator zero; `*end` is not always assigned (C41).
* `mp_rat_to_decimal` is wrong if rounding carries into another digit position (99/100 to one place gives
  `0.10`; the text written in this case is given exactly, and is never right); it needs a buffer one character longer than its output, and fails an assertion or reports
  `MP_TRUNC` otherwise; if the digits after the point do not fit, the point is written over the NUL (imrat.c:607-613) and the text is
  not terminated (`C40_trunc_point`); if rounding carries, a limit one too small loses the digits (`C40_trunc_carry`); an unknown rounding mode leaks the temporaries; with a precision of 2^31 - 1 or more only an integer part that does not
  fit is reported, everything else faults (`C40_big_trunc`, `C40_big_fault`).
* `mp_int_find_prime` passes over 2 (C43).  `mp_int_is_prime` accepts the composite number 9624742921 always (C42);
  iprime.h:37 speaks of `MP_YES` and `MP_NO`, which do not exist.
* `rsa_i2osp` refuses lengths that are larger than necessary and overruns the array if they are smaller;
  `rsa_os2ip` reads signed integers (C46).
* `rsa_pkcs1v15_decode` reads beyond the array if there is no separator, and does not check the length of the
  padding (C45).
* imrat.h:123 describes `mp_rat_neg` as computing the absolute value (C38).
* GMP-compatible interface: `impz_import` of no words (the export of 0) does not change its variable; words of 0
  bytes give a division by zero in `impz_export` and a variable without digits in `impz_import` (C49);
  `impz_mul_2exp` reduces the exponent modulo 2^32, `impz_get_si` is undefined for -2^63 (C48); a zero divisor fails
  an assertion (C47).
  `impz_set_si` is undefined for `LONG_MIN`; `impq_set_ui` reduces its fraction and fails an assertion for the denominator 0;
  `impq_canonicalize` turns n/0 into 1/0 or -1/0 (C74).
  `impz_get_str(NULL, ...)` writes one character beyond the array it allocates where the estimated length is too small
  (13^5458 in radix 13, the smallest such number); `impq_get_str(NULL, ...)` passes up to two characters of uninitialised memory to
  `toupper` or `tolower`, which is undefined for negative ones (8/9 in radix 10); `impz_set_str` accepts texts without digits
  and no base 0; `impq_set_str` accepts the denominator 0; `impz_sizeinbase` can be smaller than the number of digits (C75).
* examples/pi.c: in radices 2 and 3 the number has two digits before the point and the buffer of `ndigits + 2`
  characters is overrun; the last digits can be wrong, already for 11 digits in radix 10 (C52); `ndigits + 2` is an
  `int` addition that overflows for `INT_MAX` digits (excluded in C52).
* `mp_rat_string_len` can be too small, and `mp_rat_to_string` then fails an assertion (C53); imrat.h calls the result
  the minimum number of characters, it is an upper bound.
* `mp_int_randomize` of the examples does not set the highest bit if the number of bits is a multiple of 8, and
  changes a byte outside its buffer for 0 bits (C54); so `randprime 8` may print a prime of 7 bits, and with `-s` one of 9 bits (C55).
* examples/rsakey.c does not exclude `p == q`, with which decryption fails (C56); it writes the exponent into a buffer
  that is as long as the modulus needs, and overruns it if the exponent (given, or random) is longer (C57).
* Reading (C58): `"2/4x"` stores the unreduced fraction 2/4 with `MP_TRUNC`; after a zero denominator the variable keeps
  the denominator 0; for `"7/2.5"` `mp_rat_read_ustring` starts again at the beginning and stops at the slash;
  `mp_rat_read_cdecimal` leaves `*end` unassigned if a space or sign follows the point.
* examples/basecvt.c and input.c allocate buffers of `mp_int_string_len` characters and so overrun them for 13^5458 in
  radix 13 (C59).
* examples/rounding.c prints 0.010 for 0.095 rounded to two digits; for a bad mode it prints an uninitialised buffer; a
  bad radix fails an assertion (C60).
* examples/findprime.c ignores the result of `mp_int_to_string` and overruns its array of 4096 characters if the number
  found has more than 4095 digits (C61).
* examples/imcalc.c (C65): `root` with an exponent of 0 or less fails an assertion; -2^63 as operand of `^`, `root`, `pick`,
  `copy` or `out` is undefined; exponents are reduced modulo 2^32; the output buffer is overrun by 13^5458 in radix 13;
  only the last command of an input is reflected in the exit status; of several files the first is read again and again
  (`argv[optind]` is opened in place of `argv[ix]`); `xgcd` with negative operands and the remainder of `/` are not as the help says.
  Also visible in the reference interpreter `Cmd.act`: operands are lost when `^`, `inv` or `root` fail; the `mpz_t` structs of popped
  elements are leaked (`mp_int_clear` in place of `mp_int_free`); `#x` alone reads as 0; `>>foo` is read as one symbol.
* imtimer.c (C66): without option `-t` the threshold is 0 and the assertion in `mp_int_multiply_threshold` (imath.c:209) aborts every
  run.  Without `-p` the numbers have `used = 0`; `-e` then reads `digits[-1]` in `s_embar`.  Random numbers are stored without
  `CLAMP`: a modulus with top digit 0 (probability 2^-32 per run) makes `s_norm` loop for ever.
* tests/bug-qread.c (C67): `errs` is never increased and the status is `!errs`: the program always prints "OK" and always ends
  with status 1.
* tests/bintest.c (C68) gives `mp_int_to_string` the size of its array as limit: a number with a numeral of 512 or more characters
  (and up to 512 bytes) is written one past the end.

* imtest.c `trim_line` (C70) does not move the terminator along with the text: white space at the start is only removed if there is some
  at the end, too; otherwise the end of the text is repeated.  In `add: 5,6,0:11` the first input is read as 55.
* imtest.c `parse_fields` (C71) stores one field more than `count_fields` has counted if a list ends with a comma.

Not modelled: the Python scripts.

## The test driver (imtest.c, imdrover.c)

* `Model/Driver.lean` transcribes both files.  The arrays of a line are separate lists of characters in place of pointers into one array
  (each field is terminated, and no function writes behind the terminator of the text it was given); `free_test` has no counterpart.
  Buffers (`g_output`, the two static arrays for bytes) are lists of length 2048 in the state `Drv`.  The registers are the
  variables 0 to 47 of the memory model.  Output to stderr is not modelled.  The address of the file that `read_line` remembers and the
  seconds that are printed are arbitrary inputs (`fps`, `secs`).
* `SpecVerdict.lean` and `SpecVerdictQ.lean` (rational numbers) say what a test has to answer, as a function of the texts on its line; `SpecRun.lean` what the driver prints for a file and
  with which status it ends.  The reference leaves open: `initu` and `initv` (they initialise a register again);
  `divp2` if a remainder of a negative number is zero (the register then holds a zero with a negative sign); `qtodec` with an unknown mode, a
  precision or number too large, a carry out of the fraction with a numerator of one digit, or a text of 2048 or more characters.
* What was found (C72, C73):
  * `egcd` (imdrover.c:758-792): if the results are not those expected, the test passes if the coefficients found give the divisor
    found; the expected divisor is not compared.  For positive operands every expectation is passed (`C72_egcd_any`).  For negative
    operands the fallback is wrong, as the coefficients belong to the magnitudes.
  * `cmpv` and `cmpuv` (imdrover.c:940-970) read the second operand again with `atoi` and `strtoul`: `#x10` is 16 for the parser and 0
    for the comparison (`C72_cmpv_tag`).
  * `qmulz` and `qdivz` with the result in the register of the integer (`=2`): the operand is the numerator of a rational variable and
    `mp_rat_mul_int` copies the first operand over it before it is used; `qmulz:1/2,6,=2:1/2` is passed (`C72_qmulz_overwritten`).
  * `qexpt` reduces the exponent modulo 2^32; -2^63 is undefined (`refQexpt`).
  * `process_file` computes the tests passed as tests - failed - errors, but lines with syntax errors are not counted as tests: the
    number printed can be negative (`C73_negative`).
  * `main` closes the standard input after `-`; a second `-` reads a closed file (`C73_twice`).
  * `read_line` recognises a new file by its address; if the address of a closed file is used again, the numbers of the lines continue
    (`runArgs`).
  * The comment above `run_test` (imtest.c) says that 0 is returned for success; it is 1.
  * Messages longer than the 2048 characters of `g_output` are written beyond it (`joined`, `testTostr`, `binTest`).
  * `readbin` and `readuns` without bytes fail an assertion.
  * `qtodec` can never expect an error: `parse_rat_values` rejects result codes if there is no place for them.
  * `meta` with more than sixteen values writes beyond the registers.

## The calculator (examples/imcalc.c)

* `Model/Calc.lean` transcribes the program, on top of the model of the library.  The stack and the memory of named variables are
  lists of pointers with explicit capacity; growing them asks the allocator.  A write outside the capacity is undefined behaviour
  (`inArray`).
* Simplifications: a refused request ends the run, also in those places where the program would print a message (or dereference
  `NULL`, in `mem_insert`); output to stderr is not modelled; options are not modelled.  The standard input
  does not grow while the program runs: when it has been read to its end, a further argument `-` finds nothing.
* `SpecCalc.lean` has the reference: tokens of a text, commands as functions on lists of integers, sessions.  It is
  total: no case is left open.
* `Lib` collects what the reference needs to know about the library and is not fixed by the specification: the coefficients of `xgcd` and
  the length of the output buffer.  `Lib.Sound` states what is known of them.

## Conformance of the model

The model is executable.  As a check of the transcription (not of any theorem, and not part of the build) it was run on test vectors
in `/repo/tests/*.tc`, which are data.  The model of the driver itself (`imtestMain`) was given each line of add, compare, conv, div, egcd,
expt, gcd, init, invmod, lcm, mod, mul, neg, qadd, qaddz, qdiv, qdivz, qmisc, qmul, qmulz, qsub, qsubz and qtodec of at most 1500
characters: every test passes, except `initv:0,-9223372036854775808` (init.tc:10), where the model reports the known undefined behaviour
at -2^63.  With an earlier program that calls the functions one by one, bigmul, bigsqr and set were run in full, and a sample of one line in
twenty of root, sqr and sub; the results agree.  Not run: emod, emodv, isprime (too slow in the interpreter).
Nothing of the repository was compiled or run.
