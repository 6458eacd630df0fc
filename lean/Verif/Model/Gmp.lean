import Verif.Model.Rat

/-!
# The GMP-compatible interface, gmp_compat.c

`GMPZAPI(f)` is `impz_f`, `GMPQAPI(f)` is `impq_f` (gmp_compat.h).  Not modelled: `GMPQAPI(denref)`,
`GMPQAPI(numref)` (gmp_compat.c:141, 144), which return references to the parts of a rational; the parts are
ordinary variables of the model.

Local variables are cleared in the reverse order of their initialisation; the C code clears some of them
in another order.
-/

namespace Imath

/-- `CHECK(x)`, gmp_compat.c:41-45, with assertions enabled -/
def CHECK (x : M Int) : M Unit := do
  let res ← x
  cassert (res = MP_OK)

/-- A local `mpz_t` initialised by `ini`, whose result is checked by `CHECK`, and cleared at the end (e.g.
gmp_compat.c:209-215) -/
def withChk {α : Type} (ini : Id → M Int) (k : Id → M α) : M α := do
  let t ← declInt .tmp
  CHECK (ini t)
  let r ← k t
  mp_int_clear t
  dropInt t
  pure r

/-- The same with the result of the initialisation ignored (e.g. gmp_compat.c:156-162).  `mp_int_init`
always returns `MP_OK` (imath.c:368-378). -/
def withUnchk {α : Type} (ini : Id → M Int) (k : Id → M α) : M α := do
  let t ← declInt .tmp
  let _ ← ini t
  let r ← k t
  mp_int_clear t
  dropInt t
  pure r

/-- Conversion of an `unsigned long` to `long` (two's complement) -/
def toInt64 (x : Nat) : Int :=
  if u64 x < 9223372036854775808 then (u64 x : Int) else (u64 x : Int) - 18446744073709551616

/-! ### Direct translations -/

/-- gmp_compat.c:59 `impq_clear` -/
def impq_clear (x : MpQ) : M Unit := mp_rat_clear x
/-- gmp_compat.c:62 `impq_cmp` -/
def impq_cmp (op1 op2 : MpQ) : M Int := mp_rat_compare op1 op2
/-- gmp_compat.c:65 `impq_init` -/
def impq_init (x : MpQ) : M Unit := CHECK (mp_rat_init x)
/-- gmp_compat.c:68-70 `impq_mul` -/
def impq_mul (product multiplier multiplicand : MpQ) : M Unit := CHECK (mp_rat_mul multiplier multiplicand product)
/-- gmp_compat.c:73 `impq_set` -/
def impq_set (rop op : MpQ) : M Unit := CHECK (mp_rat_copy op rop)
/-- gmp_compat.c:76 `impz_abs` -/
def impz_abs (rop op : Id) : M Unit := CHECK (mp_int_abs op rop)
/-- gmp_compat.c:79-81 `impz_add` -/
def impz_add (rop op1 op2 : Id) : M Unit := CHECK (mp_int_add op1 op2 rop)
/-- gmp_compat.c:84 `impz_clear` -/
def impz_clear (x : Id) : M Unit := mp_int_clear x
/-- gmp_compat.c:87-89 `impz_cmp_si` -/
def impz_cmp_si (op1 : Id) (op2 : Int) : M Int := mp_int_compare_value op1 op2
/-- gmp_compat.c:92-94 `impz_cmpabs` -/
def impz_cmpabs (op1 op2 : Id) : M Int := mp_int_compare_unsigned op1 op2
/-- gmp_compat.c:97 `impz_cmp` -/
def impz_cmp (op1 op2 : Id) : M Int := mp_int_compare op1 op2
/-- gmp_compat.c:100 `impz_init` -/
def impz_init (x : Id) : M Unit := CHECK (mp_int_init x)
/-- gmp_compat.c:103-105 `impz_mul` -/
def impz_mul (rop op1 op2 : Id) : M Unit := CHECK (mp_int_mul op1 op2 rop)
/-- gmp_compat.c:108 `impz_neg` -/
def impz_neg (rop op : Id) : M Unit := CHECK (mp_int_neg op rop)
/-- gmp_compat.c:111 `impz_set_si` -/
def impz_set_si (rop : Id) (op : Int) : M Unit := CHECK (mp_int_set_value rop op)
/-- gmp_compat.c:114 `impz_set` -/
def impz_set (rop op : Id) : M Unit := CHECK (mp_int_copy op rop)
/-- gmp_compat.c:117-119 `impz_sub` -/
def impz_sub (rop op1 op2 : Id) : M Unit := CHECK (mp_int_sub op1 op2 rop)
/-- gmp_compat.c:122 `impz_swap` -/
def impz_swap (rop1 rop2 : Id) : M Unit := mp_int_swap rop1 rop2
/-- gmp_compat.c:125 `impq_sgn` -/
def impq_sgn (op : MpQ) : M Int := mp_rat_compare_zero op
/-- gmp_compat.c:128 `impz_sgn` -/
def impz_sgn (op : Id) : M Int := mp_int_compare_zero op
/-- gmp_compat.c:131-133 `impq_set_ui` -/
def impq_set_ui (rop : MpQ) (op1 op2 : Nat) : M Unit := CHECK (mp_rat_set_uvalue rop op1 op2)
/-- gmp_compat.c:136-138 `impz_set_ui` -/
def impz_set_ui (rop : Id) (op : Nat) : M Unit := CHECK (mp_int_set_uvalue rop op)
/-- gmp_compat.c:147 `impq_canonicalize` -/
def impq_canonicalize (op : MpQ) : M Unit := CHECK (mp_rat_reduce op)

/-! ### Combinations -/

/-- gmp_compat.c:155-163 `impz_addmul` -/
def impz_addmul (rop op1 op2 : Id) : M Unit :=
  withUnchk mp_int_init fun temp => do
    CHECK (mp_int_mul op1 op2 temp)
    CHECK (mp_int_add rop temp rop)

/-- gmp_compat.c:167-169 `impz_divexact` -/
def impz_divexact (q n d : Id) : M Unit := CHECK (mp_int_div n d (some q) none)

/-- gmp_compat.c:174-192 `impz_divisible_p` -/
def impz_divisible_p (n d : Id) : M Int := do
  let n_is_zero ← mp_int_compare_zero n
  let d_is_zero ← mp_int_compare_zero d
  if d_is_zero = 0 then pure (if n_is_zero = 0 then 1 else 0)
  else withChk mp_int_init fun r => do
    CHECK (mp_int_div n d none (some r))
    let r_is_zero ← mp_int_compare_zero r
    pure (if r_is_zero = 0 then 1 else 0)

/-- gmp_compat.c:196-205 `impz_submul` -/
def impz_submul (rop op1 op2 : Id) : M Unit :=
  withUnchk mp_int_init fun temp => do
    CHECK (mp_int_mul op1 op2 temp)
    CHECK (mp_int_sub rop temp rop)

/-- gmp_compat.c:208-216 `impz_add_ui` -/
def impz_add_ui (rop op1 : Id) (op2 : Nat) : M Unit :=
  withChk (fun t => mp_int_init_uvalue t op2) fun temp => CHECK (mp_int_add op1 temp rop)

/-- gmp_compat.c:220-228 `impz_divexact_ui` -/
def impz_divexact_ui (q n : Id) (d : Nat) : M Unit :=
  withChk (fun t => mp_int_init_uvalue t d) fun temp => CHECK (mp_int_div n temp (some q) none)

/-- gmp_compat.c:231-239 `impz_mul_ui` -/
def impz_mul_ui (rop op1 : Id) (op2 : Nat) : M Unit :=
  withChk (fun t => mp_int_init_uvalue t op2) fun temp => CHECK (mp_int_mul op1 temp rop)

/-- gmp_compat.c:243-257 `impz_pow_ui` -/
def impz_pow_ui (rop base : Id) (exp : Nat) : M Unit := do
  let k ← cif (exp = 0) (mp_int_compare_zero base) (pure 1)
  if k = 0 then CHECK (mp_int_set_value rop 1)
  else withChk (fun t => mp_int_init_uvalue t exp) fun temp => CHECK (mp_int_expt_full base temp rop)

/-- gmp_compat.c:260-268 `impz_sub_ui` -/
def impz_sub_ui (rop op1 : Id) (op2 : Nat) : M Unit :=
  withChk (fun t => mp_int_init_uvalue t op2) fun temp => CHECK (mp_int_sub op1 temp rop)

/-! ### Functions with different behaviour in corner cases -/

/-- gmp_compat.c:277-287 `impz_gcd` -/
def impz_gcd (rop op1 op2 : Id) : M Unit := do
  let op1_is_zero ← mp_int_compare_zero op1
  let op2_is_zero ← mp_int_compare_zero op2
  if op1_is_zero = 0 ∧ op2_is_zero = 0 then mp_int_zero rop
  else CHECK (mp_int_gcd op1 op2 rop)

/-- `malloc(n)` for an array of characters: arbitrary contents.  Failure is not modelled; the code does not
check for it (gmp_compat.c:300, 332, 698). -/
def mallocBytes (n : Nat) : M Bytes := fun env m => .ok ((List.range n).map fun i => env.junk m.next i % 256) m

/-- `tolower` -/
def tolower (c : Nat) : Nat := if 65 ≤ c ∧ c ≤ 90 then c + 32 else c

/-- The argument of `toupper` or `tolower`, a `char` given as its byte: a negative value other than `EOF`
is undefined. -/
def ctypeArg (c : Nat) : M Nat := if c < 128 ∨ c = 255 then pure c else fail .ub

/-- The loops that change the case, gmp_compat.c:307-313 and 339-345; first argument the number of characters
still to do -/
def caseLoop (up : Bool) : Nat → Nat → Bytes → M Bytes
  | 0, _, str => pure str
  | n + 1, i, str => do
    let c ← bget str i
    let c ← ctypeArg c
    let str ← bset str i (if up then toupper c else tolower c)
    caseLoop up n (i + 1) str

/-- gmp_compat.c:290-315 `impz_get_str`; `none` is `NULL`; the result is the array -/
def impz_get_str (str : Option Bytes) (radix : Int) (op : Id) : M Bytes := do
  let r ← cif (radix < 0) (cint (-radix)) (pure radix)
  let len ← mp_int_string_len op (intU32 r)
  let str ← str.elim (mallocBytes len.toNat) pure
  let p ← mp_int_to_string op (intU32 r) str len
  CHECK (pure p.1)
  caseLoop (radix < 0) (len - 1).toNat 0 p.2

/-- gmp_compat.c:318-348 `impq_get_str` -/
def impq_get_str (str : Option Bytes) (radix : Int) (op : MpQ) : M Bytes := do
  let k ← mp_int_compare_value op.den 1
  if k = 0 then impz_get_str str radix op.num
  else do
    let r ← cif (radix < 0) (cint (-radix)) (pure radix)
    let len ← mp_rat_string_len op (intU32 r)
    let str ← str.elim (mallocBytes len.toNat) pure
    let p ← mp_rat_to_string op (intU32 r) str len
    CHECK (pure p.1)
    caseLoop (radix < 0) len.toNat 0 p.2

/-- gmp_compat.c:351-354 `impz_set_str` -/
def impz_set_str (rop : Id) (str : Bytes) (base : Int) : M Int := do
  let res ← mp_int_read_string rop (intU32 base) str
  pure (if res = MP_OK then 0 else -1)

/-- `strchr(str, c)`, as an index; first argument fuel -/
def strchr (c : Nat) (str : Bytes) : Nat → Nat → M (Option Nat)
  | 0, _ => fail .diverge
  | f + 1, i => do
    let x ← bget str i
    if x = c then pure (some i) else if x = 0 then pure none else strchr c str f (i + 1)

/-- gmp_compat.c:357-389 `impq_set_str`; failure of `malloc` (line 365, not checked) is not modelled -/
def impq_set_str (rop : MpQ) (s : Bytes) (base : Int) : M Int := do
  let n ← strlen s (s.length + 1) 0
  let str := s.take (n + 1)
  let slash ← strchr 47 str (n + 1) 0
  let str ← slash.elim (pure str) fun i => bset str i 0
  let resN ← mp_int_read_string rop.num (intU32 base) str
  let resD ← slash.elim (mp_int_set_uvalue rop.den 1) fun i => mp_int_read_string rop.den (intU32 base) (str.drop (i + 1))
  pure (if resN ≠ MP_OK ∨ resD ≠ MP_OK then -1 else 0)

/-- The loop of `get_long_bits`, gmp_compat.c:410-414 -/
def longBitsLoop (digits : Ptr) : Nat → Nat → M Nat
  | 0, out => pure out
  | n + 1, out => do
    let out := u64 (out <<< 16)
    let out := u64 (out <<< 16)
    let d ← rd (digits.add n)
    longBitsLoop digits n (out ||| d)

/-- gmp_compat.c:391-417 `get_long_bits`; `(sizeof(unsigned long) + sizeof(mp_digit) - 1) / sizeof(mp_digit)`
is 2 -/
def get_long_bits (op : Id) : M Nat := do
  let u ← MP_USED op
  let digits_to_copy := if 2 > u then u else 2
  let digits ← MP_DIGITS op
  longBitsLoop digits digits_to_copy 0

/-- gmp_compat.c:420-433 `impz_get_ui` -/
def impz_get_ui (op : Id) : M Nat := do
  let p ← mp_int_to_uint op
  if p.1 = MP_OK then pure (p.2.getD 0)
  else do
    CHECK (pure (if p.1 = MP_RANGE then MP_OK else MP_RANGE))
    if p.1 ≠ MP_RANGE then pure 0 else get_long_bits op

/-- gmp_compat.c:436-464 `impz_get_si` -/
def impz_get_si (op : Id) : M Int := do
  let p ← mp_int_to_int op
  if p.1 = MP_OK then pure (p.2.getD 0)
  else do
    CHECK (pure (if p.1 = MP_RANGE then MP_OK else MP_RANGE))
    if p.1 ≠ MP_RANGE then pure 0
    else do
      let uout ← get_long_bits op
      let uout := uout &&& (18446744073709551615 - 1 <<< 63)
      let s ← MP_SIGN op
      let uout := if s then sub64 0 uout else uout
      pure (toInt64 uout)

/-- gmp_compat.c:467-478 `impz_lcm` -/
def impz_lcm (rop op1 op2 : Id) : M Unit := do
  let op1_is_zero ← mp_int_compare_zero op1
  let op2_is_zero ← mp_int_compare_zero op2
  if op1_is_zero = 0 ∨ op2_is_zero = 0 then mp_int_zero rop
  else do
    CHECK (mp_int_lcm op1 op2 rop)
    CHECK (mp_int_abs rop rop)

/-- gmp_compat.c:482-487 `impz_mul_2exp` -/
def impz_mul_2exp (rop op1 : Id) (op2 : Nat) : M Unit := do
  let k ← mp_int_compare_zero op1
  if k = 0 then mp_int_zero rop else CHECK (mp_int_mul_pow2 op1 (toInt64 op2) rop)

/-! ### Division -/

/-- gmp_compat.c:532-560 `impz_cdiv_q` -/
def impz_cdiv_q (q n d : Id) : M Unit :=
  withChk mp_int_init fun r => do
    let nsign ← mp_int_compare_zero n
    let dsign ← mp_int_compare_zero d
    CHECK (mp_int_div n d (some q) (some r))
    let qsign ← mp_int_compare_zero q
    let rsign ← mp_int_compare_zero r
    if qsign > 0 then cwhen (rsign ≠ 0) (CHECK (mp_int_add_value q 1 q))
    else cwhen (qsign = 0 ∧ rsign ≠ 0 ∧ (nsign > 0 ∧ dsign > 0 ∨ nsign < 0 ∧ dsign < 0)) (CHECK (mp_int_set_value q 1))

/-- gmp_compat.c:563-591 `impz_fdiv_q` -/
def impz_fdiv_q (q n d : Id) : M Unit :=
  withChk mp_int_init fun r => do
    let nsign ← mp_int_compare_zero n
    let dsign ← mp_int_compare_zero d
    CHECK (mp_int_div n d (some q) (some r))
    let qsign ← mp_int_compare_zero q
    let rsign ← mp_int_compare_zero r
    if qsign < 0 then cwhen (rsign ≠ 0) (CHECK (mp_int_sub_value q 1 q))
    else cwhen (qsign = 0 ∧ rsign ≠ 0 ∧ (nsign < 0 ∧ dsign > 0 ∨ nsign > 0 ∧ dsign < 0)) (CHECK (mp_int_set_value q (-1)))

/-- gmp_compat.c:594-621 `impz_fdiv_r` -/
def impz_fdiv_r (r n d : Id) : M Unit :=
  withChk mp_int_init fun q =>
  withChk mp_int_init fun temp =>
  withChk (fun t => mp_int_init_copy t d) fun orig_d =>
  withChk (fun t => mp_int_init_copy t n) fun orig_n => do
    impz_fdiv_q q n d
    let _ ← mp_int_mul q orig_d temp
    let _ ← mp_int_sub orig_n temp r
    pure ()

/-- gmp_compat.c:624-627 `impz_tdiv_q` -/
def impz_tdiv_q (q n d : Id) : M Unit := CHECK (mp_int_div n d (some q) none)

/-- gmp_compat.c:630-653 `impz_fdiv_q_ui` -/
def impz_fdiv_q_ui (q n : Id) (d : Nat) : M Nat :=
  withChk (fun t => mp_int_init_uvalue t d) fun temp =>
  withChk mp_int_init fun r =>
  withChk (fun t => mp_int_init_copy t n) fun orig_n => do
    impz_fdiv_q q n temp
    impz_fdiv_r r orig_n temp
    let p ← mp_int_to_uint r
    CHECK (pure p.1)
    pure (p.2.getD 0)

/-! ### Import and export -/

/-- `HOST_ENDIAN`, gmp_compat.c:47-51; the model is of a little-endian machine -/
def HOST_ENDIAN : Int := -1

/-- Reading through a pointer into an array; the pointer is an index that may be negative. -/
def bgetI (s : Bytes) (i : Int) : M Nat := if 0 ≤ i then bget s i.toNat else fail .ub

/-- Writing through a pointer into an array -/
def bsetI (s : Bytes) (i : Int) (x : Nat) : M Bytes := if 0 ≤ i then bset s i.toNat x else fail .ub

/-- The variables of the loops of `impz_export`: the array, the index `dst` into it, `src` (as the number
of digits passed) and `src_bits` -/
structure Exp where
  buf : Bytes
  dst : Int
  src : Nat
  bits : Nat

/-- gmp_compat.c:714-722, the inner loop for used bytes; first argument `size - j` -/
def expLoop1 (digits : Ptr) (endian : Int) (size used i : Nat) : Nat → Nat → Exp → M (Nat × Exp)
  | 0, j, s => pure (j, s)
  | n + 1, j, s =>
    if u64 (i * size + j) < used then do
      let src := if s.bits = 0 then s.src + 1 else s.src
      let bits := if s.bits = 0 then 32 else s.bits
      let d ← rd (digits.add src)
      let buf ← bsetI s.buf s.dst ((d >>> (32 - bits)) &&& 255)
      expLoop1 digits endian size used i n (j + 1) ⟨buf, s.dst - endian, src, bits - 8⟩
    else pure (j, s)

/-- gmp_compat.c:723-726, the padding; first argument `size - j` -/
def expLoop2 (endian : Int) : Nat → Exp → M Exp
  | 0, s => pure s
  | n + 1, s => do
    let buf ← bsetI s.buf s.dst 0
    expLoop2 endian n { s with buf := buf, dst := s.dst - endian }

/-- gmp_compat.c:713-728, the outer loop; first argument `num_words - i` -/
def expLoop (digits : Ptr) (endian : Int) (size used : Nat) (wordOffset : Int) : Nat → Nat → Exp → M Exp
  | 0, _, s => pure s
  | n + 1, i, s => do
    let p ← expLoop1 digits endian size used i size 0 s
    let s ← expLoop2 endian (size - p.1) p.2
    expLoop digits endian size used wordOffset n (i + 1) { s with dst := s.dst + wordOffset }

/-- `word_offset`, gmp_compat.c:711 and 772: computed in `size_t` and converted -/
def wordOffset (order endian : Int) (size : Nat) : Int :=
  toInt64 ((if endian ≥ 0 then size else sub64 0 size) + (if order < 0 then size else sub64 0 size))

/-- gmp_compat.c:656-732 `impz_export`; the results are the array and `*countp`.  Division by zero (a size of
zero) is undefined.  The initial index, lines 706-707, is within the array if the array is large
enough. -/
def impz_export (rop : Option Bytes) (order : Int) (size : Nat) (endian : Int) (nails : Nat) (op : Id) :
    M (Option Bytes × Nat) := do
  cassert (nails = 0)
  cassert (endian = 1 ∨ endian = 0 ∨ endian = -1)
  cassert (order = 1 ∨ order = -1)
  let k ← mp_int_compare_zero op
  if k = 0 then pure (rop, 0)
  else do
    let len ← mp_int_unsigned_len op
    let used := (len % 18446744073709551616).toNat
    cwhen (size = 0) (fail .ub)
    let num_words := u64 (used + sub64 size 1) / size
    cassert (used > 0)
    let missing := sub64 (u64 (size * num_words)) used
    cassert (missing < size)
    let buf ← rop.elim (mallocBytes (u64 (num_words * size))) pure
    let endian := if endian = 0 then HOST_ENDIAN else endian
    let dst : Int := (if order ≥ 0 then u64 (sub64 num_words 1 * size) else 0) + (if endian ≥ 0 then size - 1 else 0)
    let digits ← MP_DIGITS op
    let s ← expLoop digits endian size used (wordOffset order endian size) num_words 0 ⟨buf, dst, 0, 32⟩
    pure (some s.buf, num_words)

/-- gmp_compat.c:764 the loop that clears the digits; first argument `num_digits - i` -/
def zeroLoop (digits : Ptr) : Nat → Nat → M Unit
  | 0, _ => pure ()
  | n + 1, i => do
    wr (digits.add i) 0
    zeroLoop digits n (i + 1)

/-- gmp_compat.c:775-783, the inner loop; first argument `size - j`; the results are `src`, `dst` (as the
number of digits passed) and `dst_bits`.  The shift is by less than 32 bits. -/
def impLoop1 (op : Bytes) (digits : Ptr) (endian : Int) : Nat → Int → Nat → Nat → M (Int × Nat × Nat)
  | 0, src, dst, bits => pure (src, dst, bits)
  | n + 1, src, dst, bits => do
    let dst' := if bits = 32 then dst + 1 else dst
    let bits' := if bits = 32 then 0 else bits
    let b ← bgetI op src
    let d ← rd (digits.add dst')
    wr (digits.add dst') (d ||| u32 (b <<< bits'))
    impLoop1 op digits endian n (src - endian) dst' (bits' + 8)

/-- gmp_compat.c:774-785, the outer loop; first argument `count - i` -/
def impLoop (op : Bytes) (digits : Ptr) (endian : Int) (size : Nat) (wordOffset : Int) :
    Nat → Int → Nat → Nat → M Unit
  | 0, _, _, _ => pure ()
  | n + 1, src, dst, bits => do
    let p ← impLoop1 op digits endian size src dst bits
    impLoop op digits endian size wordOffset n (p.1 + wordOffset) p.2.1 p.2.2

/-- gmp_compat.c:793, the removal of leading zeros; the argument is `uz_` -/
def impClamp (digits : Ptr) : Nat → M Nat
  | 0 => pure 0
  | 1 => pure 1
  | n + 2 => do
    let d ← rd (digits.add (n + 1))
    if d = 0 then impClamp digits (n + 1) else pure (n + 2)

/-- gmp_compat.c:735-800 `impz_import`; `none` is `NULL` -/
def impz_import (rop : Id) (count : Nat) (order : Int) (size : Nat) (endian : Int) (nails : Nat)
    (op : Option Bytes) : M Unit :=
  op.elim (pure ()) fun op =>
  if count = 0 then pure ()
  else do
    cassert (nails = 0)
    cassert (endian = 1 ∨ endian = 0 ∨ endian = -1)
    cassert (order = 1 ∨ order = -1)
    let endian := if endian = 0 then HOST_ENDIAN else endian
    let total_size := u64 (count * size)
    let num_digits := u64 (total_size + 3) / 4
    withUnchk (fun t => mp_int_init_size t (u32 num_digits)) fun tmp => do
      let digits ← MP_DIGITS tmp
      zeroLoop digits num_digits 0
      let src : Int := (if order ≥ 0 then u64 ((count - 1) * size) else 0) + (if endian ≥ 0 then sub64 size 1 else 0)
      impLoop op digits endian size (wordOffset order endian size) count src 0 0
      setUsed tmp (u32 num_digits)
      let uz ← impClamp digits (u32 num_digits)
      setUsed tmp uz
      let _ ← mp_int_copy tmp rop
      pure ()

/-- gmp_compat.c:803-824 `impz_sizeinbase`; `CHECK((res > 0) == MP_OK)` is `assert(((res > 0) == 0) == 0)` -/
def impz_sizeinbase (op : Id) (base : Int) : M Nat := do
  let k ← mp_int_compare_zero op
  if k = 0 then pure 1
  else do
    let res ← mp_int_string_len op (intU32 base)
    CHECK (pure (if (if res > 0 then (1 : Int) else 0) = MP_OK then 1 else 0))
    let size := sub64 (res % 18446744073709551616).toNat 1
    let k ← mp_int_compare_zero op
    pure (if k < 0 then sub64 size 1 else size)

end Imath
