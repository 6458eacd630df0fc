import Verif.Model.Conv

/-!
# Rational numbers, imrat.c

An `mpq_t` (imrat.h:38-41) is a pair of `mpz_t`; a pointer to one is given by the two `mpz_t`, and two
pointers are equal if both components are.

`mp_rat_alloc` (imrat.c:65-76) and `mp_rat_free` (imrat.c:141-147) are in `Verif.Model.Alloc`.  Not
modelled: `mp_rat_numer_ref`, `mp_rat_denom_ref` (imrat.c:153, 159), which return the components.
-/

namespace Imath

/-- imrat.h:38-41 `mpq_t`; imrat.h:44, 47 `MP_NUMER_P`, `MP_DENOM_P` -/
structure MpQ where
  num : Id
  den : Id
deriving DecidableEq

/-- `INT_MAX` -/
def INT_MAX : Int := 2147483647

/-- imrat.c:34 -/
def MP_NUMER_SIGN (r : MpQ) : M Bool := MP_SIGN r.num
/-- imrat.c:35 -/
def MP_DENOM_SIGN (r : MpQ) : M Bool := MP_SIGN r.den

/-- The two sign assignments in `s_rat_reduce`, imrat.c:883-888 -/
def ratSigns (r : MpQ) : M Unit := do
  let n ← MP_NUMER_SIGN r
  let d ← MP_DENOM_SIGN r
  if n = d then do
    setSign r.den false
    setSign r.num false
  else do
    setSign r.num true
    setSign r.den false

/-- The divisions in `s_rat_reduce`, imrat.c:873-880 -/
def ratDivGcd (r : MpQ) (gcd : Id) : M Int := do
  let c ← mp_int_compare_value gcd 1
  if c ≠ 0 then
    REQUIRE (mp_int_div r.num gcd (some r.num) none) (mp_int_div r.den gcd (some r.den) none)
  else pure MP_OK

/-- imrat.c:856-894 `s_rat_reduce` -/
def s_rat_reduce (r : MpQ) : M Int := do
  let c ← mp_int_compare_zero r.num
  if c = 0 then do
    let _ ← mp_int_set_value r.den 1
    pure MP_OK
  else
    withLocal mp_int_init id fun gcd =>
      REQUIRE (mp_int_gcd r.num r.den gcd) <|
      REQUIRE (ratDivGcd r gcd) do
        ratSigns r
        pure MP_OK

/-- imrat.c:896-941 `s_rat_combine` -/
def s_rat_combine (a b c : MpQ) (comb_f : Id → Id → Id → M Int) : M Int := do
  let k ← mp_int_compare a.den b.den
  if k = 0 then
    REQUIRE (comb_f a.num b.num c.num) <|
    REQUIRE (mp_int_copy a.den c.den) (s_rat_reduce c)
  else
    REQUIRE
      (withLocal (fun t => mp_int_init_copy t a.num) id fun t0 =>
       withLocal (fun t => mp_int_init_copy t b.num) id fun t1 =>
        REQUIRE (mp_int_mul t0 b.den t0) <|
        REQUIRE (mp_int_mul t1 a.den t1) <|
        REQUIRE (comb_f t0 t1 c.num) <|
        mp_int_mul a.den b.den c.den)
      (s_rat_reduce c)

/-- imrat.c:53-63 `mp_rat_init` -/
def mp_rat_init (r : MpQ) : M Int := do
  let res ← mp_int_init r.num
  if res ≠ MP_OK then pure res else do
  let res ← mp_int_init r.den
  if res ≠ MP_OK then do
    mp_int_clear r.num
    pure res
  else mp_int_set_value r.den 1

/-- imrat.c:78 `mp_rat_reduce` -/
def mp_rat_reduce (r : MpQ) : M Int := s_rat_reduce r

/-- imrat.c:80-92 `mp_rat_init_size` -/
def mp_rat_init_size (r : MpQ) (n_prec d_prec : Nat) : M Int := do
  let res ← mp_int_init_size r.num n_prec
  if res ≠ MP_OK then pure res else do
  let res ← mp_int_init_size r.den d_prec
  if res ≠ MP_OK then do
    mp_int_clear r.num
    pure res
  else mp_int_set_value r.den 1

/-- imrat.c:94-104 `mp_rat_init_copy` -/
def mp_rat_init_copy (r old : MpQ) : M Int := do
  let res ← mp_int_init_copy r.num old.num
  if res ≠ MP_OK then pure res else do
  let res ← mp_int_init_copy r.den old.den
  cwhen (res ≠ MP_OK) (mp_int_clear r.num)
  pure res

/-- imrat.c:106-119 `mp_rat_set_value` -/
def mp_rat_set_value (r : MpQ) (numer denom : Int) : M Int :=
  if denom = 0 then pure MP_UNDEF
  else
    REQUIRE (mp_int_set_value r.num numer) <|
    REQUIRE (mp_int_set_value r.den denom) (s_rat_reduce r)

/-- imrat.c:121-134 `mp_rat_set_uvalue` -/
def mp_rat_set_uvalue (r : MpQ) (numer denom : Nat) : M Int :=
  if denom = 0 then pure MP_UNDEF
  else
    REQUIRE (mp_int_set_uvalue r.num numer) <|
    REQUIRE (mp_int_set_uvalue r.den denom) (s_rat_reduce r)

/-- imrat.c:136-139 `mp_rat_clear` -/
def mp_rat_clear (r : MpQ) : M Unit := do
  mp_int_clear r.num
  mp_int_clear r.den

/-- imrat.c:149-151 `mp_rat_numer` -/
def mp_rat_numer (r : MpQ) (z : Id) : M Int := mp_int_copy r.num z

/-- imrat.c:155-157 `mp_rat_denom` -/
def mp_rat_denom (r : MpQ) (z : Id) : M Int := mp_int_copy r.den z

/-- imrat.c:161 `mp_rat_sign` -/
def mp_rat_sign (r : MpQ) : M Bool := MP_NUMER_SIGN r

/-- imrat.c:163-172 `mp_rat_copy` -/
def mp_rat_copy (a c : MpQ) : M Int :=
  REQUIRE (mp_int_copy a.num c.num) (mp_int_copy a.den c.den)

/-- imrat.c:174-177 `mp_rat_zero` -/
def mp_rat_zero (r : MpQ) : M Unit := do
  mp_int_zero r.num
  let _ ← mp_int_set_value r.den 1

/-- imrat.c:179-188 `mp_rat_abs` -/
def mp_rat_abs (a c : MpQ) : M Int :=
  REQUIRE (mp_int_abs a.num c.num) (mp_int_abs a.den c.den)

/-- imrat.c:190-199 `mp_rat_neg` -/
def mp_rat_neg (a c : MpQ) : M Int :=
  REQUIRE (mp_int_neg a.num c.num) (mp_int_copy a.den c.den)

/-- imrat.c:433 `mp_rat_compare_zero` -/
def mp_rat_compare_zero (r : MpQ) : M Int := mp_int_compare_zero r.num

/-- imrat.c:201-219 `mp_rat_recip` -/
def mp_rat_recip (a c : MpQ) : M Int := do
  let k ← mp_rat_compare_zero a
  if k = 0 then pure MP_UNDEF
  else
    REQUIRE (mp_rat_copy a c) do
      mp_int_swap c.num c.den
      let tmp ← MP_NUMER_SIGN c
      let d ← MP_DENOM_SIGN c
      setSign c.num d
      setSign c.den tmp
      pure MP_OK

/-- imrat.c:221-223 `mp_rat_add` -/
def mp_rat_add (a b c : MpQ) : M Int := s_rat_combine a b c mp_int_add

/-- imrat.c:225-227 `mp_rat_sub` -/
def mp_rat_sub (a b c : MpQ) : M Int := s_rat_combine a b c mp_int_sub

/-- imrat.c:229-243 `mp_rat_mul` -/
def mp_rat_mul (a b c : MpQ) : M Int :=
  REQUIRE (mp_int_mul a.num b.num c.num) do
    let k ← mp_int_compare_zero c.num
    if k ≠ 0 then REQUIRE (mp_int_mul a.den b.den c.den) (s_rat_reduce c)
    else s_rat_reduce c

/-- imrat.c:245-281 `mp_rat_div` -/
def mp_rat_div (a b c : MpQ) : M Int := do
  let k ← mp_rat_compare_zero b
  if k = 0 then pure MP_UNDEF
  else if c = a ∨ c = b then
    REQUIRE
      (withLocal mp_int_init id fun tmp =>
        REQUIRE (mp_int_mul a.num b.den tmp) <|
        REQUIRE (mp_int_mul a.den b.num c.den) <|
        mp_int_copy tmp c.num)
      (s_rat_reduce c)
  else
    REQUIRE (mp_int_mul a.num b.den c.num) <|
    REQUIRE (mp_int_mul a.den b.num c.den) (s_rat_reduce c)

/-- imrat.c:283-305 `mp_rat_add_int` -/
def mp_rat_add_int (a : MpQ) (b : Id) (c : MpQ) : M Int :=
  withLocal (fun t => mp_int_init_copy t b) id fun tmp =>
    REQUIRE (mp_int_mul tmp a.den tmp) <|
    REQUIRE (mp_rat_copy a c) <|
    REQUIRE (mp_int_add c.num tmp c.num) (s_rat_reduce c)

/-- imrat.c:307-329 `mp_rat_sub_int` -/
def mp_rat_sub_int (a : MpQ) (b : Id) (c : MpQ) : M Int :=
  withLocal (fun t => mp_int_init_copy t b) id fun tmp =>
    REQUIRE (mp_int_mul tmp a.den tmp) <|
    REQUIRE (mp_rat_copy a c) <|
    REQUIRE (mp_int_sub c.num tmp c.num) (s_rat_reduce c)

/-- imrat.c:331-342 `mp_rat_mul_int` -/
def mp_rat_mul_int (a : MpQ) (b : Id) (c : MpQ) : M Int :=
  REQUIRE (mp_rat_copy a c) <|
  REQUIRE (mp_int_mul c.num b c.num) (s_rat_reduce c)

/-- imrat.c:344-358 `mp_rat_div_int` -/
def mp_rat_div_int (a : MpQ) (b : Id) (c : MpQ) : M Int := do
  let k ← mp_int_compare_zero b
  if k = 0 then pure MP_UNDEF
  else
    REQUIRE (mp_rat_copy a c) <|
    REQUIRE (mp_int_mul c.den b c.den) (s_rat_reduce c)

/-- imrat.c:360-377 `mp_rat_expt` -/
def mp_rat_expt (a : MpQ) (b : Int) (c : MpQ) : M Int :=
  if b = 0 then mp_rat_set_value c 1 1
  else if b = 1 then mp_rat_copy a c
  else REQUIRE (mp_int_expt a.num b c.num) (mp_int_expt a.den b c.den)

/-- imrat.c:401-431 `mp_rat_compare_unsigned` -/
def mp_rat_compare_unsigned (a b : MpQ) : M Int := do
  let k ← mp_int_compare_unsigned a.den b.den
  if k = 0 then mp_int_compare_unsigned a.num b.num
  else
    withLocal (fun t => mp_int_init_copy t a.num) (fun _ => INT_MAX) fun t0 =>
    withLocal (fun t => mp_int_init_copy t b.num) (fun _ => INT_MAX) fun t1 => do
      let res ← mp_int_mul t0 b.den t0
      if res ≠ MP_OK then pure INT_MAX else do
      let res ← mp_int_mul t1 a.den t1
      if res ≠ MP_OK then pure INT_MAX else
      mp_int_compare_unsigned t0 t1

/-- imrat.c:379-399 `mp_rat_compare` -/
def mp_rat_compare (a b : MpQ) : M Int := do
  let na ← MP_NUMER_SIGN a
  let nb ← MP_NUMER_SIGN b
  if na ≠ nb then pure (if na = false then 1 else -1)
  else do
    let cmp ← mp_rat_compare_unsigned a b
    let na ← MP_NUMER_SIGN a
    if na = false then pure cmp else cint (-cmp)

/-- imrat.c:435-452 `mp_rat_compare_value`.  (`mp_rat_init` is split: if it failed after the first
component, nothing would be cleared twice.) -/
def mp_rat_compare_value (r : MpQ) (n d : Int) : M Int :=
  withLocal mp_int_init (fun _ => INT_MAX) fun num =>
  withLocal mp_int_init (fun _ => INT_MAX) fun den => do
    let res ← mp_int_set_value den 1
    if res ≠ MP_OK then pure INT_MAX else do
    let res ← mp_rat_set_value ⟨num, den⟩ n d
    if res ≠ MP_OK then pure INT_MAX else
    mp_rat_compare r ⟨num, den⟩

/-- imrat.c:454-456 `mp_rat_is_integer` -/
def mp_rat_is_integer (r : MpQ) : M Bool := do
  let k ← mp_int_compare_value r.den 1
  pure (decide (k = 0))

/-- imrat.c:458-467 `mp_rat_to_ints`; the second and third results are the values stored, if any -/
def mp_rat_to_ints (r : MpQ) : M (Int × Option Int × Option Int) := do
  let p ← mp_int_to_int r.num
  if p.1 ≠ MP_OK then pure (p.1, p.2, none)
  else do
    let q ← mp_int_to_int r.den
    pure (q.1, p.2, q.2)

/-! ### Output -/

/-- Use of the array from the index `h`: `str + h` is passed to a function that writes to it. -/
def atOff (h : Nat) (str : Bytes) (f : Bytes → M (Int × Bytes)) : M (Int × Bytes) :=
  if h ≤ str.length then do
    let p ← f (str.drop h)
    pure (p.1, str.take h ++ p.2)
  else fail .ub

/-- imrat.c:469-493 `mp_rat_to_string` -/
def mp_rat_to_string (r : MpQ) (radix : Nat) (str : Bytes) (limit : Int) : M (Int × Bytes) := do
  let p ← mp_int_to_string r.num radix str limit
  if p.1 ≠ MP_OK then pure p
  else do
    let k ← mp_int_compare_zero r.num
    if k = 0 then pure (MP_OK, p.2)
    else do
      let len ← strlen p.2 (p.2.length + 1) 0
      let limit := limit - len
      if limit = 0 then pure (MP_TRUNC, p.2)
      else do
        let str ← bset p.2 len 47
        atOff (len + 1) str fun s => mp_int_to_string r.den radix s (limit - 1)

/-- A local `mpz_t` as in `withLocal`, but not cleared if the second result is `true`: the function has
returned without going to `CLEANUP` (imrat.c:581). -/
def withLocalL {α : Type} (ini : Id → M Int) (err : Int → α) (k : Id → M (α × Bool)) : M (α × Bool) := do
  let t ← declInt .tmp
  let res ← ini t
  if res ≠ MP_OK then do
    dropInt t
    pure (err res, false)
  else do
    let r ← k t
    cwhen (r.2 = false) (mp_int_clear t)
    dropInt t
    pure r

/-- The loop that counts leading zeroes, imrat.c:518-523; the first argument is `zprec - lead_0`.  The
results are the result code and `lead_0`. -/
def decLead (den t1 : Id) (radix : Nat) : Nat → Nat → M (Int × Nat)
  | 0, lead_0 => pure (MP_OK, lead_0)
  | n + 1, lead_0 => do
    let k ← mp_int_compare t1 den
    if k < 0 then do
      let res ← mp_int_mul_value t1 radix t1
      if res ≠ MP_OK then pure (res, lead_0) else decLead den t1 radix n (lead_0 + 1)
    else pure (MP_OK, lead_0)

/-- The computation of the digits in `mp_rat_to_decimal`, imrat.c:507-537.  The results are the result
code and `lead_0`. -/
def decDigits (den t0 t1 t2 : Id) (radix : Nat) (zprec : Int) : M (Int × Nat) := do
  let _ ← mp_int_abs t0 t0
  let res ← mp_int_div t0 den (some t0) (some t1)
  if res ≠ MP_OK then pure (res, 0) else do
  let p ← decLead den t1 radix zprec.toNat 0
  if p.1 ≠ MP_OK then pure p else do
  let res ← cif (zprec > p.2)
    (REQUIRE (mp_int_expt_value radix (zprec - p.2) t2) (mp_int_mul t1 t2 t1)) (pure MP_OK)
  if res ≠ MP_OK then pure (res, p.2) else do
  let res ← mp_int_div t1 den (some t1) (some t2)
  pure (res, p.2)

/-- Addition of 1 to the last digit shown, imrat.c:550-554 and 569-573 -/
def decIncr (t0 t1 : Id) (prec : Nat) : M Int :=
  if prec = 0 then mp_int_add_value t0 1 t0 else mp_int_add_value t1 1 t1

/-- imrat.h:50-55 `MP_ROUND_DOWN` -/
def MP_ROUND_DOWN : Nat := 0
/-- imrat.h:50-55 `MP_ROUND_HALF_UP` -/
def MP_ROUND_HALF_UP : Nat := 1
/-- imrat.h:50-55 `MP_ROUND_UP` -/
def MP_ROUND_UP : Nat := 2
/-- imrat.h:50-55 `MP_ROUND_HALF_DOWN` -/
def MP_ROUND_HALF_DOWN : Nat := 3

/-- The rounding in `mp_rat_to_decimal`, imrat.c:545-585.  The second result is `true` if the function
returns here. -/
def decRound (den t0 t1 t2 : Id) (prec round : Nat) : M (Int × Bool) :=
  if round = MP_ROUND_UP then do
    let k ← mp_int_compare_zero t2
    if k ≠ 0 then do
      let res ← decIncr t0 t1 prec
      pure (res, false)
    else pure (MP_OK, false)
  else if round = MP_ROUND_HALF_UP ∨ round = MP_ROUND_HALF_DOWN then do
    let res ← mp_int_mul_pow2 t2 1 t2
    if res ≠ MP_OK then pure (res, false) else do
    let cmp ← mp_int_compare t2 den
    let cmp := if round = MP_ROUND_HALF_UP then cmp + 1 else cmp
    if cmp > 0 then do
      let res ← decIncr t0 t1 prec
      pure (res, false)
    else pure (MP_OK, false)
  else if round = MP_ROUND_DOWN then pure (MP_OK, false)
  else pure (MP_BADARG, true)

/-- `memset(s + i, c, n)`; the count is `n` -/
def bfill (c : Nat) : Nat → Bytes → Nat → M Bytes
  | 0, s, _ => pure s
  | n + 1, s, i => do
    let s ← bset s i c
    bfill c n s (i + 1)

/-- The fractional part in `mp_rat_to_decimal`, imrat.c:608-620; `pos` is the index `start - str`.  If
`lead_0` is 0, the third argument of `memset` is the largest `size_t`. -/
def decFrac (t1 : Id) (radix : Nat) (zprec : Int) (lead_0 : Nat) (str : Bytes) (pos : Nat) (left : Int) :
    M (Int × Bytes) := do
  let str ← bset str pos 46
  let left := left - 1
  let z ← cint (zprec + 1)
  if left < z then pure (MP_TRUNC, str)
  else if lead_0 = 0 then fail .ub
  else do
    let str ← bfill 48 (lead_0 - 1) str (pos + 1)
    atOff (pos + 1 + (lead_0 - 1)) str fun s => mp_int_to_string t1 radix s (left - lead_0)

/-- The output in `mp_rat_to_decimal`, imrat.c:590-620 -/
def decOut (num t0 t1 : Id) (radix prec : Nat) (zprec : Int) (lead_0 : Nat) (str : Bytes) (limit : Int) :
    M (Int × Bytes) := do
  let neg ← MP_SIGN num
  let c0 ← mp_int_compare_zero t0
  let c1 ← mp_int_compare_zero t1
  let neg := decide (neg = true ∧ (c0 ≠ 0 ∨ c1 ≠ 0))
  let str ← cif (neg = true) (bset str 0 45) (pure str)
  let h : Nat := if neg then 1 else 0
  let left := limit - (h : Nat)
  let p ← atOff h str fun s => mp_int_to_string t0 radix s left
  if p.1 ≠ MP_OK then pure p else do
  let len ← strlen p.2 (p.2.length + 1) h
  if prec = 0 then pure (MP_OK, p.2)
  else decFrac t1 radix zprec lead_0 p.2 (h + len) (left - len)

/-- imrat.c:495-626 `mp_rat_to_decimal`; `prec` is an `mp_size`, so less than 2^32 -/
def mp_rat_to_decimal (r : MpQ) (radix prec round : Nat) (str : Bytes) (limit : Int) : M (Int × Bytes) := do
  let p ←
    withLocalL (fun t => mp_int_init_copy t r.num) (fun res => (res, str)) fun t0 =>
    withLocalL mp_int_init (fun res => (res, str)) fun t1 =>
    withLocalL mp_int_init (fun res => (res, str)) fun t2 => do
      let zprec := toInt32 prec
      let p ← decDigits r.den t0 t1 t2 radix zprec
      if p.1 ≠ MP_OK then pure ((p.1, str), false) else do
      let q ← decRound r.den t0 t1 t2 prec round
      if q.1 ≠ MP_OK then pure ((q.1, str), q.2) else do
      let o ← decOut r.num t0 t1 radix prec zprec p.2 str limit
      pure (o, false)
  pure p.1

/-- imrat.c:628-642 `mp_rat_string_len` -/
def mp_rat_string_len (r : MpQ) (radix : Nat) : M Int := do
  let n_len ← mp_int_string_len r.num radix
  let k ← mp_int_compare_zero r.num
  let d_len ← cif (k ≠ 0) (mp_int_string_len r.den radix) (pure 0)
  cint (n_len + d_len)

/-- imrat.c:644-655 `mp_rat_decimal_len` -/
def mp_rat_decimal_len (r : MpQ) (radix prec : Nat) : M Int := do
  let z_len ← mp_int_string_len r.num radix
  let f_len : Int := if prec = 0 then 1 else toInt32 (1 + prec + 1)
  cint (z_len + f_len)

/-! ### Input -/

/-- The value assigned to `*end` by `mp_int_read_cstring`, if any (imath.c:1535, 1551) -/
def endOf (p : Int × Nat) (off : Nat) : Option Nat := if p.1 = MP_MEMORY then none else some (off + p.2)

/-- imrat.c:661-697 `mp_rat_read_cstring`; the second result is the index assigned to `*end`, if any.
(At imrat.c:679 the result of `mp_int_set_value` is ignored.) -/
def mp_rat_read_cstring (r : MpQ) (radix : Nat) (str : Bytes) : M (Int × Option Nat) := do
  let p ← mp_int_read_cstring r.num radix str
  if p.1 ≠ MP_OK ∧ p.1 ≠ MP_TRUNC then pure (p.1, none) else do
  let sp ← skipSpace str (str.length + 1) p.2
  let c ← bget str sp
  if c ≠ 47 then do
    let _ ← mp_int_set_value r.den 1
    pure (p.1, some p.2)
  else do
    let q ← mp_int_read_cstring r.den radix (str.drop (sp + 1))
    if q.1 ≠ MP_OK then pure (q.1, endOf q (sp + 1)) else do
    let k ← mp_int_compare_zero r.den
    if k = 0 then pure (MP_UNDEF, endOf q (sp + 1)) else do
    let res ← s_rat_reduce r
    pure (res, endOf q (sp + 1))

/-- imrat.c:657-659 `mp_rat_read_string` -/
def mp_rat_read_string (r : MpQ) (radix : Nat) (str : Bytes) : M Int := do
  let p ← mp_rat_read_cstring r radix str
  pure p.1

/-- `while (mp_int_divisible_value(&frac, radix)) ...` imrat.c:789-793; first argument fuel -/
def stripLoop (frac : Id) (radix : Nat) : Nat → M Int
  | 0 => fail .diverge
  | f + 1 => do
    let d ← mp_int_divisible_value frac radix
    if d = true then do
      let p ← mp_int_div_value frac radix (some frac)
      if p.1 ≠ MP_OK then pure p.1 else stripLoop frac radix f
    else pure MP_OK

/-- `while (save[num_lz] == '0') ++num_lz;` imrat.c:796-798; first argument fuel; `i` is the index
`save + num_lz` and the result `num_lz` -/
def countZero (str : Bytes) : Nat → Nat → M Nat
  | 0, _ => fail .diverge
  | f + 1, i => do
    let c ← bget str i
    if c = 48 then do
      let n ← countZero str f (i + 1)
      pure (n + 1)
    else pure 0

/-- `while (mp_int_compare(MP_DENOM_P(r), &frac) < 0) ...` imrat.c:804-809; first argument fuel -/
def growLoop (den frac : Id) (radix : Nat) : Nat → M Int
  | 0 => fail .diverge
  | f + 1 => do
    let k ← mp_int_compare den frac
    if k < 0 then do
      let res ← mp_int_mul_value den radix den
      if res ≠ MP_OK then pure res else growLoop den frac radix f
    else pure MP_OK

/-- `while (num_lz > 0) ...` imrat.c:812-819; the argument is `num_lz` -/
def shiftLoop (den : Id) (radix : Nat) : Nat → M Int
  | 0 => pure MP_OK
  | n + 1 => do
    let res ← mp_int_mul_value den radix den
    if res ≠ MP_OK then pure res else shiftLoop den radix n

/-- The fractional part of `mp_rat_read_cdecimal`, imrat.c:767-850; `i` is the index `endp - str`.  (The
value of `num_lz` is checked to fit into `int` after the loop rather than in each step.) -/
def readFrac (r : MpQ) (radix : Nat) (str : Bytes) (i : Nat) (osign : Bool) : M (Int × Option Nat) :=
  withLocal mp_int_init (fun res => (res, none)) fun frac => do
    let p ← mp_int_read_cstring frac radix (str.drop i)
    if p.1 ≠ MP_OK ∧ p.1 ≠ MP_TRUNC then pure (p.1, none) else do
    let k ← mp_int_compare_zero frac
    if k = 0 then pure (p.1, some (i + p.2)) else do
    let res ← stripLoop frac radix (str.length + 1)
    if res ≠ MP_OK then pure (res, none) else do
    let num_lz ← countZero str (str.length + 1) i
    let _ ← cint num_lz
    let _ ← mp_int_set_value r.den radix
    let res ←
      REQUIRE (growLoop r.den frac radix (str.length + 1)) <|
      REQUIRE (shiftLoop r.den radix num_lz) <|
      REQUIRE (mp_int_mul r.num r.den r.num) do
        setSign r.num false
        REQUIRE (mp_int_add r.num frac r.num) do
          setSign r.num osign
          s_rat_reduce r
    if res ≠ MP_OK then pure (res, none)
    else pure (p.1, some (i + p.2))

/-- imrat.c:723-851 `mp_rat_read_cdecimal`; the second result is the index assigned to `*end`, if any -/
def mp_rat_read_cdecimal (r : MpQ) (radix : Nat) (str : Bytes) : M (Int × Option Nat) := do
  let i ← skipSpace str (str.length + 1) 0
  let c ← bget str i
  let osign := decide (c = 45)
  let p ← mp_int_read_cstring r.num radix (str.drop i)
  if p.1 ≠ MP_OK ∧ p.1 ≠ MP_TRUNC then pure (p.1, none) else do
  let _ ← mp_int_set_value r.den 1
  let c ← bget str (i + p.2)
  if c ≠ 46 then pure (p.1, some (i + p.2)) else do
  let c ← bget str (i + p.2 + 1)
  if c = 0 then pure (MP_OK, some (i + p.2 + 1))
  else if isspace c = true ∨ c = 45 ∨ c = 43 then pure (MP_TRUNC, none)
  else readFrac r radix str (i + p.2 + 1) osign

/-- imrat.c:719-721 `mp_rat_read_decimal` -/
def mp_rat_read_decimal (r : MpQ) (radix : Nat) (str : Bytes) : M Int := do
  let p ← mp_rat_read_cdecimal r radix str
  pure p.1

/-- imrat.c:704-717 `mp_rat_read_ustring`; the second result is the index assigned to `*end`, or `none`
if `*end` is a pointer to another, empty, string (imrat.c:706).  If `mp_rat_read_cdecimal` does not
assign `endp`, the earlier value remains. -/
def mp_rat_read_ustring (r : MpQ) (radix : Nat) (str : Bytes) : M (Int × Option Nat) := do
  let radix := if radix = 0 then 10 else radix
  let p ← mp_rat_read_cstring r radix str
  if p.1 = MP_TRUNC then do
    let c ← p.2.elim (pure 0) (fun e => bget str e)
    if c = 46 then do
      let q ← mp_rat_read_cdecimal r radix str
      pure (q.1, q.2.orElse fun _ => p.2)
    else pure p
  else pure p

end Imath
