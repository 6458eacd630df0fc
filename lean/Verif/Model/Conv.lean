import Verif.Model.Int

/-!
# Conversion to and from strings and byte arrays, imath.c:1443-1683

Arrays of `char` or `unsigned char` belong to the caller.  The library never stores a pointer to one
and never accesses one through an `mpz_t`, so such an array is passed to a modelled function as a
list of bytes and, if it may be written, returned as a second result; a pointer into it is an index.
Reading or writing outside the list is undefined behaviour.

`double` arithmetic (imath.c:2675-2689) is exact arithmetic on rationals followed by the rounding
`Env.fl`, of which only the relative error is known.
-/

namespace Imath

abbrev Bytes := List Nat

/-- `s[i]` -/
def bget (s : Bytes) (i : Nat) : M Nat := fun _ m =>
  match s[i]? with
  | some x => .ok x m
  | none => .fault .ub

/-- `s[i] = x` -/
def bset (s : Bytes) (i x : Nat) : M Bytes := fun _ m =>
  if i < s.length then .ok (s.set i x) m else .fault .ub

/-- Conversion to `char` or `unsigned char`. -/
def u8 (x : Nat) : Nat := x % 256

/-- The result of an `int` operation; overflow is undefined. -/
def cint (x : Int) : M Int := if -2147483648 ≤ x ∧ x ≤ 2147483647 then pure x else fail .ub

/-- The rounding of `double` operations. -/
def getFl : M (Rat → Rat) := fun env m => .ok env.fl m

/-! ### Characters (the "C" locale, ASCII) -/

/-- `isspace` -/
def isspace (c : Nat) : Bool := c = 32 ∨ (9 ≤ c ∧ c ≤ 13)
/-- `isdigit` -/
def isdigit (c : Nat) : Bool := 48 ≤ c ∧ c ≤ 57
/-- `isalpha` -/
def isalpha (c : Nat) : Bool := (65 ≤ c ∧ c ≤ 90) ∨ (97 ≤ c ∧ c ≤ 122)
/-- `toupper` -/
def toupper (c : Nat) : Nat := if 97 ≤ c ∧ c ≤ 122 then c - 32 else c

/-- imath.c:2691-2708 `s_ch2val` -/
def s_ch2val (c r : Nat) : Int :=
  if isdigit c then (if (c : Int) - 48 ≥ r then -1 else (c : Int) - 48)
  else if r > 10 ∧ isalpha c then
    (if (toupper c : Int) - 65 + 10 ≥ r then -1 else (toupper c : Int) - 65 + 10)
  else -1

/-- imath.c:2710-2724 `s_val2ch` for `caps = 1`; the argument is non-negative -/
def s_val2ch (v : Nat) : Nat := if v < 10 then v + 48 else toupper (u8 (v - 10 + 97))

/-! ### Output of strings -/

/-- A local `mpz_t t`, initialised by `ini`, whose failure is returned, and cleared at the end (e.g.
imath.c:1455-1486). -/
def withLocal {α : Type} (ini : Id → M Int) (err : Int → α) (k : Id → M α) : M α := do
  let t ← declInt .tmp
  let res ← ini t
  if res ≠ MP_OK then do
    dropInt t
    pure (err res)
  else do
    let r ← k t
    mp_int_clear t
    dropInt t
    pure r

/-- The digit loop of `mp_int_to_string`, imath.c:1466-1473; the count is `limit`.  Returns `cmp`, the
array and the index of the next character. -/
def toStrLoop (t : Id) (radix : Nat) : Nat → Int → Bytes → Nat → M (Int × Bytes × Nat)
  | 0, cmp, str, pos => pure (cmp, str, pos)
  | n + 1, _, str, pos => do
    let cmp ← CMPZ t
    if cmp = 0 then pure (cmp, str, pos)
    else do
      let d ← s_ddiv t (u32 radix)
      let str ← bset str pos (s_val2ch d)
      toStrLoop t radix n cmp str (pos + 1)

/-- The reversal of the elements `u ... v - 1`: imath.c:1477-1481 and `REV`, imath.c:102-110; first
argument fuel -/
def revLoop : Nat → Bytes → Nat → Nat → M Bytes
  | 0, A, u, v => if u + 1 < v then fail .diverge else pure A
  | f + 1, A, u, v =>
    if u + 1 < v then do
      let x ← bget A u
      let y ← bget A (v - 1)
      let A ← bset A u y
      let A ← bset A (v - 1) x
      revLoop f A (u + 1) (v - 1)
    else pure A

/-- imath.c:1443-1490 `mp_int_to_string`.  (The temporary is cleared after the terminator is written,
not before.) -/
def mp_int_to_string (z : Id) (radix : Nat) (str : Bytes) (limit : Int) : M (Int × Bytes) := do
  cassert (limit ≥ 2)
  cassert (2 ≤ radix ∧ radix ≤ 36)
  if (← CMPZ z) = 0 then do
    let str ← bset str 0 (s_val2ch 0)
    let str ← bset str 1 0
    pure (MP_OK, str)
  else
    withLocal (fun t => mp_int_init_copy t z) (fun res => (res, str)) fun t => do
      let neg ← MP_SIGN z
      let str ← cif (neg = true) (bset str 0 45) (pure str)
      let h : Nat := if neg then 1 else 0
      let r ← toStrLoop t radix (limit - (h : Nat)).toNat 0 str h
      let str ← revLoop r.2.2 r.2.1 h r.2.2
      let str ← bset str r.2.2 0
      pure (if r.1 = 0 then MP_OK else MP_TRUNC, str)

/-- The table `s_log2`, imath.c:65-77, in units of 10^-9. -/
def s_log2 : List Nat := [0, 0, 1000000000, 630929754,
    500000000, 430676558, 386852807, 356207187,
    333333333, 315464877, 301029996, 289064826,
    278942946, 270238154, 262649535, 255958025,
    250000000, 244650542, 239812467, 235408913,
    231378213, 227670249, 224243824, 221064729,
    218104292, 215338279, 212746054, 210309918,
    208014598, 205846832, 203795047, 201849087,
    200000000, 198239863, 196561632, 194959022,
    193426404]

/-- imath.c:2675-2682 `s_outlen` -/
def s_outlen (z : Id) (r : Nat) : M Int := do
  cassert (2 ≤ r ∧ r ≤ 36)
  let bits ← mp_int_count_bits z
  let fl ← getFl
  let l ← bget s_log2 r
  let raw := fl (bits * fl (l / 1000000000))
  cint (fl (raw + fl (999999 / 1000000))).floor

/-- imath.c:1492-1502 `mp_int_string_len` -/
def mp_int_string_len (z : Id) (radix : Nat) : M Int := do
  cassert (2 ≤ radix ∧ radix ≤ 36)
  let len ← s_outlen z radix
  let len ← cint (len + 1)
  if (← MP_SIGN z) then cint (len + 1) else pure len

/-! ### Input of strings -/

/-- `while (isspace(*str)) ++str;` imath.c:1515; first argument fuel -/
def skipSpace (str : Bytes) : Nat → Nat → M Nat
  | 0, _ => fail .diverge
  | f + 1, i => do
    let c ← bget str i
    if isspace c then skipSpace str f (i + 1) else pure i

/-- `while ((ch = s_ch2val(*str, radix)) == 0) ++str;` imath.c:1533; first argument fuel -/
def skipZero (str : Bytes) (radix : Nat) : Nat → Nat → M Nat
  | 0, _ => fail .diverge
  | f + 1, i => do
    let c ← bget str i
    if s_ch2val c radix = 0 then skipZero str radix f (i + 1) else pure i

/-- `strlen(str + i)`; first argument fuel -/
def strlen (str : Bytes) : Nat → Nat → M Nat
  | 0, _ => fail .diverge
  | f + 1, i => do
    let c ← bget str i
    if c = 0 then pure 0 else do
      let n ← strlen str f (i + 1)
      pure (n + 1)

/-- imath.c:2684-2689 `s_inlen`; a length that does not fit into `int` is treated as a fault, and so
is the undefined conversion of a `double` of 2^32 or more.  `MP_DIGIT_BIT` is a `size_t`, so the
addition of 31 does not wrap. -/
def s_inlen (len r : Nat) : M Nat := do
  let len ← cint len
  let fl ← getFl
  let l ← bget s_log2 r
  let raw := fl (len / fl (l / 1000000000))
  let bits := (fl (raw + 1 / 2)).floor.toNat
  if bits < 4294967296 then pure (u32 (u32 ((bits + 31) / 32) + 1)) else fail .ub

/-- The digit loop of `mp_int_read_cstring`, imath.c:1541-1545; first argument fuel -/
def readLoop (z : Id) (str : Bytes) (radix : Nat) : Nat → Nat → M Nat
  | 0, _ => fail .diverge
  | f + 1, i => do
    let c ← bget str i
    if c ≠ 0 ∧ s_ch2val c radix ≥ 0 then do
      s_dmul z (u32 radix)
      s_dadd z (s_ch2val c radix).toNat
      readLoop z str radix f (i + 1)
    else pure i

/-- imath.c:1509-1560 `mp_int_read_cstring`; the second result is the index of the character to which
`*end` points -/
def mp_int_read_cstring (z : Id) (radix : Nat) (str : Bytes) : M (Int × Nat) := do
  cassert (2 ≤ radix ∧ radix ≤ 36)
  let i ← skipSpace str (str.length + 1) 0
  let c ← bget str i
  setSign z (decide (c = 45))
  let i := if c = 45 ∨ c = 43 then i + 1 else i
  let i ← skipZero str radix (str.length + 1) i
  let len ← strlen str (str.length + 1) i
  let need ← s_inlen len radix
  if (← s_pad z need) then do
    setUsed z 1
    wr (← MP_DIGITS z) 0
    let i ← readLoop z str radix (str.length + 1) i
    CLAMP z
    cwhen ((← CMPZ z) = 0) (setSign z false)
    let c ← bget str i
    pure (if c ≠ 0 then MP_TRUNC else MP_OK, i)
  else pure (MP_MEMORY, i)

/-- imath.c:1505-1507 `mp_int_read_string` -/
def mp_int_read_string (z : Id) (radix : Nat) (str : Bytes) : M Int := do
  let r ← mp_int_read_cstring z radix str
  pure r.1

/-! ### Byte arrays -/

/-- The loop of `s_2comp`, imath.c:2729-2737; the count is `i + 1` -/
def comp2Loop : Nat → Nat → Bytes → M Bytes
  | 0, _, buf => pure buf
  | i + 1, s, buf => do
    let x ← bget buf i
    let s := (255 - x) + s
    let buf ← bset buf i (s &&& 255)
    comp2Loop i (s >>> 8) buf

/-- imath.c:2726-2740 `s_2comp` -/
def s_2comp (buf : Bytes) (len : Nat) : M Bytes := comp2Loop len 1 buf

/-- The inner loop of `s_tobin`, imath.c:2751-2757; the count is `i`.  The first result tells whether the
loop was left because of the limit (`i > 0`). -/
def tobinByte (uz limit : Nat) : Nat → Nat → Bytes → Nat → M (Bool × Bytes × Nat)
  | 0, _, buf, pos => pure (false, buf, pos)
  | i + 1, d, buf, pos =>
    if pos < limit then do
      let buf ← bset buf pos (u8 d)
      let d := d >>> 8
      if d = 0 ∧ uz = 1 then pure (false, buf, pos + 1) else tobinByte uz limit i d buf (pos + 1)
    else pure (true, buf, pos)

/-- The outer loop of `s_tobin`, imath.c:2747-2763; the count is `uz`, which is the first result -/
def tobinDigits (limit : Nat) : Nat → Ptr → Bytes → Nat → M (Nat × Bytes × Nat)
  | 0, _, buf, pos => pure (0, buf, pos)
  | uz + 1, dz, buf, pos =>
    if pos < limit then do
      let d ← rd dz
      let r ← tobinByte (uz + 1) limit 4 d buf pos
      if r.1 then pure (uz + 1, r.2) else tobinDigits limit uz (dz.add 1) r.2.1 r.2.2
    else pure (uz + 1, buf, pos)

/-- The padding in `s_tobin`, imath.c:2765-2771; `buf[pos - 1]` is outside the array if `pos` is 0 -/
def tobinPad (limit : Nat) (pad : Bool) (r : Nat × Bytes × Nat) : M (Nat × Bytes × Nat) :=
  if pad = true then
    if r.2.2 = 0 then fail .ub
    else do
      let x ← bget r.2.1 (r.2.2 - 1)
      if x >>> 7 ≠ 0 then
        if r.2.2 < limit then do
          let buf ← bset r.2.1 r.2.2 0
          pure (r.1, buf, r.2.2 + 1)
        else pure (1, r.2)
      else pure r
  else pure r

/-- imath.c:2742-2780 `s_tobin`; the results are the result code, the array and `*limpos` -/
def s_tobin (z : Id) (buf : Bytes) (limit : Int) (pad : Bool) : M (Int × Bytes × Nat) := do
  let uz ← MP_USED z
  let dz ← MP_DIGITS z
  let r ← tobinDigits limit.toNat uz dz buf 0
  let r ← tobinPad limit.toNat pad r
  let buf ← revLoop r.2.2 r.2.1 0 r.2.2
  pure (if r.1 = 0 then MP_OK else MP_TRUNC, buf, r.2.2)

/-- imath.c:1580-1591 `mp_int_to_binary` -/
def mp_int_to_binary (z : Id) (buf : Bytes) (limit : Int) : M (Int × Bytes) := do
  let r ← s_tobin z buf limit true
  let neg ← MP_SIGN z
  let buf ← cif (neg = true) (s_2comp r.2.1 r.2.2) (pure r.2.1)
  pure (r.1, buf)

/-- imath.c:1636-1642 `mp_int_to_unsigned` -/
def mp_int_to_unsigned (z : Id) (buf : Bytes) (limit : Int) : M (Int × Bytes) := do
  let r ← s_tobin z buf limit false
  pure (r.1, r.2.1)

/-- The loop of `mp_int_read_binary`, imath.c:1611-1614; the count is `i`, `dz` was read before the loop -/
def readBytes (z : Id) (dz : Ptr) (buf : Bytes) : Nat → Nat → M Unit
  | 0, _ => pure ()
  | n + 1, i => do
    let _ ← s_qmul z 8
    let x ← bget buf i
    let d ← rd dz
    wr dz (d ||| x)
    readBytes z dz buf n (i + 1)

/-- imath.c:1593-1620 `mp_int_read_binary` -/
def mp_int_read_binary (z : Id) (buf : Bytes) (len : Int) : M (Int × Bytes) := do
  cassert (len > 0)
  let bits ← cint (len * 8)
  if (← s_pad z (u32 ((bits.toNat + 31) / 32))) then do
    mp_int_zero z
    let b0 ← bget buf 0
    let buf ← cif (b0 >>> 7 ≠ 0) (do setSign z true; s_2comp buf len.toNat) (pure buf)
    let dz ← MP_DIGITS z
    readBytes z dz buf len.toNat 0
    let neg ← MP_SIGN z
    let buf ← cif (neg = true) (s_2comp buf len.toNat) (pure buf)
    pure (MP_OK, buf)
  else pure (MP_MEMORY, buf)

/-- The loop of `mp_int_read_unsigned`, imath.c:1654-1657 -/
def readBytesU (z : Id) (buf : Bytes) : Nat → Nat → M Unit
  | 0, _ => pure ()
  | n + 1, i => do
    let _ ← s_qmul z 8
    let x ← bget buf i
    let dz ← MP_DIGITS z
    let d ← rd dz
    wr dz (d ||| x)
    readBytesU z buf n (i + 1)

/-- imath.c:1644-1660 `mp_int_read_unsigned` -/
def mp_int_read_unsigned (z : Id) (buf : Bytes) (len : Int) : M Int := do
  cassert (len > 0)
  let bits ← cint (len * 8)
  if (← s_pad z (u32 ((bits.toNat + 31) / 32))) then do
    mp_int_zero z
    readBytesU z buf len.toNat 0
    pure MP_OK
  else pure MP_MEMORY

/-- imath.c:1662-1668 `mp_int_unsigned_len` -/
def mp_int_unsigned_len (z : Id) : M Int := do
  let res ← mp_int_count_bits z
  if res ≤ 0 then pure res
  else do
    let n ← cint (res + 7)
    pure (n / 8)

/-- imath.c:1622-1634 `mp_int_binary_len` -/
def mp_int_binary_len (z : Id) : M Int := do
  let res ← mp_int_count_bits z
  if res ≤ 0 then pure res
  else do
    let bytes ← mp_int_unsigned_len z
    let n ← cint (bytes * 8)
    if n = res then cint (bytes + 1) else pure bytes

/-! ### Error messages -/

/-- imath.c:48-54 `s_error_msg`; `none` is NULL -/
def s_error_msg : List (Option String) := [some "error code 0", some "boolean true",
    some "out of memory", some "argument out of range",
    some "result undefined", some "output truncated",
    some "invalid argument", none]

/-- imath.c:46 `s_unknown_err` -/
def s_unknown_err : String := "unknown result code"

/-- `s_error_msg[i]` -/
def errGet (i : Nat) : M (Option String) := fun _ m =>
  match s_error_msg[i]? with
  | some x => .ok x m
  | none => .fault .ub

/-- The loop of `mp_error_string`, imath.c:1675-1676; first argument fuel -/
def errLoop (res : Int) : Nat → Nat → M Nat
  | 0, _ => fail .diverge
  | f + 1, ix => do
    if (ix : Int) < res then do
      let e ← errGet ix
      if e ≠ none then errLoop res f (ix + 1) else pure ix
    else pure ix

/-- imath.c:1670-1683 `mp_error_string` -/
def mp_error_string (res : Int) : M String := do
  if res > 0 then pure s_unknown_err
  else do
    let res ← cint (-res)
    let ix ← errLoop res 9 0
    let e ← errGet ix
    pure (e.getD s_unknown_err)

end Imath
