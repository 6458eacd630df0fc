import Verif.Model.Alloc
import Verif.Model.Keygen
import Verif.Model.Rsa
import Verif.SpecConv

/-!
# Model of the test driver: `imtest.c` and `imdrover.c`

The program reads test cases from files, runs them, and prints for each one whether the library did what the
test case says.  A file is a list of characters, and the end of the list is its end; errors while reading are
not modelled.  A pointer to a text is the array of the characters from there up to the terminator, which is
included.  Pointers to different fields of a line point to disjoint parts of it, separated by terminators,
and are different arrays here.

The registers `g_zreg[i]` are the variables `.var i`, and the parts of the registers `g_qreg[i]` are the variables
`.var (16 + 2 * i)` and `.var (17 + 2 * i)`.

What is modelled of the output is what is written to `ofp`; messages on the standard error output are not
modelled.  Not modelled: `reset_registers` (imdrover.c:428-433), which is not called, and a failing `calloc`.
-/

namespace Imath

/-- `"%d"` and `"%ld"` -/
def fmtd (n : Int) : Bytes := numeral 10 n

/-- The characters of a text of the program -/
def txt (s : String) : Bytes := s.toList.map Char.toNat

/-! ### Numbers in text (from the C library) -/

/-- The value of a character as a digit; 99 if it is none. -/
def ctoi (c : Nat) : Nat := if isdigit c then c - 48 else if isalpha c then toupper c - 55 else 99

/-- The digits of base `base` at the start of a text: how many there are and their value. -/
def strtoDigits (base : Nat) : Bytes → Nat → Nat → Nat × Nat
  | [], n, a => (n, a)
  | c :: s, n, a => if ctoi c < base then strtoDigits base s (n + 1) (a * base + ctoi c) else (n, a)

/-- Whether a text starts with `0x` and a digit. -/
def hexPrefix (s : Bytes) : Bool :=
  s[0]? = some 48 ∧ (s[1]? = some 120 ∨ s[1]? = some 88) ∧ (s[2]?.any fun c => ctoi c < 16)

/-- The part of `strtol` and `strtoul` that reads: whether there is a minus sign, the magnitude, and the number of
characters used, 0 if there are no digits. -/
def strtoAny (s : Bytes) (base : Nat) : Bool × Nat × Nat :=
  let t := s.dropWhile isspace
  let sg := t.head? = some 45 ∨ t.head? = some 43
  let u := if sg then t.tail else t
  let hex := (base = 0 ∨ base = 16) ∧ hexPrefix u
  let base := if base = 0 then if hex then 16 else if u.head? = some 48 then 8 else 10 else base
  let v := if hex then u.drop 2 else u
  let p := strtoDigits base v 0 0
  (t.head? = some 45, p.2, if p.1 = 0 then 0 else s.length - v.length + p.1)

/-- `strtol`; the second result is the number of characters used -/
def strtol (s : Bytes) (base : Nat) : Int × Nat :=
  let p := strtoAny s base
  let v : Int := if p.1 then -(p.2.1 : Int) else p.2.1
  (if v > 9223372036854775807 then 9223372036854775807 else if v < -9223372036854775808 then -9223372036854775808 else v, p.2.2)

/-- `strtoul(s, NULL, base)` -/
def strtoul (s : Bytes) (base : Nat) : Nat :=
  let p := strtoAny s base
  if p.2.1 > 18446744073709551615 then 18446744073709551615 else if p.1 then sub64 0 p.2.1 else p.2.1

/-- `atoi`; undefined if the value cannot be represented -/
def atoi (str : Bytes) : M Int := do
  let s ← cstr str
  let p := strtoAny s 10
  cint (if p.1 then -(p.2.1 : Int) else p.2.1)

/-! ### imtest.c: lines -/

/-- The loop of `trim_line`, imtest.c:272; the count is `fnw - line + 1` -/
def trimBack (line : Bytes) : Nat → M Bytes
  | 0 => pure line
  | n + 1 => do
    let c ← bget line n
    if isspace c then do
      let line ← bset line n 0
      trimBack line n
    else pure line

/-- imtest.c:259-273 `trim_line`.  The loop of line 265 is the same as the one at imath.c:1515. -/
def trim_line (line : Bytes) : M Bytes := do
  let fnw ← skipSpace line (line.length + 1) 0
  let len ← strlen line (line.length + 1) fnw
  let line ← bmove line 0 fnw len
  trimBack line len

/-- imtest.c:275-281 `is_blank`; first argument fuel -/
def is_blank (line : Bytes) : Nat → Nat → M Bool
  | 0, _ => fail .diverge
  | f + 1, i => do
    let c ← bget line i
    if c ≠ 0 ∧ c ≠ 35 ∧ isspace c then is_blank line f (i + 1) else pure (decide (c = 0 ∨ c = 35))

/-- The loop of `count_fields`, imtest.c:319-322; first argument fuel -/
def countLoop (line : Bytes) (delim : Nat) : Nat → Nat → Nat → M Nat
  | 0, _, _ => fail .diverge
  | f + 1, i, count => do
    let c ← bget line i
    if c = 0 then pure count
    else do
      let more ← cif (c = delim) (do let c' ← bget line (i + 1); pure (decide (c' ≠ 0))) (pure false)
      countLoop line delim f (i + 1) (if more then count + 1 else count)

/-- imtest.c:313-324 `count_fields` -/
def count_fields (line : Bytes) (delim : Nat) : M Nat := do
  let c ← bget line 0
  if c = 0 then pure 0 else countLoop line delim (line.length + 1) 0 1

/-- imtest.c:326-334 `parse_fields`, from the store to `start[pos]` on; `cap` is the number of elements of the
array `start`.  First argument fuel. -/
def parse_fields (delim cap : Nat) : Nat → Nat → Bytes → M (List Bytes)
  | 0, _, _ => fail .diverge
  | f + 1, pos, line => do
    cwhen (cap ≤ pos) (fail .ub)
    let p ← strchr delim line (line.length + 1) 0
    p.elim (pure [line]) fun i => do
      let rest ← parse_fields delim cap f (pos + 1) (line.drop (i + 1))
      pure ((line.take i ++ [0]) :: rest)

/-- imdrover.h:32-40 `testspec_t`; `num_inputs` and `num_outputs` are the lengths of the lists -/
structure Test where
  line : Nat
  file : Bytes
  code : Bytes
  input : List Bytes
  output : List Bytes

/-- Lines 302-305 and 306-309 of `parse_line` -/
def fieldsOf (num : Nat) (line : Bytes) : M (List Bytes) :=
  if num > 0 then parse_fields 44 num (line.length + 1) 0 line else pure []

/-- imtest.c:283-311 `parse_line`; the results are `code`, `input` and `output` -/
def parse_line (line : Bytes) : M (Option (Bytes × List Bytes × List Bytes)) := do
  let code_brk ← strchr 58 line (line.length + 1) 0
  code_brk.elim (pure none) fun i => do
    let in_brk ← strchr 58 line (line.length + 1) (i + 1)
    in_brk.elim (pure none) fun j => do
      let code := line.take i ++ [0]
      let ins := (line.take j ++ [0]).drop (i + 1)
      let outs := line.drop (j + 1)
      let num_inputs ← count_fields ins 44
      let num_outputs ← count_fields outs 44
      let input ← fieldsOf num_inputs ins
      let output ← fieldsOf num_outputs outs
      pure (some (code, input, output))

/-- `fgets` (from the C library): at most `n` characters, up to and including the first line feed; the second result
is what has not been read.  There is at least one character left. -/
def fgets : Nat → Bytes → Bytes × Bytes
  | 0, s => ([], s)
  | _ + 1, [] => ([], [])
  | n + 1, c :: s =>
    if c = 10 then ([c], s)
    else
      let r := fgets n s
      (c :: r.1, r.2)

/-- imtest.c:85 `LINE_MAX` -/
def LINE_MAX : Nat := 4096

/-- The loop of `read_line`, imtest.c:249-253, and lines 255-256.  The arguments are fuel, the rest of the file and
`current_line`; the results are the line, nothing at the end of the file, the rest of the file and
`current_line`. -/
def read_line (limit : Nat) : Nat → Bytes → Nat → M (Option Bytes × Bytes × Nat)
  | 0, _, _ => fail .diverge
  | f + 1, inp, cur =>
    if inp = [] then pure (none, [], cur)
    else do
      let p := fgets (limit - 1) inp
      let line := p.1 ++ [0]
      let blank ← is_blank line (line.length + 1) 0
      if blank then read_line limit f p.2 (cur + 1)
      else do
        let line ← trim_line line
        pure (some line, p.2, cur + 1)

/-! ### imdrover.c: values -/

/-- The static variables of imdrover.c other than the registers: `imath_errno`, `g_output`, `g_bin1` and `g_bin2`;
and what has been written to `ofp` -/
structure Drv where
  errno : Int
  g_output : Bytes
  g_bin1 : Bytes
  g_bin2 : Bytes
  out : Bytes

/-- imdrover.c:62 `OUTPUT_LIMIT` -/
def OUTPUT_LIMIT : Nat := 2048
/-- imdrover.c:63 `NUM_REGS` -/
def NUM_REGS : Nat := 16
/-- imdrover.c:64 `OTHER_ERROR` -/
def OTHER_ERROR : Int := -1024

/-- `g_zreg + pos` -/
def g_zreg (pos : Nat) : M Id := if pos < NUM_REGS then pure (.var pos) else fail .ub

/-- `g_qreg + pos` -/
def g_qreg (pos : Nat) : M MpQ := if pos < NUM_REGS then pure ⟨.var (16 + 2 * pos), .var (17 + 2 * pos)⟩ else fail .ub

/-- The radix tag: imdrover.c:105-130, 136-161 and 171-196.  The results are the radix and the text after the tag. -/
def radixTag (str : Bytes) : M (Option (Nat × Bytes)) := do
  let c ← bget str 0
  if c = 35 then do
    let c ← bget str 1
    pure (
      if c = 120 ∨ c = 88 then some (16, str.drop 2)
      else if c = 100 ∨ c = 68 then some (10, str.drop 2)
      else if c = 111 ∨ c = 79 then some (8, str.drop 2)
      else if c = 98 ∨ c = 66 then some (2, str.drop 2)
      else none)
  else pure (some (10, str))

/-- imdrover.c:104-133 `read_int_value` -/
def read_int_value (z : Id) (str : Bytes) : M Int := do
  let r ← radixTag str
  r.elim (pure MP_RANGE) fun p => mp_int_read_string z p.1 p.2

/-- imdrover.c:135-167 `read_rat_value` -/
def read_rat_value (q : MpQ) (str : Bytes) : M Int := do
  let r ← radixTag str
  r.elim (pure MP_RANGE) fun p => do
    let c ← bget p.2 0
    if c = 64 then mp_rat_read_decimal q p.1 (p.2.drop 1) else mp_rat_read_string q p.1 p.2

/-- imdrover.c:169-200 `read_long`; nothing if the result is `false` -/
def read_long (str : Bytes) : M (Option Int) := do
  let r ← radixTag str
  r.elim (pure none) fun p => do
    let s ← cstr p.2
    let v := strtol s p.1
    pure (if v.2 ≠ 0 ∧ v.2 = s.length then some v.1 else none)

/-- imdrover.c:344-379 `parse_result_code`; nothing if the result is `false`.  (All callers have checked that
`str[0]` is `$`.) -/
def parse_result_code (str : Bytes) : M (Option Int) := do
  let c ← bget str 1
  if c = 35 then do
    let v ← read_long (str.drop 2)
    pure (v.map fun v => toInt32 (v % 4294967296).toNat)
  else do
    let s ← cstr (str.drop 1)
    pure (
      if s = txt "MP_OK" ∨ s = txt "MP_FALSE" then some MP_OK
      else if s = txt "MP_TRUE" then some MP_TRUE
      else if s = txt "MP_MEMORY" then some MP_MEMORY
      else if s = txt "MP_RANGE" then some MP_RANGE
      else if s = txt "MP_UNDEF" then some MP_UNDEF
      else if s = txt "MP_TRUNC" then some MP_TRUNC
      else if s = txt "MP_ROUND_UP" then some MP_ROUND_UP
      else if s = txt "MP_ROUND_DOWN" then some MP_ROUND_DOWN
      else if s = txt "MP_ROUND_HALF_UP" then some MP_ROUND_HALF_UP
      else if s = txt "MP_ROUND_HALF_DOWN" then some MP_ROUND_HALF_DOWN
      else none)

/-- `abs(atoi(str + 1)) - 1`, imdrover.c:216 and 287 -/
def backRef (str : Bytes) : M Int := do
  let n ← atoi (str.drop 1)
  let n ← cint |n|
  pure (n - 1)

/-- The inputs, imdrover.c:209-236 and 280-307.  `reg` are the registers and `rdv` reads a value.  The arguments are
the texts that remain, `in[0]` to `in[i-1]` and `pos`; the results are whether all is well, the array `in`, `pos` and
the texts after `trim_line`. -/
def parseIns {α : Type} (reg : Nat → M α) (rdv : α → Bytes → M Int) :
    List Bytes → List α → Nat → M (Bool × List α × Nat × List Bytes)
  | [], ins, pos => pure (true, ins, pos, [])
  | str :: rest, ins, pos => do
    let str ← trim_line str
    let c ← bget str 0
    if c = 61 then do
      let k ← backRef str
      if k < 0 ∨ k ≥ ins.length then pure (false, ins, pos, str :: rest)
      else
        (ins[k.toNat]?).elim (fail .ub) fun z => do
          let r ← parseIns reg rdv rest (ins ++ [z]) pos
          pure (r.1, r.2.1, r.2.2.1, str :: r.2.2.2)
    else do
      let z ← reg pos
      let res ← rdv z str
      if res ≠ MP_OK then pure (false, ins, pos + 1, str :: rest)
      else do
        let r ← parseIns reg rdv rest (ins ++ [z]) (pos + 1)
        pure (r.1, r.2.1, r.2.2.1, str :: r.2.2.2)

/-- The outputs, imdrover.c:238-268 and 309-339.  `zero` sets a register to zero; `out` says whether `out` is not
`NULL`, and `rval` whether `rval` is not `NULL`.  The arguments are the texts that remain, the elements of `out` so far,
`pos` and `*rval`; the results are whether all is well, the array `out`, `*rval` and the texts after `trim_line`. -/
def parseOuts {α : Type} (reg : Nat → M α) (rdv : α → Bytes → M Int) (zero : α → M Unit) (out rval : Bool) :
    List Bytes → List α → Nat → Int → M (Bool × List α × Int × List Bytes)
  | [], outs, _, code => pure (true, outs, code, [])
  | str :: rest, outs, pos, code => do
    let z ← reg pos
    let str ← trim_line str
    let s ← cstr str
    let c ← bget str 0
    let next := fun code : Int => do
      let r ← parseOuts reg rdv zero out rval rest (if out then outs ++ [z] else outs) (pos + 1) code
      pure (r.1, r.2.1, r.2.2.1, str :: r.2.2.2)
    if s = [63] then do
      zero z
      next code
    else if c = 36 then do
      let k ← parse_result_code str
      k.elim (pure (false, outs, code, str :: rest)) fun k =>
        if rval = false then pure (false, outs, code, str :: rest)
        else do
          zero z
          next k
    else do
      let res ← cif (out = true) (rdv z str) (pure MP_OK)
      if res ≠ MP_OK then pure (false, outs, code, str :: rest) else next code

/-- What `parse_int_values` and `parse_rat_values` leave behind -/
structure Parsed (α : Type) where
  ok : Bool
  ins : List α
  outs : List α
  expect : Int
  t : Test

/-- imdrover.c:202-271 `parse_int_values` and 273-342 `parse_rat_values`; `inn`, `out` and `rval` say which of the
pointers are not `NULL`.  (Without `rval` the default is not stored, but it is not used either.) -/
def parseValues {α : Type} (reg : Nat → M α) (rdv : α → Bytes → M Int) (zero : α → M Unit) (t : Test)
    (inn out rval : Bool) : M (Parsed α) := do
  let p ← cif (inn = true) (parseIns reg rdv t.input [] 0) (pure (true, [], 0, t.input))
  if p.1 = false then pure ⟨false, p.2.1, [], MP_OK, { t with input := p.2.2.2 }⟩
  else do
    let q ← parseOuts reg rdv zero out rval t.output [] p.2.2.1 MP_OK
    pure ⟨q.1, p.2.1, q.2.1, q.2.2.1, { t with input := p.2.2.2, output := q.2.2.2 }⟩

/-- imdrover.c:202-271 `parse_int_values` -/
def parse_int_values (t : Test) (inn out rval : Bool) : M (Parsed Id) :=
  parseValues g_zreg read_int_value mp_int_zero t inn out rval

/-- imdrover.c:273-342 `parse_rat_values` -/
def parse_rat_values (t : Test) (inn out rval : Bool) : M (Parsed MpQ) :=
  parseValues g_qreg read_rat_value mp_rat_zero t inn out rval

/-- The tokens of `strtok(s, ".")` (from the C library): the parts between points that are not empty. -/
def strtok (s : Bytes) : List Bytes := (s.splitOn 46).filter fun t => t ≠ []

/-- The loop of `parse_binary`, imdrover.c:387-394; the results are the number of bytes, or -1, and the array -/
def binLoop (limit : Nat) : List Bytes → Nat → Bytes → M (Int × Bytes)
  | [], pos, buf => pure (pos, buf)
  | tok :: toks, pos, buf =>
    if pos < limit then do
      let v ← read_long (tok ++ [0])
      v.elim (pure (-1, buf)) fun v =>
        if v > 255 ∨ v < 0 then pure (-1, buf)
        else do
          let buf ← bset buf pos v.toNat
          binLoop limit toks (pos + 1) buf
    else pure (pos, buf)

/-- imdrover.c:381-397 `parse_binary`.  (The array of the text is not used afterwards.) -/
def parse_binary (str buf : Bytes) (limit : Nat) : M (Int × Bytes) := do
  let str ← trim_line str
  let s ← cstr str
  binLoop limit (strtok s) 0 buf

/-! ### imdrover.c: the tests on integers -/

/-- imdrover.c:43 `FAIL` -/
def FAIL (d : Drv) (e : Int) : M (Bool × Drv) := pure (false, { d with errno := e })

/-- imdrover.c:46-54 `VCHECK`, `CHECK` and `ECHECK` -/
def VCHECK (d : Drv) (x : M Int) (v : Int) (k : M (Bool × Drv)) : M (Bool × Drv) := do
  let res ← x
  if res ≠ v then FAIL d res else k

/-- `CHECK(f(z, &v))`, imdrover.c:53, for a function that stores a value -/
def CHECKV {α : Type} (d : Drv) (x : M (Int × Option α)) (k : α → M (Bool × Drv)) : M (Bool × Drv) := do
  let p ← x
  if p.1 ≠ MP_OK then FAIL d p.1 else p.2.elim (fail .ub) k

/-- `in[i]` and `out[i]` -/
def nth {α : Type} (l : List α) (i : Nat) : M α := (l[i]?).elim (fail .ub) pure

/-- `ACHECK(parse_int_values(t, in, out, &expect));` -/
def withInts (t : Test) (d : Drv) (inn out rval : Bool) (k : Parsed Id → M (Bool × Drv)) : M (Bool × Drv) := do
  let p ← parse_int_values t inn out rval
  if p.ok then k p else FAIL d MP_BADARG

/-- The same for `parse_rat_values` -/
def withRats (t : Test) (d : Drv) (inn out rval : Bool) (k : Parsed MpQ → M (Bool × Drv)) : M (Bool × Drv) := do
  let p ← parse_rat_values t inn out rval
  if p.ok then k p else FAIL d MP_BADARG

/-- The end of most tests, e.g. imdrover.c:527-532: the register `z` is compared with `out[0]`. -/
def expectInt (d : Drv) (p : Parsed Id) (z : Id) : M (Bool × Drv) :=
  if p.expect = MP_OK then do
    let o ← nth p.outs 0
    let c ← mp_int_compare z o
    if c ≠ 0 then do
      let s ← mp_int_to_string z 10 d.g_output OUTPUT_LIMIT
      FAIL { d with g_output := s.2 } OTHER_ERROR
    else pure (true, d)
  else pure (true, d)

/-- imdrover.c:435-457 `test_init` -/
def test_init (t : Test) (d : Drv) : M (Bool × Drv) :=
  withInts t d true true true fun p => do
    let z ← nth p.ins 0
    let w ← nth p.ins 1
    let s ← cstr p.t.code
    if s = txt "initu" then
      CHECKV d (mp_int_to_uint w) fun uv => VCHECK d (mp_int_init_uvalue z uv) p.expect (expectInt d p z)
    else
      CHECKV d (mp_int_to_int w) fun v => VCHECK d (mp_int_init_value z v) p.expect (expectInt d p z)

/-- imdrover.c:459-481 `test_set` -/
def test_set (t : Test) (d : Drv) : M (Bool × Drv) :=
  withInts t d true true true fun p => do
    let z ← nth p.ins 0
    let w ← nth p.ins 1
    let s ← cstr p.t.code
    if s = txt "setu" then
      CHECKV d (mp_int_to_uint w) fun uv => VCHECK d (mp_int_set_uvalue z uv) p.expect (expectInt d p z)
    else
      CHECKV d (mp_int_to_int w) fun v => VCHECK d (mp_int_set_value z v) p.expect (expectInt d p z)

/-- A test of a function of one operand: imdrover.c:483-511, 602-614 and 808-820 -/
def test1 (f : Id → Id → M Int) (t : Test) (d : Drv) : M (Bool × Drv) :=
  withInts t d true true true fun p => do
    let a ← nth p.ins 0
    let z ← nth p.ins 1
    VCHECK d (f a z) p.expect (expectInt d p z)

/-- A test of a function of two operands: imdrover.c:556-568, 716-756, 794-806 and 838-850 -/
def test2 (f : Id → Id → Id → M Int) (t : Test) (d : Drv) : M (Bool × Drv) :=
  withInts t d true true true fun p => do
    let a ← nth p.ins 0
    let b ← nth p.ins 1
    let z ← nth p.ins 2
    VCHECK d (f a b z) p.expect (expectInt d p z)

/-- A test of a function of an operand and a number: imdrover.c:570-600, 683-697 and 822-836 -/
def test2v (f : Id → Int → Id → M Int) (t : Test) (d : Drv) : M (Bool × Drv) :=
  withInts t d true true true fun p => do
    let a ← nth p.ins 0
    let b ← nth p.ins 1
    let z ← nth p.ins 2
    CHECKV d (mp_int_to_int b) fun v => VCHECK d (f a v z) p.expect (expectInt d p z)

/-- imdrover.c:483-496 `test_neg` -/
def test_neg := test1 mp_int_neg
/-- imdrover.c:498-511 `test_abs` -/
def test_abs := test1 mp_int_abs
/-- imdrover.c:602-614 `test_sqr` -/
def test_sqr := test1 mp_int_sqr
/-- imdrover.c:808-820 `test_sqrt`; `mp_int_sqrt` is an inline function, imath.h:308-311 -/
def test_sqrt := test1 fun a z => mp_int_root a 2 z
/-- imdrover.c:556-568 `test_mul` -/
def test_mul := test2 mp_int_mul
/-- imdrover.c:716-728 `test_exptf` -/
def test_exptf := test2 mp_int_expt_full
/-- imdrover.c:730-742 `test_mod` -/
def test_mod := test2 mp_int_mod
/-- imdrover.c:744-756 `test_gcd` -/
def test_gcd := test2 mp_int_gcd
/-- imdrover.c:794-806 `test_lcm` -/
def test_lcm := test2 mp_int_lcm
/-- imdrover.c:838-850 `test_invmod` -/
def test_invmod := test2 mp_int_invmod
/-- imdrover.c:570-584 `test_mulp2` -/
def test_mulp2 := test2v mp_int_mul_pow2
/-- imdrover.c:586-600 `test_mulv` -/
def test_mulv := test2v mp_int_mul_value
/-- imdrover.c:683-697 `test_expt` -/
def test_expt := test2v mp_int_expt
/-- imdrover.c:822-836 `test_root` -/
def test_root := test2v mp_int_root

/-- imdrover.c:513-533 `test_add` and 535-554 `test_sub`; `codev` is the name of the test with a number -/
def test_addsub (codev : Bytes) (f : Id → Id → Id → M Int) (fv : Id → Int → Id → M Int) (t : Test) (d : Drv) : M (Bool × Drv) :=
  withInts t d true true true fun p => do
    let a ← nth p.ins 0
    let b ← nth p.ins 1
    let z ← nth p.ins 2
    let s ← cstr p.t.code
    if s = codev then CHECKV d (mp_int_to_int b) fun v => VCHECK d (fv a v z) p.expect (expectInt d p z)
    else VCHECK d (f a b z) p.expect (expectInt d p z)

/-- imdrover.c:513-533 `test_add` -/
def test_add := test_addsub (txt "addv") mp_int_add mp_int_add_value
/-- imdrover.c:535-554 `test_sub` -/
def test_sub := test_addsub (txt "subv") mp_int_sub mp_int_sub_value

/-- The message about several results, e.g. imdrover.c:628-631: `mp_int_to_string` is called for the first register,
and for every further one a comma is stored at the end of the text and `mp_int_to_string` is called for the rest of
`g_output`.  The second argument is the index where the text is stored. -/
def joinInts : List Id → Nat → Bytes → M Bytes
  | [], _, buf => pure buf
  | z :: zs, h, buf => do
    let q ← atOff h buf fun s => mp_int_to_string z 10 s (OUTPUT_LIMIT - h)
    if zs = [] then pure q.2
    else do
      let len ← strlen q.2 (q.2.length + 1) h
      let buf ← bset q.2 (h + len) 44
      joinInts zs (h + len + 1) buf

/-- The end of `test_div` and `test_divp2`, imdrover.c:623-634 and 646-657 -/
def expectTwo (d : Drv) (p : Parsed Id) (q r : Id) : M (Bool × Drv) :=
  if p.expect = MP_OK then do
    let o0 ← nth p.outs 0
    let c ← mp_int_compare q o0
    let bad ← cif (c ≠ 0) (pure true) (do
      let o1 ← nth p.outs 1
      let c ← mp_int_compare r o1
      pure (decide (c ≠ 0)))
    if bad then do
      let s ← joinInts [q, r] 0 d.g_output
      FAIL { d with g_output := s } OTHER_ERROR
    else pure (true, d)
  else pure (true, d)

/-- imdrover.c:616-635 `test_div` -/
def test_div (t : Test) (d : Drv) : M (Bool × Drv) :=
  withInts t d true true true fun p => do
    let a ← nth p.ins 0
    let b ← nth p.ins 1
    let q ← nth p.ins 2
    let r ← nth p.ins 3
    VCHECK d (mp_int_div a b (some q) (some r)) p.expect (expectTwo d p q r)

/-- imdrover.c:637-658 `test_divp2` -/
def test_divp2 (t : Test) (d : Drv) : M (Bool × Drv) :=
  withInts t d true true true fun p => do
    let a ← nth p.ins 0
    let b ← nth p.ins 1
    let q ← nth p.ins 2
    let r ← nth p.ins 3
    CHECKV d (mp_int_to_int b) fun p2 => VCHECK d (mp_int_div_pow2 a p2 (some q) (some r)) p.expect (expectTwo d p q r)

/-- imdrover.c:660-681 `test_divv`.  (A remainder that has not been stored is not used, since `expect` is not
`MP_OK` then.) -/
def test_divv (t : Test) (d : Drv) : M (Bool × Drv) :=
  withInts t d true true true fun p => do
    let a ← nth p.ins 0
    let b ← nth p.ins 1
    let q ← nth p.ins 2
    let o0 ← nth p.outs 0
    let o1 ← nth p.outs 1
    CHECKV d (mp_int_to_int b) fun v =>
    CHECKV d (mp_int_to_int o1) fun orem => do
      let r ← mp_int_div_value a v (some q)
      if r.1 ≠ p.expect then FAIL d r.1
      else if p.expect = MP_OK then do
        let c ← mp_int_compare q o0
        r.2.elim (fail .ub) fun rem =>
          if c ≠ 0 ∨ rem ≠ orem then do
            let s ← mp_int_to_string q 10 d.g_output OUTPUT_LIMIT
            let len ← strlen s.2 (s.2.length + 1) 0
            let buf ← bset s.2 len 44
            let buf ← bwrite buf (len + 1) (fmtd rem ++ [0])
            FAIL { d with g_output := buf } OTHER_ERROR
          else pure (true, d)
      else pure (true, d)

/-- imdrover.c:699-714 `test_exptv` -/
def test_exptv (t : Test) (d : Drv) : M (Bool × Drv) :=
  withInts t d true true true fun p => do
    let a ← nth p.ins 0
    let b ← nth p.ins 1
    let z ← nth p.ins 2
    CHECKV d (mp_int_to_int a) fun a =>
    CHECKV d (mp_int_to_int b) fun b => VCHECK d (mp_int_expt_value a b z) p.expect (expectInt d p z)

/-- imdrover.c:758-792 `test_egcd` -/
def test_egcd (t : Test) (d : Drv) : M (Bool × Drv) := do
  let t1 ← g_zreg 8
  let t2 ← g_zreg 9
  withInts t d true true true fun p => do
    let a ← nth p.ins 0
    let b ← nth p.ins 1
    let g ← nth p.ins 2
    let x ← nth p.ins 3
    let y ← nth p.ins 4
    VCHECK d (mp_int_egcd a b g (some x) (some y)) p.expect (
      if p.expect ≠ MP_OK then pure (true, d)
      else do
        let o0 ← nth p.outs 0
        let o1 ← nth p.outs 1
        let o2 ← nth p.outs 2
        let c ← mp_int_compare g o0
        let bad ← cif (c ≠ 0) (pure true) (do
          let c ← mp_int_compare x o1
          cif (c ≠ 0) (pure true) (do
            let c ← mp_int_compare y o2
            pure (decide (c ≠ 0))))
        if bad then do
          let _ ← mp_int_mul x a t1
          let _ ← mp_int_mul y b t2
          let _ ← mp_int_add t1 t2 t2
          let c ← mp_int_compare t2 g
          if c = 0 then pure (true, d)
          else do
            let s ← joinInts [g, x, y] 0 d.g_output
            FAIL { d with g_output := s } OTHER_ERROR
        else pure (true, d))

/-- imdrover.c:852-864 `test_exptmod` -/
def test_exptmod (t : Test) (d : Drv) : M (Bool × Drv) :=
  withInts t d true true true fun p => do
    let a ← nth p.ins 0
    let b ← nth p.ins 1
    let c ← nth p.ins 2
    let z ← nth p.ins 3
    VCHECK d (mp_int_exptmod a b c z) p.expect (expectInt d p z)

/-- imdrover.c:866-880 `test_exptmod_ev` -/
def test_exptmod_ev (t : Test) (d : Drv) : M (Bool × Drv) :=
  withInts t d true true true fun p => do
    let a ← nth p.ins 0
    let b ← nth p.ins 1
    let c ← nth p.ins 2
    let z ← nth p.ins 3
    CHECKV d (mp_int_to_int b) fun v => VCHECK d (mp_int_exptmod_evalue a v c z) p.expect (expectInt d p z)

/-- imdrover.c:882-896 `test_exptmod_bv` -/
def test_exptmod_bv (t : Test) (d : Drv) : M (Bool × Drv) :=
  withInts t d true true true fun p => do
    let a ← nth p.ins 0
    let b ← nth p.ins 1
    let c ← nth p.ins 2
    let z ← nth p.ins 3
    CHECKV d (mp_int_to_int a) fun v => VCHECK d (mp_int_exptmod_bvalue v b c z) p.expect (expectInt d p z)

/-- The end of the tests of comparisons, e.g. imdrover.c:904-909 -/
def expectCmp (d : Drv) (p : Parsed Id) (res : Int) : M (Bool × Drv) :=
  if res ≠ p.expect then do
    let buf ← bwrite d.g_output 0
      (txt "Incorrect comparison result (want " ++ fmtd p.expect ++ txt ", got " ++ fmtd res ++ txt ")" ++ [0])
    FAIL { d with g_output := buf } OTHER_ERROR
  else pure (true, d)

/-- imdrover.c:898-910 `test_comp` -/
def test_comp (t : Test) (d : Drv) : M (Bool × Drv) :=
  withInts t d true false true fun p => do
    let a ← nth p.ins 0
    let b ← nth p.ins 1
    let res ← mp_int_compare a b
    expectCmp d p res

/-- imdrover.c:912-924 `test_ucomp` -/
def test_ucomp (t : Test) (d : Drv) : M (Bool × Drv) :=
  withInts t d true false true fun p => do
    let a ← nth p.ins 0
    let b ← nth p.ins 1
    let res ← mp_int_compare_unsigned a b
    expectCmp d p res

/-- imdrover.c:926-938 `test_zcomp` -/
def test_zcomp (t : Test) (d : Drv) : M (Bool × Drv) :=
  withInts t d true false true fun p => do
    let a ← nth p.ins 0
    let res ← mp_int_compare_zero a
    expectCmp d p res

/-- imdrover.c:940-954 `test_vcomp` -/
def test_vcomp (t : Test) (d : Drv) : M (Bool × Drv) :=
  withInts t d true false true fun p => do
    let a ← nth p.ins 0
    let s ← nth p.t.input 1
    let v ← atoi s
    let res ← mp_int_compare_value a v
    expectCmp d p res

/-- imdrover.c:956-970 `test_uvcomp` -/
def test_uvcomp (t : Test) (d : Drv) : M (Bool × Drv) :=
  withInts t d true false true fun p => do
    let a ← nth p.ins 0
    let s ← nth p.t.input 1
    let s ← cstr s
    let res ← mp_int_compare_uvalue a (strtoul s 0)
    expectCmp d p res

/-- imdrover.c:972-990 `test_tostr` -/
def test_tostr (t : Test) (d : Drv) : M (Bool × Drv) :=
  withInts t d true false false fun p => do
    let a ← nth p.ins 0
    let b ← nth p.ins 1
    let r ← mp_int_to_int b
    if r.1 ≠ MP_OK then FAIL d MP_BADARG
    else r.2.elim (fail .ub) fun radix =>
      if radix < 2 ∨ radix > 36 then FAIL d MP_RANGE
      else do
        let o ← nth p.t.output 0
        let o ← trim_line o
        let len ← mp_int_string_len a radix.toNat
        let q ← mp_int_to_string a radix.toNat d.g_output len
        let d := { d with g_output := q.2 }
        if q.1 ≠ MP_OK then FAIL d q.1
        else do
          let s ← cstr o
          let g ← cstr d.g_output
          if s ≠ g then FAIL d OTHER_ERROR else pure (true, d)

/-- The bytes as they are printed by imdrover.c:1013-1016 and 1093-1096 -/
def dotted (bs : Bytes) : Bytes := List.intercalate [46] (bs.map fun b : Nat => fmtd (b : Int))

/-- imdrover.c:998-1019 and 1078-1099; `lenf` is the function that gives the number of bytes and `binf` the one that
stores them. -/
def expectBin (d : Drv) (p : Parsed Id) (lenf : Id → M Int) (binf : Id → Bytes → Int → M (Int × Bytes)) : M (Bool × Drv) := do
  let a ← nth p.ins 0
  let o ← nth p.t.output 0
  let o ← trim_line o
  let q ← parse_binary o d.g_bin1 OUTPUT_LIMIT
  let d := { d with g_bin1 := q.2 }
  if q.1 < 0 then FAIL d MP_BADARG
  else do
    let test_len ← lenf a
    if test_len ≠ q.1 then do
      let buf ← bwrite d.g_output 0
        (txt "Output lengths do not match (want " ++ fmtd test_len ++ txt ", got " ++ fmtd q.1 ++ txt ")" ++ [0])
      FAIL { d with g_output := buf } OTHER_ERROR
    else do
      let r ← binf a d.g_bin2 OUTPUT_LIMIT
      let d := { d with g_bin2 := r.2 }
      if r.1 ≠ MP_OK then FAIL d r.1
      else if d.g_bin1.take test_len.toNat ≠ d.g_bin2.take test_len.toNat then do
        let buf ← bwrite d.g_output 0 (dotted (d.g_bin2.take test_len.toNat) ++ [0])
        FAIL { d with g_output := buf } OTHER_ERROR
      else pure (true, d)

/-- imdrover.c:992-1020 `test_tobin` -/
def test_tobin (t : Test) (d : Drv) : M (Bool × Drv) :=
  withInts t d true false false fun p => expectBin d p mp_int_binary_len mp_int_to_binary

/-- imdrover.c:1072-1100 `test_to_uns` -/
def test_to_uns (t : Test) (d : Drv) : M (Bool × Drv) :=
  withInts t d true false false fun p => expectBin d p mp_int_unsigned_len mp_int_to_unsigned

/-- imdrover.c:1022-1035 `test_to_int` -/
def test_to_int (t : Test) (d : Drv) : M (Bool × Drv) :=
  withInts t d true true true fun p => do
    let a ← nth p.ins 0
    let r ← mp_int_to_int a
    if r.1 ≠ p.expect then FAIL d r.1
    else if p.expect = MP_OK then do
      let o ← nth p.outs 0
      r.2.elim (fail .ub) fun v => do
        let c ← mp_int_compare_value o v
        if c ≠ 0 then do
          let buf ← bwrite d.g_output 0 (txt "Incorrect value (got " ++ fmtd v ++ txt ")" ++ [0])
          FAIL { d with g_output := buf } OTHER_ERROR
        else pure (true, d)
    else pure (true, d)

/-- imdrover.c:1037-1050 `test_to_uint` -/
def test_to_uint (t : Test) (d : Drv) : M (Bool × Drv) :=
  withInts t d true true true fun p => do
    let a ← nth p.ins 0
    let r ← mp_int_to_uint a
    if r.1 ≠ p.expect then FAIL d r.1
    else if p.expect = MP_OK then do
      let o ← nth p.outs 0
      r.2.elim (fail .ub) fun v => do
        let c ← mp_int_compare_uvalue o v
        if c ≠ 0 then do
          let buf ← bwrite d.g_output 0 (txt "Incorrect value (got " ++ fmtd v ++ txt ")" ++ [0])
          FAIL { d with g_output := buf } OTHER_ERROR
        else pure (true, d)
    else pure (true, d)

/-- imdrover.c:1052-1070 `test_read_binary` and 1102-1120 `test_read_uns`; `f` is the function that reads -/
def test_read (f : Id → Bytes → Int → M (Int × Bytes)) (t : Test) (d : Drv) : M (Bool × Drv) := do
  let z ← g_zreg 1
  withInts t d false true true fun p => do
    let s ← nth p.t.input 0
    let s ← trim_line s
    let q ← parse_binary s d.g_bin1 OUTPUT_LIMIT
    let d := { d with g_bin1 := q.2 }
    if q.1 < 0 then FAIL d MP_BADARG
    else do
      let r ← f z d.g_bin1 q.1
      let d := { d with g_bin1 := r.2 }
      VCHECK d (pure r.1) p.expect (expectInt d p z)

/-- imdrover.c:1052-1070 `test_read_binary` -/
def test_read_binary := test_read mp_int_read_binary

/-- imdrover.c:1102-1120 `test_read_uns` -/
def test_read_uns := test_read fun z buf len => do
  let r ← mp_int_read_unsigned z buf len
  pure (r, buf)

/-- `" %2d.) %s"`, imdrover.c:1146 and 1160, of a number that is not negative -/
def metaItem (i : Nat) (s : Bytes) : Bytes :=
  [32] ++ List.replicate (2 - (fmtd (i + 1)).length) 32 ++ fmtd (i + 1) ++ txt ".) " ++ s

/-- The loop of imdrover.c:1148-1152 from index `j - 1` down -/
def metaRef (ins : List Id) (z : Id) : Nat → Bytes
  | 0 => []
  | j + 1 => if ins[j]? = some z then txt " (=> " ++ fmtd (j + 1) ++ txt ")" else metaRef ins z j

/-- The loop of imdrover.c:1143-1155; the arguments are the registers that remain, `i`, `g_output` and the text so far. -/
def metaIns (ins : List Id) : List Id → Nat → Bytes → Bytes → M (Bytes × Bytes)
  | [], _, buf, out => pure (buf, out)
  | z :: zs, i, buf, out => do
    let q ← mp_int_to_string z 10 buf OUTPUT_LIMIT
    let s ← cstr q.2
    metaIns ins zs (i + 1) q.2 (out ++ metaItem i s ++ metaRef ins z i ++ [10])

/-- The loop of imdrover.c:1157-1161 -/
def metaOuts : List Id → Nat → Bytes → Bytes → M (Bytes × Bytes)
  | [], _, buf, out => pure (buf, out)
  | z :: zs, i, buf, out => do
    let q ← mp_int_to_string z 10 buf OUTPUT_LIMIT
    let s ← cstr q.2
    metaOuts zs (i + 1) q.2 (out ++ metaItem i s ++ [10])

/-- imdrover.c:1122-1165 `test_meta` -/
def test_meta (t : Test) (d : Drv) : M (Bool × Drv) :=
  withInts t d true true true fun p => do
    let code ← cstr p.t.code
    let out := d.out ++ txt "Test '" ++ code ++ txt "' defined at line " ++ fmtd p.t.line ++ [10] ++
      txt "Expected result: " ++ fmtd p.expect ++ [10] ++ txt "Input values: " ++ fmtd p.ins.length ++ [10]
    let r ← metaIns p.ins p.ins 0 d.g_output out
    let r ← metaOuts p.outs 0 r.1 (r.2 ++ txt "Output values: " ++ fmtd p.outs.length ++ [10])
    pure (true, { d with g_output := r.1, out := r.2 })

/-! ### imdrover.c: the tests on rational numbers, and the primality test -/

/-- The end of most tests on rational numbers, e.g. imdrover.c:1174-1178 -/
def expectRat (d : Drv) (p : Parsed MpQ) (z : MpQ) : M (Bool × Drv) :=
  if p.expect = MP_OK then do
    let o ← nth p.outs 0
    let c ← mp_rat_compare z o
    if c ≠ 0 then do
      let s ← mp_rat_to_string z 10 d.g_output OUTPUT_LIMIT
      FAIL { d with g_output := s.2 } OTHER_ERROR
    else pure (true, d)
  else pure (true, d)

/-- A test of a function of one operand: imdrover.c:1167-1207 -/
def testQ1 (f : MpQ → MpQ → M Int) (t : Test) (d : Drv) : M (Bool × Drv) :=
  withRats t d true true true fun p => do
    let a ← nth p.ins 0
    let z ← nth p.ins 1
    VCHECK d (f a z) p.expect (expectRat d p z)

/-- A test of a function of two operands: imdrover.c:1209-1263 -/
def testQ2 (f : MpQ → MpQ → MpQ → M Int) (t : Test) (d : Drv) : M (Bool × Drv) :=
  withRats t d true true true fun p => do
    let a ← nth p.ins 0
    let b ← nth p.ins 1
    let z ← nth p.ins 2
    VCHECK d (f a b z) p.expect (expectRat d p z)

/-- A test of a function of an operand and an integer: imdrover.c:1265-1351 -/
def testQz (f : MpQ → Id → MpQ → M Int) (t : Test) (d : Drv) : M (Bool × Drv) :=
  withRats t d true true true fun p => do
    let a ← nth p.ins 0
    let b ← nth p.ins 1
    let z ← nth p.ins 2
    let i ← mp_rat_is_integer b
    if i then VCHECK d (f a b.num z) p.expect (expectRat d p z) else FAIL d MP_BADARG

/-- imdrover.c:1167-1179 `test_qneg` -/
def test_qneg := testQ1 mp_rat_neg
/-- imdrover.c:1181-1193 `test_qrecip` -/
def test_qrecip := testQ1 mp_rat_recip
/-- imdrover.c:1195-1207 `test_qabs` -/
def test_qabs := testQ1 mp_rat_abs
/-- imdrover.c:1209-1221 `test_qadd` -/
def test_qadd := testQ2 mp_rat_add
/-- imdrover.c:1223-1235 `test_qsub` -/
def test_qsub := testQ2 mp_rat_sub
/-- imdrover.c:1237-1249 `test_qmul` -/
def test_qmul := testQ2 mp_rat_mul
/-- imdrover.c:1251-1263 `test_qdiv` -/
def test_qdiv := testQ2 mp_rat_div
/-- imdrover.c:1265-1285 `test_qaddz` -/
def test_qaddz := testQz mp_rat_add_int
/-- imdrover.c:1287-1307 `test_qsubz` -/
def test_qsubz := testQz mp_rat_sub_int
/-- imdrover.c:1309-1329 `test_qmulz` -/
def test_qmulz := testQz mp_rat_mul_int
/-- imdrover.c:1331-1351 `test_qdivz` -/
def test_qdivz := testQz mp_rat_div_int

/-- imdrover.c:1353-1375 `test_qexpt` -/
def test_qexpt (t : Test) (d : Drv) : M (Bool × Drv) :=
  withRats t d true true true fun p => do
    let a ← nth p.ins 0
    let b ← nth p.ins 1
    let z ← nth p.ins 2
    let i ← mp_rat_is_integer b
    if i then CHECKV d (mp_int_to_int b.num) fun power => VCHECK d (mp_rat_expt a power z) p.expect (expectRat d p z)
    else FAIL d MP_BADARG

/-- imdrover.c:1377-1399 `test_qtostr` -/
def test_qtostr (t : Test) (d : Drv) : M (Bool × Drv) :=
  withRats t d true false false fun p => do
    let a ← nth p.ins 0
    let s ← nth p.t.input 1
    let s ← trim_line s
    let r ← read_long s
    r.elim (FAIL d MP_BADARG) fun radix =>
      if radix < 2 ∨ radix > 36 then FAIL d MP_RANGE
      else do
        let o ← nth p.t.output 0
        let o ← trim_line o
        let len ← mp_rat_string_len a radix.toNat
        let q ← mp_rat_to_string a radix.toNat d.g_output len
        let d := { d with g_output := q.2 }
        if q.1 ≠ MP_OK then FAIL d q.1
        else do
          let s ← cstr o
          let g ← cstr d.g_output
          if s ≠ g then FAIL d OTHER_ERROR else pure (true, d)

/-- imdrover.c:1401-1435 `test_qtodec`.  The radix and the precision are converted to `mp_size`, and the rounding mode to
an enumeration type, which is an `unsigned int`. -/
def test_qtodec (t : Test) (d : Drv) : M (Bool × Drv) :=
  withRats t d true false false fun p => do
    let a ← nth p.ins 0
    let o ← nth p.t.output 0
    let c ← bget o 0
    let expect ← cif (c = 36) (parse_result_code o) (pure (some MP_OK))
    expect.elim (FAIL d OTHER_ERROR) fun expect => do
      let s1 ← nth p.t.input 1
      let s1 ← trim_line s1
      let s2 ← nth p.t.input 2
      let s2 ← trim_line s2
      let s3 ← nth p.t.input 3
      let s3 ← trim_line s3
      let r1 ← read_long s1
      r1.elim (FAIL d MP_BADARG) fun radix => do
        let r2 ← read_long s2
        r2.elim (FAIL d MP_BADARG) fun prec => do
          let r3 ← read_long s3
          r3.elim (FAIL d MP_BADARG) fun mode =>
            if prec < 0 then FAIL d MP_RANGE
            else do
              let o ← trim_line o
              let len ← mp_rat_decimal_len a (intU32 radix) (intU32 prec)
              let q ← mp_rat_to_decimal a (intU32 radix) (intU32 prec) (intU32 mode) d.g_output len
              let d := { d with g_output := q.2 }
              if q.1 ≠ expect then FAIL d q.1
              else if q.1 = MP_OK then do
                let s ← cstr o
                let g ← cstr d.g_output
                if s ≠ g then FAIL d OTHER_ERROR else pure (true, d)
              else pure (true, d)

/-- imdrover.c:1437-1452 `test_qrdec` -/
def test_qrdec (t : Test) (d : Drv) : M (Bool × Drv) := do
  let z ← g_qreg 1
  withRats t d false true true fun p => do
    let s ← nth p.t.input 1
    let s ← trim_line s
    let r ← read_long s
    r.elim (FAIL d MP_BADARG) fun radix => do
      let s0 ← nth p.t.input 0
      VCHECK d (mp_rat_read_decimal z (intU32 radix) s0) p.expect (expectRat d p z)

/-- imdrover.c:1454-1461 `test_is_prime` -/
def test_is_prime (t : Test) (d : Drv) : M (Bool × Drv) :=
  withInts t d true false true fun p => do
    let a ← nth p.ins 0
    VCHECK d (mp_int_is_prime a) p.expect (pure (true, d))

/-! ### imtest.c: running tests -/

/-- imtest.c:87-92 `test_t` -/
structure TestInfo where
  code : String
  num_inputs : Int
  num_outputs : Int
  call : Test → Drv → M (Bool × Drv)

/-- imtest.c:94-157 `g_tests` -/
def g_tests : List TestInfo := [
  ⟨"initu", 2, 1, test_init⟩, ⟨"initv", 2, 1, test_init⟩, ⟨"setu", 2, 1, test_set⟩, ⟨"setv", 2, 1, test_set⟩,
  ⟨"neg", 2, 1, test_neg⟩, ⟨"abs", 2, 1, test_abs⟩, ⟨"add", 3, 1, test_add⟩, ⟨"addv", 3, 1, test_add⟩,
  ⟨"sub", 3, 1, test_sub⟩, ⟨"subv", 3, 1, test_sub⟩, ⟨"mul", 3, 1, test_mul⟩, ⟨"mulp2", 3, 1, test_mulp2⟩,
  ⟨"mulv", 3, 1, test_mulv⟩, ⟨"sqr", 2, 1, test_sqr⟩, ⟨"div", 4, 2, test_div⟩, ⟨"divp2", 4, 2, test_divp2⟩,
  ⟨"divv", 3, 2, test_divv⟩, ⟨"expt", 3, 1, test_expt⟩, ⟨"exptv", 3, 1, test_exptv⟩, ⟨"exptf", 3, 1, test_exptf⟩,
  ⟨"mod", 3, 1, test_mod⟩, ⟨"gcd", 3, 1, test_gcd⟩, ⟨"egcd", 5, 3, test_egcd⟩, ⟨"lcm", 3, 1, test_lcm⟩,
  ⟨"sqrt", 2, 1, test_sqrt⟩, ⟨"root", 3, 1, test_root⟩, ⟨"invmod", 3, 1, test_invmod⟩, ⟨"emod", 4, 1, test_exptmod⟩,
  ⟨"emodev", 4, 1, test_exptmod_ev⟩, ⟨"emodbv", 4, 1, test_exptmod_bv⟩, ⟨"cmp", 2, 1, test_comp⟩, ⟨"cmpu", 2, 1, test_ucomp⟩,
  ⟨"cmpz", 1, 1, test_zcomp⟩, ⟨"cmpv", 2, 1, test_vcomp⟩, ⟨"cmpuv", 2, 1, test_uvcomp⟩, ⟨"tostr", 2, 1, test_tostr⟩,
  ⟨"tobin", 1, 1, test_tobin⟩, ⟨"readbin", 1, 1, test_read_binary⟩, ⟨"to-uns", 1, 1, test_to_uns⟩, ⟨"readuns", 1, 1, test_read_uns⟩,
  ⟨"to-int", 1, 1, test_to_int⟩, ⟨"to-uint", 1, 1, test_to_uint⟩, ⟨"meta", -1, -1, test_meta⟩, ⟨"qneg", 2, 1, test_qneg⟩,
  ⟨"qrecip", 2, 1, test_qrecip⟩, ⟨"qabs", 2, 1, test_qabs⟩, ⟨"qadd", 3, 1, test_qadd⟩, ⟨"qsub", 3, 1, test_qsub⟩,
  ⟨"qmul", 3, 1, test_qmul⟩, ⟨"qdiv", 3, 1, test_qdiv⟩, ⟨"qaddz", 3, 1, test_qaddz⟩, ⟨"qsubz", 3, 1, test_qsubz⟩,
  ⟨"qmulz", 3, 1, test_qmulz⟩, ⟨"qdivz", 3, 1, test_qdivz⟩, ⟨"qexpt", 3, 1, test_qexpt⟩, ⟨"qtostr", 2, 1, test_qtostr⟩,
  ⟨"qtodec", 4, 1, test_qtodec⟩, ⟨"qrdec", 2, 1, test_qrdec⟩, ⟨"isprime", 1, 1, test_is_prime⟩]

/-- imtest.c:164-165 `g_imath_strerr` -/
def g_imath_strerr : List String := ["MP_OK", "MP_TRUE", "MP_MEMORY", "MP_RANGE", "MP_UNDEF", "MP_TRUNC", "MP_BADARG"]

/-- imtest.c:416-423 `error_string` -/
def error_string (res : Int) : M Bytes := do
  let v ← cint |res|
  (g_imath_strerr[v.toNat]?).elim (fail .ub) fun s => pure (txt s)

/-- imtest.c:387-400 `find_test` -/
def find_test (tests : List TestInfo) (code : Bytes) : Option TestInfo := tests.find? fun i => txt i.code = code

/-- The start of the lines printed by `run_test`: `"%s\t%d\t%d\t"` -/
def lineHead (t : Test) (test_num : Nat) : Bytes := t.file ++ [9] ++ fmtd t.line ++ [9] ++ fmtd test_num ++ [9]

/-- imtest.c:336-385 `run_test`; `imath_errmsg` is `g_output` (imdrover.c:422) -/
def run_test (tests : List TestInfo) (test_num : Nat) (t : Test) (d : Drv) : M (Int × Drv) := do
  let code ← cstr t.code
  (find_test tests code).elim (pure (-1, d)) fun info => do
    let errs := (if info.num_inputs ≥ 0 ∧ (t.input.length : Int) ≠ info.num_inputs then 1 else 0) +
      (if info.num_outputs ≥ 0 ∧ (t.output.length : Int) ≠ info.num_outputs then 1 else 0)
    if errs ≠ 0 then pure (-1, d)
    else do
      let r ← info.call t d
      let d := r.2
      if r.1 then pure (1, { d with out := d.out ++ lineHead t test_num ++ txt "OK" ++ [10] })
      else if d.errno ≥ MP_BADARG then do
        let s ← error_string d.errno
        pure (0, { d with out := d.out ++ lineHead t test_num ++ s ++ [10] })
      else do
        let s ← cstr d.g_output
        pure (0, { d with out := d.out ++ lineHead t test_num ++ txt "FAILED" ++ [9] ++ s ++ [10] })

/-- The counters of `process_file` -/
structure Counts where
  test_num : Nat
  num_failed : Nat
  num_bogus : Nat

/-- The loop of `process_file`, imtest.c:214-229.  The arguments are fuel, the rest of the file, `current_line` of
`read_line` and the counters. -/
def processLoop (tests : List TestInfo) (file_name : Bytes) : Nat → Bytes → Nat → Counts → Drv → M (Nat × Counts × Drv)
  | 0, _, _, _, _ => fail .diverge
  | f + 1, inp, cur, n, d => do
    let p ← read_line LINE_MAX (inp.length + 1) inp cur
    p.1.elim (pure (p.2.2, n, d)) fun line => do
      let q ← parse_line line
      q.elim (processLoop tests file_name f p.2.1 p.2.2 { n with num_bogus := n.num_bogus + 1 } d) fun q => do
        let r ← run_test tests (n.test_num + 1) ⟨p.2.2, file_name, q.1, q.2.1, q.2.2⟩ d
        processLoop tests file_name f p.2.1 p.2.2
          ⟨n.test_num + 1, if r.1 = 0 then n.num_failed + 1 else n.num_failed, if r.1 < 0 then n.num_bogus + 1 else n.num_bogus⟩ r.2

/-- imtest.c:206-238 `process_file`; `cur` is `current_line` of `read_line`, and `secs` is the time as it is printed.  The
results are `current_line`, the result and the state. -/
def process_file (tests : List TestInfo) (file_name inp : Bytes) (cur : Nat) (secs : Bytes) (d : Drv) : M (Nat × Bool × Drv) := do
  let r ← processLoop tests file_name (inp.length + 1) inp cur ⟨0, 0, 0⟩ d
  let n := r.2.1
  let d := r.2.2
  let msg := txt "# " ++ file_name ++ [32] ++ fmtd n.test_num ++ txt " tests: " ++
    fmtd ((n.test_num : Int) - n.num_failed - n.num_bogus) ++ txt " passed, " ++ fmtd n.num_failed ++ txt " failed, " ++
    fmtd n.num_bogus ++ txt " errors. (" ++ secs ++ txt " seconds)" ++ [10]
  pure (r.1, decide (n.num_failed = 0 ∧ n.num_bogus = 0), { d with out := d.out ++ msg })

/-- The loop of imdrover.c:417-420; the count is `NUM_REGS - i` -/
def initLoop : Nat → Nat → M Unit
  | 0, _ => pure ()
  | n + 1, i => do
    let z ← g_zreg i
    let r ← mp_int_init z
    cassert (r = MP_OK)
    let q ← g_qreg i
    let r ← mp_rat_init q
    cassert (r = MP_OK)
    initLoop n (i + 1)

/-- imdrover.c:412-426 `init_testing`, which is called once; `atexit` does not fail.  The result is the initial value of
the static variables. -/
def init_testing : M Drv := do
  initLoop NUM_REGS 0
  pure ⟨0, List.replicate OUTPUT_LIMIT 0, List.replicate OUTPUT_LIMIT 0, List.replicate OUTPUT_LIMIT 0, []⟩

/-- The loop of `done_testing`, imdrover.c:402-405; the count is `NUM_REGS - i` -/
def done_testing : Nat → Nat → M Unit
  | 0, _ => pure ()
  | n + 1, i => do
    let z ← g_zreg i
    mp_int_clear z
    let q ← g_qreg i
    mp_rat_clear q
    done_testing n (i + 1)

/-- The loop of `main`, imtest.c:191-201.  `files` are the contents of the files that can be opened; `inp` is the
standard input, or nothing after it has been closed, when reading it is undefined.  `fps k` is the address of the `k`-th
file that is opened; an address may be used again after a file has been closed.  `st` are the variables `current_fp`
and `current_line` of `read_line`.  The results are `exit_status` and the state. -/
def mainLoop (files : Bytes → Option Bytes) (fps : Nat → Nat) (secs : Nat → Bytes) :
    List Bytes → Nat → Option Bytes → Nat × Nat → Int → Drv → M (Int × Drv)
  | [], _, _, _, status, d => pure (status, d)
  | a :: as, k, inp, st, status, d => do
    let next := fun (s : Bytes) (inp : Option Bytes) => do
      let r ← process_file g_tests a s (if fps k = st.1 then st.2 else 0) (secs k) d
      mainLoop files fps secs as (k + 1) inp (fps k, r.1) (if r.2.1 then status else 1) r.2.2
    if a = [45] then inp.elim (fail .ub) fun s => next s none
    else (files a).elim (pure (1, d)) fun s => next s inp

/-- imtest.c:179-204 `main`, and `done_testing`, which is called at the exit.  `current_fp` is 0, `NULL`, at the start.
The results are the status and what is written to the standard output. -/
def imtestMain (args : List Bytes) (files : Bytes → Option Bytes) (inp : Bytes) (fps : Nat → Nat) (secs : Nat → Bytes) :
    M (Int × Bytes) := do
  let d ← init_testing
  let r ← cif (args = []) (do
    let r ← process_file g_tests [45] inp 0 (secs 0) d
    pure (if r.2.1 then (0 : Int) else 1, r.2.2)) (mainLoop files fps secs args 0 (some inp) (0, 0) 0 d)
  done_testing NUM_REGS 0
  pure (r.1, r.2.out)

end Imath
