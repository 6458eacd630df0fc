import Verif.Model.Examples
import Verif.Model.Rsa

/-!
# Model of the timing program and of the small test programs

`imtimer.c`, `tests/bug-swap.c`, `tests/bug-qread.c`, `tests/bintest.c` and `tests/rtest.c`.  The numeric
arguments of the programs (converted with `atoi`) are given as numbers.  What is modelled of the output is
what is said at each program.  Not modelled: wrong usage, messages on the standard error output, the clock,
and a failing `malloc` or `calloc` of an array of the program itself.
-/

namespace Imath

/-! ### imtimer.c -/

/-- The inner loop of `mp_int_random`, imtimer.c:204-209.  `rnd n` is the `n`-th result of `rand()`; `p` results have
been used before. -/
def randDigit (rnd : Nat → Nat) (p : Nat) : Nat → Nat → Nat
  | 0, d => d
  | n + 1, d => randDigit rnd (p + 1) n (u32 (d <<< 8) ||| (rnd p &&& 255))

/-- The loop of `mp_int_random`, imtimer.c:203-212; the first argument is `prec - i` -/
def randLoop (z : Id) (rnd : Nat → Nat) : Nat → Nat → Nat → M Nat
  | 0, _, p => pure p
  | n + 1, i, p => do
    let dz ← MP_DIGITS z
    wr (dz.add i) (randDigit rnd p 4 0)
    randLoop z rnd n (i + 1) (p + 4)

/-- imtimer.c:198-214 `mp_int_random`; the result is the number of results of `rand()` used so far -/
def mp_int_random (z : Id) (prec : Int) (rnd : Nat → Nat) (p : Nat) : M Nat := do
  let al := toInt32 (← MP_ALLOC z)
  let prec := if prec > al then al else prec
  let p ← randLoop z rnd prec.toNat 0 p
  setUsed z (u32 (prec % 4294967296).toNat)
  pure p

/-- imtimer.c:172 and 189-190, `nt` times -/
def timerLoop (f : M Int) : Nat → M Unit
  | 0 => pure ()
  | n + 1 => do
    let _ ← f
    timerLoop f n

/-- `alloc_values`, imtimer.c:133-147, for one of the values, and `release_values`, imtimer.c:155-161.  (The
values are released in the reverse order.) -/
def withValue (prec : Int) (p : Nat) (k : Id → M Nat) : M Nat :=
  withLocal (fun z => mp_int_init_size z (u32 (prec % 4294967296).toNat)) (fun _ => p) k

/-- imtimer.c:163-178 `get_multiply_time`; the result is the number of results of `rand()` used so far -/
def get_multiply_time (nt : Nat) (prec : Int) (rnd : Nat → Nat) (p : Nat) : M Nat :=
  withValue prec p fun v0 => withValue prec p fun v1 => withValue prec p fun v2 => do
    let p ← mp_int_random v0 prec rnd p
    let p ← mp_int_random v1 prec rnd p
    timerLoop (mp_int_mul v0 v1 v2) nt
    pure p

/-- imtimer.c:180-196 `get_exptmod_time` -/
def get_exptmod_time (nt : Nat) (prec : Int) (rnd : Nat → Nat) (p : Nat) : M Nat :=
  withValue prec p fun v0 => withValue prec p fun v1 => withValue prec p fun v2 => withValue prec p fun v3 => do
    let p ← mp_int_random v0 prec rnd p
    let p ← mp_int_random v1 prec rnd p
    let p ← mp_int_random v2 prec rnd p
    timerLoop (mp_int_exptmod v0 v1 v2 v3) nt
    pure p

/-- imtimer.c:47-127 `main`, after the options have been read.  `threshold` is 0 without option `-t`, and
`precision` is 0 without option `-p`.  The result is the status. -/
def imtimerMain (num_tests precision : Int) (threshold : Nat) (do_mul do_exp : Bool) (rnd : Nat → Nat) : M Int :=
  if num_tests ≤ 0 then pure 1
  else if precision < 0 then pure 1
  else do
    mp_int_multiply_threshold threshold
    let p ← cif (do_mul = true) (get_multiply_time num_tests.toNat precision rnd 0) (pure 0)
    let _ ← cif (do_exp = true) (get_exptmod_time num_tests.toNat precision rnd p) (pure p)
    pure 0

/-! ### tests/bug-swap.c and tests/bug-qread.c -/

/-- tests/bug-swap.c:6-23 `main`.  The results are the status and whether "OK" is printed. -/
def bugSwapMain : M (Int × Bool) :=
  withUnchk (fun z => mp_int_init_value z 1) fun a =>
  withUnchk (fun z => mp_int_init_value z 16) fun b => do
    mp_int_swap a b
    let A ← getI a
    let B ← getI b
    let result ← cif (A.digits = some (singlePtr a))
      (cif (B.digits = some (singlePtr b)) (do
        let x ← rd (← MP_DIGITS a)
        cif (x = 16) (do
          let y ← rd (← MP_DIGITS b)
          pure (decide (y = 1))) (pure false)) (pure false)) (pure false)
    pure (if result then 0 else 1, result)

/-- A line of the table in tests/bug-qread.c:5-9 -/
structure QTest where
  input : Bytes
  radix : Nat
  want : Int

/-- The loop of tests/bug-qread.c:25-34; the result is the number of lines "ERROR: ..." printed.  The variable
`value` of each pass is not cleared. -/
def bugQreadLoop : List QTest → M Nat
  | [] => pure 0
  | t :: ts => do
    let num ← declInt .tmp
    let den ← declInt .tmp
    let _ ← mp_rat_init ⟨num, den⟩
    let got ← mp_rat_read_cstring ⟨num, den⟩ t.radix t.input
    let n ← bugQreadLoop ts
    pure (if got.1 ≠ t.want then n + 1 else n)

/-- The text `s` as an array of characters -/
def cText (s : String) : Bytes := s.toList.map Char.toNat ++ [0]

/-- The table in tests/bug-qread.c:12-22 -/
def qtests : List QTest :=
  [⟨cText "123", 10, 0⟩, ⟨cText "  1ca", 16, 0⟩, ⟨cText "1010", 2, 0⟩, ⟨cText "123 ", 10, -5⟩, ⟨cText "123/456", 8, 0⟩,
    ⟨cText "123 / 456", 8, 0⟩, ⟨cText "123 /", 8, -4⟩, ⟨cText " -5/-3", 10, 0⟩]

/-- tests/bug-qread.c:11-38 `main` with an arbitrary table.  The results are the status, the number of lines
"ERROR: ..." and whether "OK" is printed. -/
def bugQreadMain (tests : List QTest) : M (Int × Nat × Bool) := do
  let errs := 0
  let n ← bugQreadLoop tests
  pure (if errs ≠ 0 then 0 else 1, n, if errs ≠ 0 then false else true)

/-! ### tests/bintest.c -/

/-- A line of the output of `bintest` -/
inductive BinLine where
  /-- "Result code from ... = " -/
  | code (res : Int)
  /-- "... bytes needed to write this value ..." -/
  | len (n : Int)
  /-- the bytes, separated by points -/
  | bytes (bs : Bytes)
  /-- the text in brackets -/
  | text (s : Bytes)
deriving DecidableEq, Repr

/-- The loops at tests/bintest.c:60-63 and 83-87 -/
def printBytes (buf : Bytes) : Nat → Nat → M Bytes
  | 0, ix => do pure [← bget buf ix]
  | n + 1, ix => do
    let x ← bget buf ix
    let rest ← printBytes buf n (ix + 1)
    pure (x :: rest)

/-- tests/bintest.c:33-104 `main`; `buf` are the contents of the array of 512 characters.  The results are the
status and the standard output.  (`v` and `w` are cleared here also where the program ends without doing so.) -/
def bintestMain (arg : Bytes) (buf : Bytes) : M (Int × List BinLine) := do
  let c ← bget arg 0
  if c = 0 then pure (1, [])
  else
    withUnchk mp_int_init fun v => withUnchk mp_int_init fun w => do
      let res ← mp_int_read_string v 10 arg
      let len ← mp_int_binary_len v
      let p ← mp_int_to_binary v buf 512
      let out := [.code res, .len len, .code p.1]
      if p.1 ≠ MP_OK then pure (1, out)
      else do
        let bs ← printBytes p.2 (len - 1).toNat 0
        let q ← mp_int_read_binary w p.2 len
        let out := out ++ [.bytes bs, .code q.1]
        let r ← cif (q.1 = MP_OK) (do
          let s ← mp_int_to_string w 10 q.2 512
          let text ← cstr s.2
          pure ([BinLine.text text], s.2)) (pure ([], q.2))
        let out := out ++ r.1
        let len ← mp_int_unsigned_len v
        let p ← mp_int_to_unsigned v r.2 512
        let out := out ++ [.len len, .code p.1]
        if p.1 ≠ MP_OK then pure (1, out)
        else do
          let bs ← printBytes p.2 (len - 1).toNat 0
          let res ← mp_int_read_unsigned w p.2 len
          let out := out ++ [.bytes bs, .code res]
          let r ← cif (res = MP_OK) (do
            let s ← mp_int_to_string w 10 p.2 512
            let text ← cstr s.2
            pure [BinLine.text text]) (pure [])
          pure (0, out ++ r)

/-! ### tests/rtest.c -/

/-- What `rtest` prints: the message, the encoded message and the decoded message, or the error -/
inductive RLine where
  | bytes (bs : Bytes)
  | error (res : Int)
deriving DecidableEq, Repr

/-- `print_buf`, tests/rtest.c:108-120: the elements that are printed -/
def print_buf (buf : Bytes) (len : Int) : M Bytes :=
  if len ≤ buf.length then pure (buf.take len.toNat) else fail .ub

/-- The loop at tests/rtest.c:61; the first argument is `msg_len - i` -/
def msgLoop : Nat → Nat → Bytes → M Bytes
  | 0, _, buf => pure buf
  | n + 1, i, buf => do
    let buf ← bset buf i (u8 (i + 1))
    msgLoop n (i + 1) buf

/-- The inner loop of `random_fill`, tests/rtest.c:102; `rnd n` is the `n`-th result of `rand()`, and `p` results have
been used before.  The results are the byte and the number of results used. -/
def randByte (rnd : Nat → Nat) : Nat → Nat → M (Nat × Nat)
  | 0, _ => fail .diverge
  | f + 1, p => if u8 (rnd p) = 0 then randByte rnd f (p + 1) else pure (u8 (rnd p), p + 1)

/-- tests/rtest.c:96-106 `random_fill`: the bytes that are stored; the third argument is `len - i` -/
def random_fill (rnd : Nat → Nat) (f : Nat) : Nat → Nat → M Bytes
  | 0, _ => pure []
  | n + 1, p => do
    let c ← randByte rnd f p
    let rest ← random_fill rnd f n c.2
    pure (c.1 :: rest)

/-- tests/rtest.c:38-94 `main`.  `filler` are the bytes that `random_fill` (tests/rtest.c:96-106) stores when called
with a length.  The results are the status and what is printed. -/
def rtestMain (buf_len msg_len : Int) (filler : Int → Bytes) : M (Int × List RLine) :=
  if buf_len ≤ 0 then pure (2, [])
  else if msg_len ≤ 0 then pure (2, [])
  else do
    let msg_len := if msg_len > buf_len then buf_len else msg_len
    let buf ← msgLoop msg_len.toNat 0 (List.replicate buf_len.toNat 0)
    let l1 ← print_buf buf msg_len
    let p ← rsa_pkcs1v15_encode buf msg_len buf_len 2 filler
    if p.1 ≠ MP_OK then pure (1, [.bytes l1, .error p.1])
    else do
      let l2 ← print_buf p.2 buf_len
      let q ← rsa_pkcs1v15_decode p.2 buf_len 2
      if q.1 ≠ MP_OK then pure (1, [.bytes l1, .bytes l2, .error q.1])
      else do
        let l3 ← print_buf q.2.1 (q.2.2.getD (-1))
        pure (0, [.bytes l1, .bytes l2, .bytes l3])

end Imath
