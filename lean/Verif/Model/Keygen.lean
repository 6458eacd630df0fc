import Verif.Model.Prime
import Verif.Model.Gmp

/-!
# Model of `examples/randprime.c` and `examples/rsakey.c`

Random input: `rnd` is the list of what successive calls of `fread` on `/dev/random` deliver
(randprime.c:138-148, rsakey.c:200-210); a block may be shorter than was asked for, and at the end of
the list the device cannot be opened.  Every run that ends has used finitely many blocks, so lists of
arbitrary length cover all of them.  Not modelled: arguments of the programs, opening of files, progress
messages on `stderr`.
-/

namespace Imath

/-- randprime.c:150-181 and rsakey.c:212-243 `mp_int_randomize`, with `randomize` inlined; `rnd` is what
`fread` delivers, `none` if the device cannot be opened (`randomize` then returns -1, which is not
`n_bytes` as an `mp_size`).  Simplified: the allocation of the bytes succeeds. -/
def mp_int_randomize (a : Id) (n_bits : Nat) (rnd : Option Bytes) : M Int :=
  let n_bytes := u32 (n_bits + 7) / 8
  match rnd with
  | none => pure MP_TRUNC
  | some bs =>
    if bs.length < n_bytes then pure MP_TRUNC
    else do
      let buf := bs.take n_bytes
      let buf ← cif (n_bits % 8 ≠ 0) (do
        let b_mask := 1 <<< (n_bits % 8) - 1
        let t_mask := (1 <<< (n_bits % 8)) >>> 1
        let x ← bget buf 0
        let buf ← bset buf 0 (x &&& b_mask)
        let x ← bget buf 0
        bset buf 0 (x ||| t_mask)) (pure buf)
      let i := u32 (n_bytes + 4294967295)
      let x ← bget buf i
      let buf ← bset buf i (x ||| 1)
      mp_int_read_unsigned a buf n_bytes

/-- The loop of `find_prime`, randprime.c:193-202 and rsakey.c:252-258; first argument fuel -/
def findLoop (seed : Id) : Nat → M Int
  | 0 => fail .diverge
  | f + 1 => do
    let res ← mp_int_is_prime seed
    if res = MP_FALSE then do
      let res ← mp_int_add_value seed 2 seed
      if res ≠ MP_OK then pure res else findLoop seed f
    else pure res

/-- randprime.c:183-207 and rsakey.c:245-263 `find_prime`.  The loop may run as often as there are
values of the size of `seed`; that this is enough is proved. -/
def find_prime (seed : Id) : M Int := do
  let u ← MP_USED seed
  let e ← mp_int_is_even seed
  let res ← cif (e = true) (mp_int_add_value seed 1 seed) (pure MP_OK)
  if res ≠ MP_OK then pure res else findLoop seed (2 ^ (32 * u) + 3)

/-- The loop of `find_strong_prime`, randprime.c:214-233; first argument fuel, then the value of `res` -/
def strongLoop (seed t : Id) : Nat → Int → M Int
  | 0, _ => fail .diverge
  | f + 1, res => do
    let r ← find_prime seed
    if r ≠ MP_TRUE then pure res
    else do
      let r ← mp_int_copy seed t
      if r ≠ MP_OK then pure res
      else do
        let r ← mp_int_mul_pow2 t 1 t
        if r ≠ MP_OK then pure res
        else do
          let r ← mp_int_add_value t 1 t
          if r ≠ MP_OK then pure res
          else do
            let res ← mp_int_is_prime t
            if res = MP_TRUE then mp_int_copy t seed
            else if res ≠ MP_FALSE then pure res
            else do
              let r ← mp_int_add_value seed 2 seed
              if r ≠ MP_OK then pure res else strongLoop seed t f res

/-- randprime.c:209-237 `find_strong_prime`; first argument fuel, as it is not known whether the loop
ends for every seed -/
def find_strong_prime (f : Nat) (seed : Id) : M Int :=
  withUnchk mp_int_init fun t => strongLoop seed t f MP_OK

/-- The characters of a C string, without the NUL, as `fputs` and `%s` print them -/
def cstr (str : Bytes) : M Bytes := do
  let n ← strlen str (str.length + 1) 0
  pure (str.take n)

/-- randprime.c:106-135, the rest of `main` once the arguments are read; `fuel` is `none` without the
option `-s`.  The results are the status of the program and what is written to the output file.  The
results of `find_func` and `mp_int_to_string` are ignored, and the status is 0 always; `obuf` are the
contents of allocated memory. -/
def randprimeMain (fuel : Option Nat) (modbits : Nat) (rnd : List Bytes) (obuf : Nat → Bytes) : M (Int × Bytes) :=
  withUnchk mp_int_init fun value => do
    let res ← mp_int_randomize value (modbits - 1) rnd.head?
    if res ≠ MP_OK then pure (0, [])
    else do
      let _ ← (match fuel with
        | none => find_prime value
        | some f => find_strong_prime f value)
      let len ← mp_int_string_len value 10
      let s ← mp_int_to_string value 10 (obuf len.toNat) len
      let text ← cstr s.2
      pure (0, text ++ [10])

/-- rsakey.c:49-55 `rsa_key` -/
structure RsaKey where
  p : Id
  q : Id
  n : Id
  e : Id
  d : Id

/-- The loop in rsakey.c:170-186, with a random exponent; `rnd` is what remains to be read.  If the
result is not `MP_OK`, `main` goes to `EXIT`. -/
def rndExptLoop (k : RsaKey) (bits : Nat) : List Bytes → M Int
  | [] => do
    let res ← mp_int_invmod k.e k.n k.d
    if res ≠ MP_OK then mp_int_randomize k.e bits none else pure MP_OK
  | b :: bs => do
    let res ← mp_int_invmod k.e k.n k.d
    if res ≠ MP_OK then do
      let res ← mp_int_randomize k.e bits (some b)
      if res ≠ MP_OK then pure res else rndExptLoop k bits bs
    else pure MP_OK

/-- rsakey.c:122-189, the computation of the key in `main`; `expt` is the argument of the option `-e`.
A result other than `MP_OK` is reported in a message. -/
def rsaKeyGen (k : RsaKey) (modbits : Nat) (expt : Option Bytes) (rnd : List Bytes) : M Int := do
  let res ← (match expt with
    | some s => mp_int_read_string k.e 10 s
    | none => pure MP_OK)
  if res ≠ MP_OK then pure res
  else do
    let res ← mp_int_randomize k.p (modbits / 2) rnd.head?
    if res ≠ MP_OK then pure res
    else do
      let _ ← find_prime k.p
      let rnd := rnd.tail
      let res ← mp_int_randomize k.q (modbits / 2) rnd.head?
      if res ≠ MP_OK then pure res
      else do
        let _ ← find_prime k.q
        let rnd := rnd.tail
        let _ ← mp_int_mul k.p k.q k.n
        let _ ← mp_int_sub k.n k.p k.n
        let _ ← mp_int_sub k.n k.q k.n
        let _ ← mp_int_add_value k.n 1 k.n
        let res ← (match expt with
          | some _ => mp_int_invmod k.e k.n k.d
          | none => do
            let res ← mp_int_randomize k.e (modbits / 2) rnd.head?
            if res ≠ MP_OK then pure res else rndExptLoop k (modbits / 2) rnd.tail)
        if res ≠ MP_OK then pure res
        else do
          let _ ← mp_int_mul k.p k.q k.n
          pure MP_OK

/-- One line of `rsa_key_write` (e.g. rsakey.c:289-290): conversion into the buffer, and printing of
`tag`, the buffer, and a newline.  The result of the conversion is ignored. -/
def writeField (tag : Nat) (x : Id) (obuf : Bytes) (len : Int) (k : Bytes → M Bytes) : M Bytes := do
  let s ← mp_int_to_string x 10 obuf len
  let text ← cstr s.2
  let rest ← k s.2
  pure ([tag, 32, 61, 32] ++ text ++ [10] ++ rest)

/-- rsakey.c:283-301 `rsa_key_write`; the result is what is written to the file, `obuf` are the contents
of allocated memory. -/
def rsa_key_write (k : RsaKey) (obuf : Nat → Bytes) : M Bytes := do
  let len ← mp_int_string_len k.n 10
  writeField 112 k.p (obuf len.toNat) len fun b =>
    writeField 113 k.q b len fun b =>
    writeField 101 k.e b len fun b =>
    writeField 100 k.d b len fun b =>
    writeField 110 k.n b len fun _ => pure []

/-- rsakey.c:114-198, the rest of `main` once the arguments are read, with `rsa_key_init` and
`rsa_key_clear` (rsakey.c:265-281).  The status is 0 always.  -/
def rsakeyMain (modbits : Nat) (expt : Option Bytes) (rnd : List Bytes) (obuf : Nat → Bytes) : M (Int × Bytes) :=
  withUnchk mp_int_init fun p =>
  withUnchk mp_int_init fun q =>
  withUnchk mp_int_init fun n =>
  withUnchk mp_int_init fun e =>
  withUnchk mp_int_init fun d => do
    let res ← rsaKeyGen ⟨p, q, n, e, d⟩ modbits expt rnd
    if res ≠ MP_OK then pure (0, [])
    else do
      let text ← rsa_key_write ⟨p, q, n, e, d⟩ obuf
      pure (0, text)

end Imath
