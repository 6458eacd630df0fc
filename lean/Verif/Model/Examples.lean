import Verif.Model.Keygen

/-!
# Model of the example programs that read and write numbers

`examples/basecvt.c`, `examples/input.c`, `examples/rounding.c` and `examples/findprime.c`.  The numeric
arguments of the programs (converted with `atoi`) are given as numbers, the other arguments as strings.
What is modelled of the output is what is said at each program.  Not modelled: wrong usage, messages on the
standard error output, and a failing allocation of the output buffer; `obuf n` are the contents of a
new buffer of `n` characters.
-/

namespace Imath

/-- `mpq_t value; ... mp_rat_init(&value) ... mp_rat_clear(&value)`, e.g. basecvt.c:62-65 and 112.
(`mp_rat_init` and `mp_rat_clear` are split; the order of the two calls of `mp_int_clear` is reversed.) -/
def withRat {α : Type} (err : Int → α) (k : MpQ → M α) : M α :=
  withLocal mp_int_init err fun num =>
  withLocal mp_int_init err fun den => do
    let res ← mp_int_set_value den 1
    if res ≠ MP_OK then pure (err res) else k ⟨num, den⟩

/-- basecvt.c:83-100 and input.c:76-104: convert an integer, or a fraction, into a buffer of the length
that the library suggests.  The results are those of the conversion and the contents of the buffer. -/
def ratText_alloc (value : MpQ) (radix : Nat) (obuf : Nat → Bytes) : M (Int × Bytes) := do
  let is_int ← mp_rat_is_integer value
  let len ← cif (is_int = true) (mp_int_string_len value.num radix) (mp_rat_string_len value radix)
  cif (is_int = true) (mp_int_to_string value.num radix (obuf len.toNat) len)
    (mp_rat_to_string value radix (obuf len.toNat) len)

/-- The loop of basecvt.c:67-110 over the remaining arguments; `res` is the value of the variable.  The
results are the value of `res` after the loop and what is printed. -/
def basecvtLoop (value : MpQ) (in_rdx out_rdx : Nat) (obuf : Nat → Bytes) : List Bytes → Int → M (Int × Bytes)
  | [], res => pure (res, [])
  | arg :: args, _ => do
    let p ← mp_rat_read_ustring value in_rdx arg
    if p.1 ≠ MP_OK ∧ p.1 ≠ MP_TRUNC then pure (p.1, [])
    else do
      let c ← p.2.elim (pure 0) (fun e => bget arg e)
      if c ≠ 0 then basecvtLoop value in_rdx out_rdx obuf args p.1
      else do
        let s ← ratText_alloc value out_rdx obuf
        if s.1 ≠ MP_OK then pure (s.1, [])
        else do
          let text ← cstr s.2
          let rest ← basecvtLoop value in_rdx out_rdx obuf args s.1
          pure (rest.1, text ++ [10] ++ rest.2)

/-- basecvt.c:35-115 `main`.  The results are the status and the standard output. -/
def basecvtMain (in_rdx out_rdx : Nat) (args : List Bytes) (obuf : Nat → Bytes) : M (Int × Bytes) :=
  if in_rdx < 2 ∨ in_rdx > 36 then pure (3, [])
  else if out_rdx < 2 ∨ out_rdx > 36 then pure (3, [])
  else
    withRat (fun _ => (2, [])) fun value => do
      let r ← basecvtLoop value in_rdx out_rdx obuf args MP_OK
      pure (if r.1 ≠ MP_OK then 1 else 0, r.2)

/-- input.c:36-114 `main`.  The results are the status and the second line of the standard output (the
first one, input.c:71, does not depend on the value). -/
def inputMain (arg : Bytes) (radix : Nat) (obuf : Nat → Bytes) : M (Int × Bytes) :=
  if radix < 2 ∨ radix > 36 then pure (1, [])
  else
    withRat (fun _ => (1, [])) fun value => do
      let p ← mp_rat_read_ustring value 0 arg
      if p.1 ≠ MP_OK then pure (1, [])
      else do
        let s ← ratText_alloc value radix obuf
        if s.1 ≠ MP_OK then pure (1, [])
        else do
          let text ← cstr s.2
          pure (0, text ++ [10])

/-- rounding.c:36-81 `main`.  The results are the status and the text printed in quotes as "Result
string"; it is printed even if the conversion fails (rounding.c:71-75).  `mode` and `prec` are taken to be
numbers that are not negative. -/
def roundingMain (mode prec radix : Nat) (arg : Bytes) (obuf : Nat → Bytes) : M (Int × Bytes) :=
  withRat (fun _ => (2, [])) fun value => do
    let res ← mp_rat_read_decimal value radix arg
    if res ≠ MP_OK then pure (res, [])
    else do
      let len ← mp_rat_decimal_len value radix prec
      let s ← mp_rat_to_decimal value radix prec mode (obuf len.toNat) len
      let text ← cstr s.2
      pure (s.1, text)

/-- findprime.c:35-67 `main`; `buf` are the contents of the array of 4096 characters.  The results are
the status and the standard output.  The result of `mp_int_to_string` is ignored (findprime.c:61).
(`seed` is cleared here also where the program ends without doing so.) -/
def findprimeMain (arg : Bytes) (buf : Bytes) : M (Int × Bytes) :=
  withUnchk mp_int_init fun seed => do
    let res ← mp_int_read_string seed 10 arg
    if res ≠ MP_OK then pure (2, [])
    else do
      let c ← mp_int_compare_value seed 131
      if c ≤ 0 then pure (1, [])
      else do
        let res ← mp_int_find_prime seed
        if res ≠ MP_TRUE then pure (2, [])
        else do
          let s ← mp_int_to_string seed 10 buf 4096
          let text ← cstr s.2
          pure (0, [61, 62, 32] ++ text ++ [10])

end Imath
