import Verif.Model.Gmp

/-!
# Model of `examples/pi.c`
-/

namespace Imath

/-- Arithmetic in `mp_small` (imath.h:44, `long`); overflow is undefined -/
def csmall (x : Int) : M Int := if SMALL_MIN ≤ x ∧ x ≤ SMALL_MAX then pure x else fail .ub

/-- The loop of `arctan`, pi.c:153-168; first argument fuel -/
def arctanLoop (t v sum : Id) (x : Int) : Nat → Int → Int → M Int
  | 0, _, _ => fail .diverge
  | f + 1, sign, coeff => do
    let d ← mp_int_div_value t x (some t)
    if d.1 ≠ MP_OK then pure d.1
    else do
      let d ← mp_int_div_value t coeff (some v)
      if d.1 ≠ MP_OK then pure d.1
      else do
        let res ← cif (sign > 0) (mp_int_add sum v sum) (mp_int_sub sum v sum)
        if res ≠ MP_OK then pure res
        else do
          let sign ← csmall (-sign)
          let coeff ← csmall (coeff + 2)
          let c ← mp_int_compare_zero t
          if c ≠ 0 then arctanLoop t v sum x f sign coeff else pure MP_OK

/-- pi.c:131-177 `arctan`.  The loop may run as often as `t` has bits; that this is enough for `x` other
than -1, 0 and 1 is proved. -/
def arctan (radix mul x prec : Int) (sum : Id) : M Int :=
  withUnchk mp_int_init fun t =>
  withUnchk mp_int_init fun v => do
    let prec ← csmall (prec + 1)
    let res ← mp_int_expt_value radix prec t
    if res ≠ MP_OK then pure res
    else do
      let res ← mp_int_mul_value t mul t
      if res ≠ MP_OK then pure res
      else do
        let res ← mp_int_mul_value t x t
        if res ≠ MP_OK then pure res
        else do
          let x ← csmall (x * x)
          mp_int_zero sum
          let u ← MP_USED t
          let res ← arctanLoop t v sum x (32 * u + 2) 1 1
          if res ≠ MP_OK then pure res
          else do
            let d ← mp_int_div_value sum radix (some sum)
            pure d.1

/-- pi.c:80-104 and 112-117, the computation in `main`; `k` is what is done with `sum1` (pi.c:106-107).
The result is 1 if a function reports an error.  Not modelled: the arguments of the program, messages,
measuring the time. -/
def piSum (radix : Int) (ndigits : Int) {α : Type} (err : α) (k : Id → M α) : M α :=
  withUnchk mp_int_init fun sum1 =>
  withUnchk mp_int_init fun sum2 => do
    let res ← arctan radix 16 5 ndigits sum1
    if res ≠ MP_OK then pure err
    else do
      let res ← arctan radix 4 239 ndigits sum2
      if res ≠ MP_OK then pure err
      else do
        let res ← mp_int_sub sum1 sum2 sum1
        if res ≠ MP_OK then pure err
        else k sum1

/-- pi.c:42-118 `main` from line 73 on, when the number of digits and the radix have been read and the
buffer has been allocated (`buf`, whose contents is arbitrary).  The results are the status returned and
the contents of the buffer, which is printed with a point after the first character (pi.c:107).  The
result of `mp_int_to_string` is ignored (pi.c:106). -/
def piMain (ndigits radix : Nat) (buf : Bytes) : M (Int × Bytes) :=
  piSum radix ndigits (1, buf) fun sum1 => do
    let s ← mp_int_to_string sum1 radix buf (ndigits + 2)
    pure (0, s.2)

end Imath
