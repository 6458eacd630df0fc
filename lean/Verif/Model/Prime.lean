import Verif.Model.Rat

/-!
# Model of `iprime.c`
-/

namespace Imath

/-- iprime.c:31-44 `s_ptab`, with the sentinel -/
def s_ptab : List Nat := [
    2,   3,   5,   7,   11,  13,  17,  19,  23,  29,  31,  37,  41,  43,  47,
    53,  59,  61,  67,  71,  73,  79,  83,  89,  97,  101, 103, 107, 109, 113,
    127, 131, 137, 139, 149, 151, 157, 163, 167, 173, 179, 181, 191, 193, 197,
    199, 211, 223, 227, 229, 233, 239, 241, 251, 257, 263, 269, 271, 277, 281,
    283, 293, 307, 311, 313, 317, 331, 337, 347, 349, 353, 359, 367, 373, 379,
    383, 389, 397, 401, 409, 419, 421, 431, 433, 439, 443, 449, 457, 461, 463,
    467, 479, 487, 491, 499, 503, 509, 521, 523, 541, 547, 557, 563, 569, 571,
    577, 587, 593, 599, 601, 607, 613, 617, 619, 631, 641, 643, 647, 653, 659,
    661, 673, 677, 683, 691, 701, 709, 719, 727, 733, 739, 743, 751, 757, 761,
    769, 773, 787, 797, 809, 811, 821, 823, 827, 829, 839, 853, 857, 859, 863,
    877, 881, 883, 887, 907, 911, 919, 929, 937, 941, 947, 953, 967, 971, 977,
    983, 991, 997, 0]

/-- The first loop of `mp_int_is_prime`, iprime.c:54-60; the list is the rest of the table, `k` what
follows the loop -/
def trialLoop (z : Id) (k : M Int) : List Nat → M Int
  | [] => fail .ub
  | p :: ps =>
    if p ≠ 0 then do
      let c ← mp_int_compare_value z p
      if c = 0 then pure MP_TRUE
      else do
        let d ← mp_int_div_value z p none
        if d.1 ≠ MP_OK then pure d.1
        else match d.2 with
          | none => fail .ub
          | some rem => if rem = 0 then pure MP_FALSE else trialLoop z k ps
    else k

/-- The second loop of `mp_int_is_prime`, iprime.c:70-78; the first argument is `10 - i`.  The second
result says that the function returns without clearing `tmp` (iprime.c:72). -/
def fermatLoop (z tmp : Id) : Nat → List Nat → M (Int × Bool)
  | 0, _ => pure (MP_TRUE, false)
  | _ + 1, [] => fail .ub
  | n + 1, p :: ps =>
    if p ≠ 0 then do
      let res ← mp_int_exptmod_bvalue p z z tmp
      if res ≠ MP_OK then pure (res, true)
      else do
        let c ← mp_int_compare_value tmp p
        if c ≠ 0 then pure (MP_FALSE, false)
        else fermatLoop z tmp n ps
    else pure (MP_TRUE, false)

/-- iprime.c:46-81 `mp_int_is_prime` -/
def mp_int_is_prime (z : Id) : M Int := do
  let c ← mp_int_compare_value z 2
  if c < 0 then pure MP_FALSE
  else
    trialLoop z
      (do
        let r ← withLocalL mp_int_init id fun tmp => fermatLoop z tmp 10 s_ptab
        pure r.1)
      s_ptab

/-- The loop of `mp_int_find_prime`, iprime.c:90-92; first argument fuel -/
def findPrimeLoop (z : Id) : Nat → M Int
  | 0 => fail .diverge
  | f + 1 => do
    let res ← mp_int_is_prime z
    if res = MP_FALSE then do
      let res ← mp_int_add_value z 2 z
      if res ≠ MP_OK then pure res else findPrimeLoop z f
    else pure res

/-- iprime.c:84-95 `mp_int_find_prime`.  The loop may run as often as there are values of the size of
`z`; that this is enough is proved (by Bertrand's postulate). -/
def mp_int_find_prime (z : Id) : M Int := do
  let u ← MP_USED z
  let e ← mp_int_is_even z
  let res ← cif (e = true) (mp_int_add_value z 1 z) (pure MP_OK)
  if res ≠ MP_OK then pure res
  else findPrimeLoop z (2 ^ (32 * u) + 3)

end Imath
