import Mathlib.Data.Nat.Log
import Mathlib.Data.Nat.Size

/-!
# Modular powers with a negative modulus

The documentation of `mp_int_exptmod` excludes the modulus 0 only.  For a negative modulus `-M` the result is not a
power modulo anything; it is given by the functions below, which are functions of integers.  They were read off
the code and are used only to show that such calls are defined and what they leave.
-/

namespace Imath

/-- One reduction: Barrett's quotient `q`, the difference `x - q * M` modulo `R` (if it is negative, the complement is
taken with respect to its own number of digits), and then `M` is added twice. -/
def negReduce (M x : Nat) : Nat :=
  let k := Nat.log 4294967296 M + 1
  let R := 4294967296 ^ (k + 1)
  let y := x / 4294967296 ^ (k - 1) * (4294967296 ^ (2 * k) / M) / R * M % R
  let t := x % R
  (if y ≤ t then t - y else 4294967296 ^ (Nat.log 4294967296 (y - t) + 1) - (y - t)) + 2 * M

/-- Square and multiply, from the lowest bit of the exponent `e` on. -/
def negPower (M : Nat) : Nat → Nat → Nat → Nat → Nat
  | 0, _, _, c => c
  | n + 1, e, a, c => negPower M n (e / 2) (negReduce M (a * a)) (if e % 2 = 1 then negReduce M (c * a) else c)

/-- What is stored for the base `x`, the exponent `e` and the modulus `v < 0`. -/
def negResult (x : Int) (e : Nat) (v : Int) : Nat :=
  negPower v.natAbs (Nat.size e) e (if x.tmod v < 0 then x.tmod v + v else x.tmod v).natAbs 1

end Imath
