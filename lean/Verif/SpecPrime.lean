import Mathlib.Data.Nat.Prime.Defs
import Mathlib.Data.Int.Order.Basic

/-!
# What the theorems on `iprime.c` are stated with
-/

namespace Imath

/-- The values that `mp_int_is_prime` accepts: the primes below 1000, and the integers without prime
factor below 1000 that pass Fermat's test for all bases that are primes below 30. -/
def Accepted (x : Int) : Prop :=
  (∃ p : Nat, p.Prime ∧ p < 1000 ∧ x = p) ∨
  (2 ≤ x ∧ (∀ p : Nat, p.Prime → p < 1000 → ¬ (p : Int) ∣ x) ∧
    ∀ p : Nat, p.Prime → p < 30 → x ∣ (p : Int) ^ x.toNat - p)

end Imath
