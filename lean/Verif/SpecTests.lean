import Verif.SpecRead

/-!
# What is expected of the timing program and of the test programs
-/

namespace Imath

/-- The random number made of `prec` digits of 32 bits, from the results of `rand()` after the first `p`, has a digit
of highest order that is not zero. -/
def TopSet (rnd : Nat → Nat) (p prec : Nat) : Prop := ∃ k < 4, rnd (p + 4 * (prec - 1) + k) % 256 ≠ 0

end Imath
