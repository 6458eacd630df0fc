import Verif.SpecRead

/-!
# What the example programs should print
-/

namespace Imath

/-- The text of a rational number; an integer is written without denominator. -/
def cvtText (r : Nat) (q : ℚ) : List Nat := if q.den = 1 then numeral r q.num else ratText r q

/-- The line that `basecvt` prints for an argument: nothing unless all of it could be read. -/
def cvtLine (i o : Nat) (s : List Nat) : List Nat :=
  let A := readText i s
  if A.res = MP_OK then cvtText o (Rat.divInt A.num A.den) ++ [10] else []

/-- The number is not too long for the estimate of the length of its text. -/
def Printable (good : Bool) (q : ℚ) : Prop :=
  (good = true ∨ |q.num| < 13 ^ 5458 ∧ (q.den : Int) < 13 ^ 5458) ∧ Nat.size q.num.natAbs + Nat.size q.den ≤ 2147483643

end Imath
