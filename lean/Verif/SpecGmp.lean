import Mathlib.Data.Int.Init
import Mathlib.Data.Nat.Digits.Defs

/-!
# Specification of the GMP-compatible functions

Independent of the model: the value of `mpz_get_si`, and the arrays of words of `mpz_export` and
`mpz_import` as the GMP manual describes them.
-/

namespace Imath

/-- `long` value that GMP documents for `mpz_get_si`: the value if it fits, else the low bits with the sign -/
def siOf (v : Int) : Int :=
  if -9223372036854775808 ≤ v ∧ v ≤ 9223372036854775807 then v else v.sign * (v.natAbs % 9223372036854775808 : Nat)

/-- The index, in an array of `count` words of `size` bytes, of the byte of significance `256 ^ k`.  Words
are stored most significant first if `order` is 1, the bytes of a word most significant first if
`endian` is 1. -/
def bytePos (order endian : Int) (size count k : Nat) : Nat :=
  (if order = 1 then count - 1 - k / size else k / size) * size + (if endian = 1 then size - 1 - k % size else k % size)

/-- The first `count` words of the array are the number `v`. -/
def Encodes (order endian : Int) (size count : Nat) (buf : List Nat) (v : Nat) : Prop :=
  v < 256 ^ (count * size) ∧ ∀ k < count * size, buf[bytePos order endian size count k]? = some (v / 256 ^ k % 256)

/-- The number given by an array of words. -/
def arrVal (order endian : Int) (size count : Nat) (buf : List Nat) : Nat :=
  Nat.ofDigits 256 ((List.range (count * size)).map fun k => buf.getD (bytePos order endian size count k) 0)

/-- The words are big-endian and the most significant word is first. -/
example : Encodes 1 1 2 2 [1, 2, 3, 4] 0x01020304 := by unfold Encodes; decide
/-- The words are little-endian and the most significant word is first. -/
example : Encodes 1 (-1) 2 2 [2, 1, 4, 3] 0x01020304 := by unfold Encodes; decide
/-- The words are big-endian and the least significant word is first. -/
example : Encodes (-1) 1 2 2 [3, 4, 1, 2] 0x01020304 := by unfold Encodes; decide
example : Encodes (-1) (-1) 2 2 [4, 3, 2, 1] 0x01020304 := by unfold Encodes; decide
example : ¬ Encodes (-1) (-1) 2 2 [4, 3, 1, 2] 0x01020304 := by unfold Encodes; decide
example : arrVal (-1) 1 2 2 [3, 4, 1, 2] = 0x01020304 := by decide

end Imath
