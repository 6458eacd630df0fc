import Mathlib.Data.Nat.Digits.Defs
import Mathlib.Data.Nat.Size

/-!
# Numerals and byte strings

What is meant by the numeral of an integer in a radix and by the integer that a string of bytes
stands for.  Characters are ASCII codes.  Nothing here refers to the model.
-/

namespace Imath

/-- The character for the digit `d`: `0`-`9`, then `A`-`Z`. -/
def digitChar (d : Nat) : Nat := if d < 10 then 48 + d else 55 + d

/-- The digits of `n` in radix `r`, most significant first; at least one. -/
def numeralN (r n : Nat) : List Nat :=
  if n = 0 then [48] else ((Nat.digits r n).map digitChar).reverse

/-- The numeral of `v` in radix `r`: `-` if `v` is negative, then the digits of its magnitude. -/
def numeral (r : Nat) (v : Int) : List Nat :=
  (if v < 0 then [45] else []) ++ numeralN r v.natAbs

/-- As much of the numeral of `v` as fills `n` characters: the sign, then the last digits. -/
def numeralTail (r : Nat) (v : Int) (n : Nat) : List Nat :=
  (if v < 0 then [45] else []) ++ (numeralN r v.natAbs).drop ((numeral r v).length - n)

/-- `c` is the character of a digit of radix `r` with value `d`; letters in either case. -/
def IsDigit (r c d : Nat) : Prop :=
  d < r ∧ (c = digitChar d ∨ (10 ≤ d ∧ c = 87 + d))

/-- White space in the "C" locale. -/
def IsSpace (c : Nat) : Prop := c = 32 ∨ (9 ≤ c ∧ c ≤ 13)

/-- Unsigned big-endian value of bytes. -/
def beVal (bs : List Nat) : Nat := bs.foldl (fun a b => 256 * a + b) 0

/-- Two's complement big-endian value of bytes. -/
def twosVal (bs : List Nat) : Int :=
  if 128 ≤ bs.headD 0 then (beVal bs : Int) - 256 ^ bs.length else beVal bs

/-- Bytes needed for the magnitude of `v` and a clear sign bit: the least `n` with `|v| < 2 ^ (8 * n - 1)`. -/
def binLen (v : Int) : Nat := Nat.size v.natAbs / 8 + 1

/-- Bytes needed for the magnitude of `v`: the least positive `n` with `|v| < 256 ^ n`. -/
def unsLen (v : Int) : Nat := max 1 ((Nat.size v.natAbs + 7) / 8)

end Imath
