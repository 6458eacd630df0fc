import Verif.SpecRead

/-! # What the text functions of the GMP-compatible interface are compared with -/

namespace Imath

/-- The text as GMP writes it: with a negative radix the letters are capital letters, otherwise small letters.
(The numerals of `Verif/SpecConv.lean` have capital letters.) -/
def gmpCase (radix : Int) (l : List Nat) : List Nat :=
  if radix < 0 then l else l.map fun c => if 65 ≤ c ∧ c ≤ 90 then c + 32 else c

/-- The text of a rational number as GMP writes it, capital letters: an integer without denominator -/
def gmpText (r : Nat) (q : ℚ) : List Nat :=
  if q.den = 1 then numeral r q.num else numeral r q.num ++ 47 :: numeral r q.den

/-- The text `A` up to its end as a number, and whether all of it has been used. -/
def gmpScan (r : Nat) (A : List Nat) : Int × Bool :=
  ((scanInt r (A ++ [0])).1, decide ((scanInt r (A ++ [0])).2 = [0]))

/-- The numbers before and after the first slash, and whether all of the text has been used; the denominator is 1
if there is no slash. -/
def gmpScanQ (r : Nat) (A : List Nat) : Int × Int × Bool :=
  let n := gmpScan r (A.takeWhile (· ≠ 47))
  match A.dropWhile (· ≠ 47) with
  | [] => (n.1, 1, n.2)
  | _ :: D => (n.1, (gmpScan r D).1, n.2 && (gmpScan r D).2)

end Imath
