import Verif.SpecPrime
import Verif.SpecConv

/-!
# What the theorems on `examples/randprime.c` and `examples/rsakey.c` are stated with
-/

namespace Imath

/-- The number that `mp_int_randomize` makes of random bytes with the value `V`: the lowest bit is set,
and, if `k` is not a multiple of 8, bit `k - 1` is set and higher bits are cleared. -/
def seedOf (k V : Nat) : Nat := 2 * ((if k % 8 = 0 then V else 2 ^ (k - 1) + V % 2 ^ (k - 1)) / 2) + 1

/-- The string `s` is an integer in radix 10, with the value `v`: white space, a sign, digits, and NUL. -/
def ReadsAs (s : List Nat) (v : Int) : Prop :=
  ∃ sp sg ds vs rest, s = sp ++ sg ++ ds ++ 0 :: rest ∧ (∀ x ∈ sp, IsSpace x) ∧ (sg = [] ∨ sg = [43] ∨ sg = [45]) ∧
    List.Forall₂ (IsDigit 10) ds vs ∧ v = (if sg = [45] then -1 else 1) * ((Nat.ofDigits 10 vs.reverse : Nat) : Int)

/-- `w` is the first accepted odd number from the seed on that the random bytes `b` give. -/
def FirstFrom (k : Nat) (b : List Nat) (w : Int) : Prop :=
  seedOf k (beVal (b.take ((k + 7) / 8))) ≤ w ∧ w % 2 = 1 ∧ Accepted w ∧
    ∀ u : Int, seedOf k (beVal (b.take ((k + 7) / 8))) ≤ u → u < w → u % 2 = 1 → ¬ Accepted u

/-- Where the primes and the exponent of a key come from: the first two random blocks and one of the
others, or the option `-e`. -/
def KeyFrom (k : Nat) (expt : Option (List Nat)) (rnd : List (List Nat)) (p q e : Int) : Prop :=
  ∃ b c rest, rnd = b :: c :: rest ∧ FirstFrom k b p ∧ FirstFrom k c q ∧
    match expt with
    | some s => ReadsAs s e
    | none => ∃ x ∈ rest, e = seedOf k (beVal (x.take ((k + 7) / 8)))

/-- The text of a key. -/
def keyText (p q n e d : Int) : List Nat :=
  [112, 32, 61, 32] ++ numeral 10 p ++ [10] ++ [113, 32, 61, 32] ++ numeral 10 q ++ [10] ++
  [101, 32, 61, 32] ++ numeral 10 e ++ [10] ++ [100, 32, 61, 32] ++ numeral 10 d ++ [10] ++
  [110, 32, 61, 32] ++ numeral 10 n ++ [10]

/-- `p` and `q` are accepted as primes, `n` is their product, and `d` is the inverse of `e` modulo
`(p - 1) (q - 1)`. -/
structure IsKey (p q n e d : Int) : Prop where
  hp : Accepted p
  hq : Accepted q
  hp2 : p % 2 = 1
  hq2 : q % 2 = 1
  hn : n = p * q
  hed : (p - 1) * (q - 1) ∣ e * d - 1
  hd : 0 < d
  hd2 : d < (p - 1) * (q - 1)

end Imath
