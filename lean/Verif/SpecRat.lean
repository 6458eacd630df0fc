import Verif.Spec
import Verif.Model.Rat
import Verif.SpecConv
import Mathlib.Data.Rat.Defs
import Mathlib.Data.Rat.Floor

/-!
# Rational variables

What the theorems on imrat.c talk about.  The type `ℚ` of Lean and Mathlib consists of the fractions in
lowest terms with a positive denominator; zero is 0/1.
-/

namespace Imath

/-- A variable of type `mpq_t`: its numerator and its denominator are two integer variables. -/
structure RVar where
  num : Nat
  den : Nat
deriving DecidableEq

/-- The pointer to the variable. -/
def RVar.p (a : RVar) : MpQ := ⟨.var a.num, .var a.den⟩

/-- The variable `a` has the value `q` and is in lowest terms. -/
def HasQ (ρ : Nat → Option Int) (a : RVar) (q : ℚ) : Prop :=
  ρ a.num = some q.num ∧ ρ a.den = some (q.den : Int)

/-- `ρ` after the assignment of `q` to `c`. -/
def putQ (ρ : Nat → Option Int) (c : RVar) (q : ℚ) : Nat → Option Int :=
  put (put ρ c.num q.num) c.den (q.den : Int)

/-- `c` is initialised; no value is required, it may even have the denominator zero. -/
def ReadyQ (ρ : Nat → Option Int) (c : RVar) : Prop :=
  c.num ≠ c.den ∧ (∃ w, ρ c.num = some w) ∧ ∃ w, ρ c.den = some w

/-- Two pointers to an `mpq_t` are equal, or the objects do not overlap. -/
def SepV (a c : RVar) : Prop :=
  a = c ∨ (a.num ≠ c.num ∧ a.num ≠ c.den ∧ a.den ≠ c.num ∧ a.den ≠ c.den)

/-- Three-way comparison of rationals. -/
def cmp3Q (p q : ℚ) : Int := if p < q then -1 else if p = q then 0 else 1

/-- The text of a rational number: numerator, slash, denominator; zero is written without denominator. -/
def ratText (r : Nat) (q : ℚ) : List Nat :=
  numeral r q.num ++ if q = 0 then [] else 47 :: numeral r q.den

/-- The rounding modes of imrat.h applied to a number that is not negative: 0 down, 1 to the nearest with
ties up, 2 up, 3 to the nearest with ties down. -/
def roundQ (mode : Nat) (x : ℚ) : Nat :=
  if mode = 0 then ⌊x⌋₊ else if mode = 1 then ⌊x + 1 / 2⌋₊ else if mode = 2 then ⌈x⌉₊ else ⌈x - 1 / 2⌉₊

/-- The last `k` digits of `n` in radix `r`, most significant first. -/
def fixedDigits (r : Nat) : Nat → Nat → List Nat
  | 0, _ => []
  | k + 1, n => fixedDigits r k (n / r) ++ [digitChar (n % r)]

/-- The text of `± N / r^prec` with `prec` digits after the point, and no point if `prec` is 0; a
minus sign only if `N` is not 0. -/
def decText (r prec : Nat) (neg : Prop) [Decidable neg] (N : Nat) : List Nat :=
  (if neg ∧ N ≠ 0 then [45] else []) ++ numeralN r (N / r ^ prec) ++
    if prec = 0 then [] else 46 :: fixedDigits r prec N

/-- Rounding has changed the number of significant digits after the point: they were all equal to the
largest digit, possibly after some zeroes. -/
def Carries (r prec F N : Nat) : Prop := 0 < prec ∧ N ≠ F ∧ ∃ k, 0 < k ∧ F % r ^ prec + 1 = r ^ k

/-- What the code writes if rounding up carries from `F` (the number without rounding): the integer part remains, and
the fraction is written with one digit too many, as if it had been divided by the radix. -/
def carryText (r prec : Nat) (neg : Prop) [Decidable neg] (F : Nat) : List Nat :=
  (if neg then [45] else []) ++ numeralN r (F / r ^ prec) ++ 46 :: fixedDigits r (prec + 1) (F % r ^ prec + 1)

open Classical in
/-- The text that is written. -/
noncomputable def decWritten (r prec mode : Nat) (p : ℚ) : List Nat :=
  if Carries r prec (roundQ 0 (|p| * r ^ prec)) (roundQ mode (|p| * r ^ prec)) then carryText r prec (p < 0) (roundQ 0 (|p| * r ^ prec))
  else decText r prec (p < 0) (roundQ mode (|p| * r ^ prec))

end Imath
