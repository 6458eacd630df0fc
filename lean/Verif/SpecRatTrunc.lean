import Verif.SpecRat

/-!
# What `mp_rat_to_decimal` writes if there is too little room
-/

namespace Imath

/-- The sign that is shown: none if all the digits are zero. -/
noncomputable def decSign (r prec mode : Nat) (p : ℚ) : List Nat := if p < 0 ∧ roundQ mode (|p| * r ^ prec) ≠ 0 then [45] else []

/-- As `decSign`, for any radix: whether a sign is written, from the integer part and the digits after the point. -/
def SignShown (r prec mode : Nat) (p : ℚ) : Prop :=
  p < 0 ∧ ((if prec = 0 then roundQ mode |p| else ⌊|p|⌋₊) ≠ 0 ∨ 0 < prec ∧ roundQ mode (Int.fract |p| * r ^ prec) ≠ 0)

/-- The sign that is written with a precision of 2^31 - 1 or more.  From 2^31 on the precision is negative as an `int` (imrat.c:516), and the fractional
part is rounded to an integer. -/
noncomputable def bigSign (r prec mode : Nat) (p : ℚ) : List Nat :=
  open Classical in if SignShown (if prec < 2 ^ 31 then r else 1) prec mode p then [45] else []

/-- The integer part that is written.  If there are digits after the point, it is not rounded. -/
noncomputable def decInt (prec mode : Nat) (p : ℚ) : Nat := if prec = 0 then roundQ mode |p| else ⌊|p|⌋₊

/-- What is written before the point. -/
noncomputable def decHead (r prec mode : Nat) (p : ℚ) : List Nat := decSign r prec mode p ++ numeralN r (decInt prec mode p)

/-- Of the digits after the point, before rounding, only the last one may be other than zero. -/
def DecLast (r prec : Nat) (p : ℚ) : Prop := roundQ 0 (|p| * r ^ prec) % r ^ prec < r

/-- Rounding carries in the fraction, and the text is wrong. -/
def DecCarries (r prec mode : Nat) (p : ℚ) : Prop := Carries r prec (roundQ 0 (|p| * r ^ prec)) (roundQ mode (|p| * r ^ prec))

end Imath
