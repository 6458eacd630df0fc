import Verif.SpecRat

/-!
# A reference reader for numbers

What the functions that read text are compared with: a reader written as a function on lists of
characters.  Characters are ASCII codes, and a text ends with the first 0.  Every function returns what
it has read and the remaining text, which begins with the first character that was not used.
-/

namespace Imath

instance (c : Nat) : Decidable (IsSpace c) := by unfold IsSpace; infer_instance

/-- The value of the digit `c` of radix `r`, if it is one. -/
def digitVal (r c : Nat) : Option Nat :=
  let d := if 48 ≤ c ∧ c ≤ 57 then c - 48 else if 65 ≤ c ∧ c ≤ 90 then c - 55 else if 97 ≤ c ∧ c ≤ 122 then c - 87 else r
  if d < r then some d else none

/-- The text without its leading white space. -/
def trim : List Nat → List Nat
  | [] => []
  | c :: s => if IsSpace c then trim s else c :: s

/-- Reads digits for as long as there are any, starting with the value `a`. -/
def scanDigits (r a : Nat) : List Nat → Nat × List Nat
  | [] => (a, [])
  | c :: s => match digitVal r c with
    | some d => scanDigits r (a * r + d) s
    | none => (a, c :: s)

/-- Whether the number in front of the text has a minus sign. -/
def minus (s : List Nat) : Bool := (trim s).head? == some 45

/-- Reads white space, a sign or none, and digits; without digits the value is 0. -/
def scanInt (r : Nat) (s : List Nat) : Int × List Nat :=
  let t := trim s
  let p := scanDigits r 0 (if t.head? = some 45 ∨ t.head? = some 43 then t.tail else t)
  (if minus s then -p.1 else p.1, p.2)

/-- `MP_OK` at the end of the text, otherwise `MP_TRUNC`. -/
def endCode (s : List Nat) : Int := if s.head? = some 0 then MP_OK else MP_TRUNC

/-- What a function that reads a rational number leaves behind: the result, the text at `*end`
(nothing if `*end` is not assigned), and the two parts of the variable. -/
structure Reading where
  res : Int
  rest : Option (List Nat)
  num : Int
  den : Int
deriving DecidableEq

/-- Reads an integer, or a fraction with white space before the slash.  Only a fraction at the end of the
text is reduced. -/
def readFraction (r : Nat) (s : List Nat) : Reading :=
  let x := scanInt r s
  match trim x.2 with
  | 47 :: u =>
    let y := scanInt r u
    if y.2.head? ≠ some 0 then ⟨MP_TRUNC, some y.2, x.1, y.1⟩
    else if y.1 = 0 then ⟨MP_UNDEF, some y.2, x.1, 0⟩
    else ⟨MP_OK, some y.2, (Rat.divInt x.1 y.1).num, (Rat.divInt x.1 y.1).den⟩
  | _ => ⟨endCode x.2, some x.2, x.1, 1⟩

/-- Reads a number in positional notation: digits, and perhaps a point and further digits. -/
def readDecimal (r : Nat) (s : List Nat) : Reading :=
  let x := scanInt r s
  match x.2 with
  | 46 :: u =>
    if (u.head?.any fun c => IsSpace c ∨ c = 45 ∨ c = 43) then ⟨MP_TRUNC, none, x.1, 1⟩
    else
      let f := scanDigits r 0 u
      let q : ℚ := (if minus s then -1 else 1) * (x.1.natAbs + f.1 / (r : ℚ) ^ (u.length - f.2.length))
      ⟨endCode f.2, some f.2, q.num, q.den⟩
  | _ => ⟨endCode x.2, some x.2, x.1, 1⟩

/-- Reads a fraction; if that stops at a point, starts again and reads positional notation.  Radix 0
stands for 10. -/
def readText (r : Nat) (s : List Nat) : Reading :=
  let r := if r = 0 then 10 else r
  let a := readFraction r s
  if a.res = MP_TRUNC ∧ (a.rest.any fun t => t.head? == some 46) then
    let b := readDecimal r s
    { b with rest := b.rest.orElse fun _ => a.rest }
  else a

end Imath
