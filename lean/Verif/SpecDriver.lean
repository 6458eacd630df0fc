import Verif.SpecRead

/-!
# A reference for the test driver: lines and fields

What `trim_line`, `parse_line` and `read_line` are compared with, as functions on lists of characters.
-/

namespace Imath

/-- The text without white space at its start and at its end. -/
def strip (s : List Nat) : List Nat := (trim (trim s).reverse).reverse

/-- What `trim_line` makes of a text.  The terminator is not moved along with the text, so that white space at the
start is only removed if there is white space at the end, too; otherwise the end of the text is repeated. -/
def trimmed (s : List Nat) : List Nat :=
  let t := trim s
  let u := strip s
  if u.length < t.length then u else t ++ s.drop t.length

/-- The text before the first `c` and the text after it, if there is one. -/
def cutAt (c : Nat) : List Nat → Option (List Nat × List Nat)
  | [] => none
  | x :: s => if x = c then some ([], s) else (cutAt c s).map fun p => (x :: p.1, p.2)

/-- The parts of a text between the commas. -/
def parts : List Nat → List (List Nat)
  | [] => [[]]
  | x :: s => if x = 44 then [] :: parts s else match parts s with
    | [] => [[x]]
    | p :: ps => (x :: p) :: ps

/-- The fields of a list; there are none if it is empty. -/
def fields (s : List Nat) : List (List Nat) := if s = [] then [] else parts s

/-- What a line is. -/
inductive Line
  | syntaxError
  | overflow
  | test (code : List Nat) (ins outs : List (List Nat))
deriving DecidableEq

/-- A line is `code:inputs:outputs`; a list that ends with a comma has one field more than there is room for. -/
def lineOf (s : List Nat) : Line :=
  match cutAt 58 s with
  | none => .syntaxError
  | some (code, s) =>
    match cutAt 58 s with
    | none => .syntaxError
    | some (ins, outs) =>
      if ins.getLast? = some 44 ∨ outs.getLast? = some 44 then .overflow else .test code (fields ins) (fields outs)

/-- The text up to the first 0. -/
def upTo0 (s : List Nat) : List Nat := s.takeWhile (· ≠ 0)

/-- Nothing but white space and a comment. -/
def Blank (s : List Nat) : Prop := (trim s).head? = none ∨ (trim s).head? = some 35

instance (s : List Nat) : Decidable (Blank s) := by unfold Blank; infer_instance

/-- The lines of a file: `k` is the number of characters for which there is still room in the line `acc`. -/
def chunks (limit : Nat) : List Nat → Nat → List Nat → List (List Nat)
  | acc, _, [] => if acc = [] then [] else [acc]
  | acc, k, c :: s =>
    if c = 10 ∨ k ≤ 1 then (acc ++ [c]) :: chunks limit [] limit s else chunks limit (acc ++ [c]) (k - 1) s

/-- The lines that are not blank, trimmed, with their numbers; lines are cut after 4095 characters, and end with
the first 0. -/
def numbered : Nat → List (List Nat) → List (Nat × List Nat)
  | _, [] => []
  | n, l :: ls => if Blank (upTo0 l) then numbered (n + 1) ls else (n + 1, trimmed (upTo0 l)) :: numbered (n + 1) ls

end Imath
