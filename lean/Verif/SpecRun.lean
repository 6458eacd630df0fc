import Verif.SpecVerdictQ

/-!
# A reference for the test driver: files and reports

What `run_test`, `process_file` and `main` of the test driver are compared with.  Nothing here refers to the model.
-/

namespace Imath

/-- The tests about which the reference says nothing, with the numbers of their inputs and outputs. -/
def otherTests : List (String × Nat × Nat) := [("initu", 2, 1), ("initv", 2, 1)]

/-- The tests by their codes. -/
noncomputable def table (L : Lib) : List (String × Nat × Nat × (List (List Nat) → List (List Nat) → Verdict)) :=
  reference L ++ ((otherTests.map fun p => (p.1, p.2.1, p.2.2, fun _ _ => .unknown)) ++ ratReference)

/-- A value, with its number in two columns -/
def metaItemText (i : Nat) (v : Int) : List Nat :=
  let n := numeralN 10 (i + 1)
  [32] ++ List.replicate (2 - n.length) 32 ++ n ++ chars ".) " ++ numeral 10 v

/-- The mention of another input -/
def mention : Option Nat → List Nat
  | none => []
  | some j => chars " (=> " ++ numeralN 10 (j + 1) ++ chars ")"

/-- The last input before number `i` with the same register -/
def sameAs (ss : List Nat) (i : Nat) : List Nat := mention ((List.range i).reverse.find? fun j => ss[j]? = ss[i]?)

/-- The values of the inputs and outputs are printed; the buffer has 2048 characters. -/
def testMeta (line : Nat) (ins outs : List (List Nat)) : Verdict :=
  withVals readValue 0 true true true ins outs fun ss xs os e =>
    if ∃ v ∈ xs ++ os, 2048 ≤ (numeral 10 v).length then .crash .ub
    else .ok (chars "Test 'meta' defined at line " ++ numeralN 10 line ++ chars "\nExpected result: " ++ numeral 10 e ++
      chars "\nInput values: " ++ numeralN 10 xs.length ++ [10] ++
      (xs.zipIdx.flatMap fun p => metaItemText p.2 p.1 ++ sameAs ss p.2 ++ [10]) ++
      chars "Output values: " ++ numeralN 10 os.length ++ [10] ++ os.zipIdx.flatMap fun p => metaItemText p.2 p.1 ++ [10])

/-- The verdict on a test in line `line`; there is none if the code is not known, or the number of inputs or outputs is wrong. -/
noncomputable def verdictOf (L : Lib) (line : Nat) (code : List Nat) (ins outs : List (List Nat)) : Option Verdict :=
  if code = chars "meta" then some (testMeta line ins outs)
  else match (table L).find? fun p => chars p.1 = code with
    | none => none
    | some p => if ins.length = p.2.1 ∧ outs.length = p.2.2.1 then some (p.2.2.2 ins outs) else none

/-- The names of the results that are printed. -/
def errorName (e : Int) : Option String :=
  ([(0, "MP_OK"), (-1, "MP_TRUE"), (-2, "MP_MEMORY"), (-3, "MP_RANGE"), (-4, "MP_UNDEF"), (-5, "MP_TRUNC"), (-6, "MP_BADARG")].find?
    fun p => p.1 = e).map Prod.snd

/-- What is said about a test: the text is printed. -/
inductive Answer
  | passed (t : List Nat)
  | failed (t : List Nat)
  | bogus
  | crash (f : Fault)
  | unknown

/-- The start of a line: the file, the number of the line and the number of the test -/
def lineStart (file : List Nat) (line num : Nat) : List Nat :=
  file ++ [9] ++ numeralN 10 line ++ [9] ++ numeralN 10 num ++ [9]

def answer (start : List Nat) : Option Verdict → Answer
  | none => .bogus
  | some (.ok t) => .passed (t ++ (start ++ chars "OK\n"))
  | some (.error e) => match errorName e with
    | none => .unknown
    | some s => .failed (start ++ chars s ++ [10])
  | some (.failed msg) => .failed (start ++ chars "FAILED\t" ++ msg ++ [10])
  | some (.crash f) => .crash f
  | some .unknown => .unknown

/-- How many tests there were, how many of them failed, and how many lines were in error. -/
structure Tally where
  tests : Nat
  failed : Nat
  errors : Nat
deriving DecidableEq

inductive Report
  | done (n : Tally) (text : List Nat)
  | crash (f : Fault)
  | unknown

/-- The report on the lines of a file. -/
noncomputable def report (L : Lib) (file : List Nat) : List (Nat × List Nat) → Tally → List Nat → Report
  | [], n, text => .done n text
  | (k, l) :: ls, n, text =>
    match lineOf l with
    | .syntaxError => report L file ls { n with errors := n.errors + 1 } text
    | .overflow => .crash .ub
    | .test code ins outs =>
      match answer (lineStart file k (n.tests + 1)) (verdictOf L k code ins outs) with
      | .passed t => report L file ls { n with tests := n.tests + 1 } (text ++ t)
      | .failed t => report L file ls { n with tests := n.tests + 1, failed := n.failed + 1 } (text ++ t)
      | .bogus => report L file ls { n with tests := n.tests + 1, errors := n.errors + 1 } text
      | .crash f => .crash f
      | .unknown => .unknown

/-- The line at the end; the number of tests that passed is computed from the other numbers. -/
def summary (file secs : List Nat) (n : Tally) : List Nat :=
  chars "# " ++ file ++ [32] ++ numeralN 10 n.tests ++ chars " tests: " ++ numeral 10 ((n.tests : Int) - n.failed - n.errors) ++
    chars " passed, " ++ numeralN 10 n.failed ++ chars " failed, " ++ numeralN 10 n.errors ++ chars " errors. (" ++ secs ++ chars " seconds)\n"

/-- The lines of a file that are looked at, when `cur` lines have been read before. -/
def linesOf (cur : Nat) (inp : List Nat) : List (Nat × List Nat) := numbered cur (chunks 4095 [] 4095 inp)

/-- How many lines a file has. -/
def lineCount (inp : List Nat) : Nat := (chunks 4095 [] 4095 inp).length

/-- What `main` does. -/
inductive Exit
  | exit (status : Int) (text : List Nat)
  | crash (f : Fault)
  | unknown

/-- The arguments are read one after the other: `-` is the standard input, which can only be read once.  The second of
`st` is the number of lines read from a file with the address that is the first of `st`. -/
noncomputable def runArgs (L : Lib) (files : List Nat → Option (List Nat)) (fps : Nat → Nat) (secs : Nat → List Nat) :
    List (List Nat) → Nat → Option (List Nat) → Nat × Nat → Int → List Nat → Exit
  | [], _, _, _, status, text => .exit status text
  | a :: as, k, inp, st, status, text =>
    let cur := if fps k = st.1 then st.2 else 0
    let next := fun s inp => match report L a (linesOf cur s) ⟨0, 0, 0⟩ text with
      | .done n text => runArgs L files fps secs as (k + 1) inp (fps k, cur + lineCount s) (if n.failed = 0 ∧ n.errors = 0 then status else 1)
          (text ++ summary a (secs k) n)
      | .crash f => .crash f
      | .unknown => .unknown
    if a = [45] then match inp with
      | none => .crash .ub
      | some s => next s none
    else match files a with
      | none => .exit 1 text
      | some s => next s inp

/-- Without arguments the standard input is read. -/
noncomputable def runMain (L : Lib) (args : List (List Nat)) (files : List Nat → Option (List Nat)) (inp : List Nat) (fps : Nat → Nat)
    (secs : Nat → List Nat) : Exit :=
  if args = [] then match report L [45] (linesOf 0 inp) ⟨0, 0, 0⟩ [] with
    | .done n text => .exit (if n.failed = 0 ∧ n.errors = 0 then 0 else 1) (text ++ summary [45] (secs 0) n)
    | .crash f => .crash f
    | .unknown => .unknown
  else runArgs L files fps secs args 0 (some inp) (0, 0) 0 []

end Imath
