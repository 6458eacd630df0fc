import Verif.SpecVerdict

/-!
# A reference for the test driver: the tests on rational numbers

As `SpecVerdict`, for the tests whose operands are rational numbers.  Nothing here refers to the model of the driver.
-/

namespace Imath

/-- After `@` positional notation, otherwise an integer or a fraction. -/
def readNotation (r : Nat) : List Nat → Reading
  | 64 :: u => readDecimal r (u ++ [0])
  | t => readFraction r (t ++ [0])

/-- The rational number that a text denotes. -/
def readRat (s : List Nat) : Option ℚ :=
  (tagged s).bind fun p =>
    let q := readNotation p.1 p.2
    if q.res = MP_OK then some (Rat.divInt q.num q.den) else none

/-- What the operation under test does. -/
inductive QRes where
  | done (v : ℚ)
  | fails (e : Int)
  /-- the test fails before -/
  | stop (e : Int)
  | crash (f : Fault)

/-- The message for a wrong result is the result; the buffer has 2048 characters, and two of them have to be left
for the denominator. -/
def wrongQ (v : ℚ) : Verdict :=
  let n := (numeral 10 v.num).length
  if 2048 ≤ n then .crash .ub
  else if v ≠ 0 ∧ 2046 ≤ n then .crash .assert
  else if 2048 ≤ (ratText 10 v).length then .crash .ub
  else .failed (ratText 10 v)

/-- The result code is compared first; if it is `MP_OK`, the results are compared. -/
def judgeQ (e : Int) (r : QRes) (os : List ℚ) : Verdict :=
  match r with
  | .done v => if e ≠ MP_OK then .error MP_OK else if [v] = os then .ok [] else wrongQ v
  | .fails c => if c = e then .ok [] else .error c
  | .stop c => .error c
  | .crash f => .crash f

/-- A test with one operand and one register for the result. -/
def ratTest1 (f : ℚ → QRes) (ins outs : List (List Nat)) : Verdict :=
  withVals readRat 0 true true true ins outs fun _ xs os e =>
    match xs with
    | [x, _] => judgeQ e (f x) os
    | _ => .unknown

/-- A test with two operands; `f` is also told whether the result replaces the second one. -/
def ratTest2 (f : Bool → ℚ → ℚ → QRes) (ins outs : List (List Nat)) : Verdict :=
  withVals readRat 0 true true true ins outs fun ss xs os e =>
    match ss, xs with
    | [_, b, z], [x, y, _] => judgeQ e (f (b = z) x y) os
    | _, _ => .unknown

/-- The second operand has to be an integer. -/
def intArg (f : Bool → ℚ → Int → QRes) (s : Bool) (x y : ℚ) : QRes := if y.den = 1 then f s x y.num else .stop MP_BADARG

/-- A product with an integer.  If the result replaces the integer, that has been overwritten by the first operand when it
is used, so that the factor is the numerator of the first operand. -/
def refMulz (s : Bool) (x : ℚ) (y : Int) : QRes := .done (x * if s then x.num else y)

/-- A quotient by an integer; zero is looked for before the integer is overwritten. -/
def refDivz (s : Bool) (x : ℚ) (y : Int) : QRes := if y = 0 then .fails MP_UNDEF else .done (x / if s then x.num else y)

/-- A power; the exponent has to be a `long`, and is reduced to 32 bits. -/
def refQexpt (x : ℚ) (y : Int) : QRes :=
  if y = -2 ^ 63 then .crash .ub
  else if y < -2 ^ 63 ∨ 2 ^ 63 ≤ y then .stop MP_RANGE
  else if y < 0 then .fails MP_RANGE
  else .done (x ^ (y % 2 ^ 32).toNat)

/-- The text of a number in some radix, which is given by the text of the second input. -/
def testQtostr (ins outs : List (List Nat)) : Verdict :=
  withVals readRat 0 true false false ins outs fun _ xs _ _ =>
    match xs, ins, outs with
    | [x, _], [_, s], [o] =>
      match longOf (trimmed s) with
      | none => .error MP_BADARG
      | some r =>
        if r < 2 ∨ 36 < r then .error MP_RANGE
        else
          let t := ratText r.toNat x
          if 2048 ≤ t.length then .crash .ub else if t = trimmed o then .ok [] else .failed t
    | _, _, _ => .unknown

open Classical in
/-- Positional notation: radix, precision and rounding mode are given by the texts of the other inputs.  Left open for unknown rounding
modes, for precisions and numbers that are very large, if the text is longer than the buffer, and in the carrying case with a
numerator of one digit (otherwise the wrong text of that case is what the test has to expect). -/
noncomputable def testQtodec (ins outs : List (List Nat)) : Verdict :=
  withVals readRat 0 true false false ins outs fun _ xs _ _ =>
    match xs, ins, outs with
    | [x, _, _, _], [_, s1, s2, s3], [o] =>
      match longOf (trimmed s1), longOf (trimmed s2), longOf (trimmed s3) with
      | some r, some p, some mode =>
        let r : Nat := (r % 2 ^ 32).toNat
        let prec : Nat := (p % 2 ^ 32).toNat
        let mode : Nat := (mode % 2 ^ 32).toNat
        let t := decWritten r prec mode x
        if p < 0 then .error MP_RANGE
        else if r < 2 ∨ 36 < r then .crash .assert
        else if 3 < mode ∨ 2147483642 < Nat.size x.num.natAbs + prec ∨ 2048 ≤ t.length ∨ (prec ≠ 0 ∧ 13 ^ 5458 ≤ |x.num|) ∨
          (x.num.natAbs < r ∧ Carries r prec (roundQ 0 (|x| * r ^ prec)) (roundQ mode (|x| * r ^ prec))) then .unknown
        else if t = trimmed o then .ok [] else .failed t
      | _, _, _ => .error MP_BADARG
    | _, _, _ => .unknown

/-- Reading positional notation; white space is not removed from the first input. -/
def testQrdec (ins outs : List (List Nat)) : Verdict :=
  withVals readRat 0 false true true ins outs fun _ _ os e =>
    match ins with
    | [t, s] =>
      match longOf (trimmed s) with
      | none => .error MP_BADARG
      | some r =>
        let r : Nat := (r % 2 ^ 32).toNat
        if r < 2 ∨ 36 < r then .crash .assert
        else
          let q := readDecimal r (t ++ [0])
          judgeQ e (if q.res = MP_OK then .done (Rat.divInt q.num q.den) else .fails q.res) os
    | _ => .unknown

/-- The tests on rational numbers. -/
noncomputable def ratReference : List (String × Nat × Nat × (List (List Nat) → List (List Nat) → Verdict)) := [
  ("qneg", 2, 1, ratTest1 fun x => .done (-x)),
  ("qrecip", 2, 1, ratTest1 fun x => if x = 0 then .fails MP_UNDEF else .done x⁻¹),
  ("qabs", 2, 1, ratTest1 fun x => .done |x|),
  ("qadd", 3, 1, ratTest2 fun _ x y => .done (x + y)), ("qsub", 3, 1, ratTest2 fun _ x y => .done (x - y)),
  ("qmul", 3, 1, ratTest2 fun _ x y => .done (x * y)),
  ("qdiv", 3, 1, ratTest2 fun _ x y => if y = 0 then .fails MP_UNDEF else .done (x / y)),
  ("qaddz", 3, 1, ratTest2 (intArg fun _ x y => .done (x + y))), ("qsubz", 3, 1, ratTest2 (intArg fun _ x y => .done (x - y))),
  ("qmulz", 3, 1, ratTest2 (intArg refMulz)), ("qdivz", 3, 1, ratTest2 (intArg refDivz)),
  ("qexpt", 3, 1, ratTest2 (intArg fun _ => refQexpt)),
  ("qtostr", 2, 1, testQtostr), ("qtodec", 4, 1, testQtodec), ("qrdec", 2, 1, testQrdec)]

end Imath
