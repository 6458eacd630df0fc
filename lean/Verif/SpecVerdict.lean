import Verif.SpecDriver
import Verif.SpecCalc
import Verif.SpecPrime

/-!
# A reference for the test driver: values and verdicts

What a line of a test file says and what the driver has to answer, as functions on lists of characters and on integers.
Nothing here refers to the model of the driver.
-/

namespace Imath

/-! ### Values -/

/-- A radix tag (`#x`, `#d`, `#o` or `#b`) and the text after it; without tag the radix is 10. -/
def tagged : List Nat → Option (Nat × List Nat)
  | 35 :: c :: t =>
    if c = 120 ∨ c = 88 then some (16, t)
    else if c = 100 ∨ c = 68 then some (10, t)
    else if c = 111 ∨ c = 79 then some (8, t)
    else if c = 98 ∨ c = 66 then some (2, t)
    else none
  | [35] => none
  | s => some (10, s)

/-- The integer that a text denotes; the text has to be read to its end.  Without digits the value is 0. -/
def readValue (s : List Nat) : Option Int :=
  (tagged s).bind fun p =>
    let q := scanInt p.1 (p.2 ++ [0])
    if endCode q.2 = MP_OK then some q.1 else none

/-- The text without white space and one sign at its start. -/
def unsigned (s : List Nat) : List Nat :=
  let t := trim s
  if t.head? = some 45 ∨ t.head? = some 43 then t.tail else t

/-- `0x` and a hexadecimal digit -/
def startsHex : List Nat → Bool
  | 48 :: c :: x :: _ => (c = 120 ∨ c = 88) ∧ (digitVal 16 x).isSome
  | _ => false

/-- The number that a text denotes, in the radix given by a tag, as a `long`: too large ones are replaced by the largest or
smallest `long`.  There has to be a digit. -/
def longOf (s : List Nat) : Option Int :=
  (tagged s).bind fun p =>
    let u := unsigned p.2
    let u := if p.1 = 16 ∧ startsHex u then u.drop 2 else u
    let q := scanDigits p.1 0 u
    if u ≠ [] ∧ q.2 = [] then some (if minus p.2 then max (-2 ^ 63) (-q.1) else min (2 ^ 63 - 1) q.1) else none

/-- The number at the start of a text, in C notation, as an `unsigned long`. -/
def ulongOf (s : List Nat) : Nat :=
  let u := unsigned s
  let n := if startsHex u then (scanDigits 16 0 (u.drop 2)).1
    else (scanDigits (if u.head? = some 48 then 8 else 10) 0 u).1
  if 2 ^ 64 ≤ n then 2 ^ 64 - 1 else if minus s then (2 ^ 64 - n) % 2 ^ 64 else n

/-- The names of the result codes. -/
def codeNames : List (String × Int) := [("MP_OK", 0), ("MP_FALSE", 0), ("MP_TRUE", -1), ("MP_MEMORY", -2), ("MP_RANGE", -3),
  ("MP_UNDEF", -4), ("MP_TRUNC", -5), ("MP_ROUND_UP", 2), ("MP_ROUND_DOWN", 0), ("MP_ROUND_HALF_UP", 1), ("MP_ROUND_HALF_DOWN", 3)]

/-- The result code that a text after `$` denotes: a name, or `#` and a number, which is reduced to 32 bits. -/
def codeOf : List Nat → Option Int
  | 35 :: t => (longOf t).map fun v => (v + 2 ^ 31) % 2 ^ 32 - 2 ^ 31
  | t => (codeNames.find? fun p => chars p.1 = t).map Prod.snd

/-- Numbers up to 255 with points in between. -/
def bytesOf (s : List Nat) : Option (List Nat) :=
  (((s.splitOn 46).filter fun t => t ≠ []).take 2048).mapM fun t =>
    (longOf t).bind fun v => if 0 ≤ v ∧ v ≤ 255 then some v.toNat else none

/-- What becomes of a list of texts. -/
inductive Parse (β : Type) where
  | bad
  | crash
  | ok (b : β)

/-- The inputs, read with `rd`: a value that is read is stored in the next register, and `=k` stands for the register of the
`k`-th input.  The result are the numbers of the registers of the inputs, and the values of the registers.
There are sixteen registers. -/
def readIns {α : Type} (rd : List Nat → Option α) : List (List Nat) → List Nat → List α → Parse (List Nat × List α)
  | [], ss, vs => .ok (ss, vs)
  | t :: ts, ss, vs =>
    match trimmed t with
    | 61 :: k =>
      let n := (scanInt 10 k).1.natAbs
      if 2 ^ 31 ≤ n then .crash
      else if n = 0 then .bad
      else match ss[n - 1]? with
        | none => .bad
        | some s => readIns rd ts (ss ++ [s]) vs
    | u =>
      if 16 ≤ vs.length then .crash
      else match rd u with
        | none => .bad
        | some v => readIns rd ts (ss ++ [vs.length]) (vs ++ [v])

/-- The outputs, from register `pos` on: `?` stands for any value (zero is stored), and `$` and a code give the result
code, if it is allowed.  Values are only read if `out` holds.  The results are the values and the result code. -/
def readOuts {α : Type} (rd : List Nat → Option α) (zero : α) (out rval : Bool) :
    List (List Nat) → Nat → List α → Int → Parse (List α × Int)
  | [], _, os, e => .ok (os, e)
  | t :: ts, pos, os, e =>
    if 16 ≤ pos then .crash
    else match trimmed t with
      | [63] => readOuts rd zero out rval ts (pos + 1) (os ++ [zero]) e
      | 36 :: k =>
        match codeOf k with
        | none => .bad
        | some e' => if rval then readOuts rd zero out rval ts (pos + 1) (os ++ [zero]) e' else .bad
      | u =>
        if out then
          match rd u with
          | none => .bad
          | some v => readOuts rd zero out rval ts (pos + 1) (os ++ [v]) e
        else readOuts rd zero out rval ts (pos + 1) (os ++ [zero]) e

/-! ### Verdicts -/

/-- What comes of a test. -/
inductive Verdict where
  /-- passed; `txt` has been printed -/
  | ok (txt : List Nat)
  /-- failed with a result code -/
  | error (e : Int)
  /-- failed with a message -/
  | failed (msg : List Nat)
  /-- the driver ends with a fault -/
  | crash (f : Fault)
  /-- nothing is said here -/
  | unknown

/-- Reads the inputs (if `inn` holds) and the outputs and goes on with the registers of the inputs, their values, the
values of the outputs and the result code. -/
def withVals {α : Type} (rd : List Nat → Option α) (zero : α) (inn out rval : Bool) (ins outs : List (List Nat))
    (k : List Nat → List α → List α → Int → Verdict) : Verdict :=
  match if inn then readIns rd ins [] [] else .ok ([], []) with
  | .bad => .error MP_BADARG
  | .crash => .crash .ub
  | .ok (ss, vs) =>
    match readOuts rd zero out rval outs vs.length [] MP_OK with
    | .bad => .error MP_BADARG
    | .crash => .crash .ub
    | .ok (os, e) => k ss (ss.map fun s => vs.getD s zero) os e

/-- What the operation under test does. -/
inductive OpRes where
  | done (vs : List Int)
  | fails (e : Int)
  /-- the test fails before -/
  | stop (e : Int)
  | crash (f : Fault)
  | unknown

/-- The numerals with commas in between, if there is room for them and the terminator. -/
def joined : List Int → Nat → Except Fault (List Nat)
  | [], _ => .ok []
  | v :: vs, limit =>
    if limit < 2 then .error .assert
    else
      let t := numeral 10 v
      if limit ≤ t.length then .error .ub
      else if vs = [] then .ok t
      else match joined vs (limit - (t.length + 1)) with
        | .ok u => .ok (t ++ 44 :: u)
        | .error f => .error f

/-- The message for a wrong result are the results; the buffer has 2048 characters. -/
def wrong (vs : List Int) : Verdict :=
  match joined vs 2048 with
  | .ok t => .failed t
  | .error f => .crash f

/-- The result code is compared first; if it is `MP_OK`, the results are compared. -/
def judge (e : Int) (r : OpRes) (os : List Int) : Verdict :=
  match r with
  | .done vs => if e ≠ MP_OK then .error MP_OK else if vs = os then .ok [] else wrong vs
  | .fails c => if c = e then .ok [] else .error c
  | .stop c => .error c
  | .crash f => .crash f
  | .unknown => .unknown

/-- An operand of type `long`. -/
def asLong (v : Int) (k : OpRes) : OpRes :=
  if v = -2 ^ 63 then .crash .ub else if v < -2 ^ 63 ∨ 2 ^ 63 ≤ v then .stop MP_RANGE else k

/-- A test on integers: `f` is given the registers of the inputs and their values. -/
def numTest (f : List Nat → List Int → OpRes) (ins outs : List (List Nat)) : Verdict :=
  withVals readValue 0 true true true ins outs fun ss xs os e => judge e (f ss xs) os

/-- The test with one value. -/
def val1 (v : Int) : OpRes := .done [v]

def opSetu : List Nat → List Int → OpRes
  | _, [_, w] => if w < 0 ∨ 2 ^ 64 ≤ w then .stop MP_RANGE else val1 w
  | _, _ => .unknown

def opSetv : List Nat → List Int → OpRes
  | _, [_, w] => asLong w (val1 w)
  | _, _ => .unknown

def op1 (f : Int → OpRes) : List Nat → List Int → OpRes
  | _, [x, _] => f x
  | _, _ => .unknown

def op2 (f : Int → Int → OpRes) : List Nat → List Int → OpRes
  | _, [x, y, _] => f x y
  | _, _ => .unknown

def op3 (f : Int → Int → Int → OpRes) : List Nat → List Int → OpRes
  | _, [x, y, v, _] => f x y v
  | _, _ => .unknown

/-- The length of the shift is reduced to 32 bits. -/
def refMulp2 (x y : Int) : OpRes := asLong y (if y < 0 then .crash .assert else val1 (x * 2 ^ (y % 2 ^ 32).toNat))

/-- The exponent is reduced to 32 bits. -/
def refExpt (x y : Int) : OpRes := if y < 0 then .fails MP_RANGE else val1 (x ^ (y % 2 ^ 32).toNat)

/-- Full powers.  If the result is stored in the register of the exponent, it is the base; for bases of more than one digit the
test does not end before the memory is exhausted. -/
def opExptf : List Nat → List Int → OpRes
  | [_, b, z], [x, y, _] =>
    if y < 0 then .fails MP_RANGE
    else if b ≠ z then val1 (x ^ y.toNat)
    else if |x| < 2 ^ 32 then val1 x else .crash .diverge
  | _, _ => .unknown

def refMod (x y : Int) : OpRes := if y = 0 then .fails MP_UNDEF else val1 (remOf x y)

def refGcd (x y : Int) : OpRes := if x = 0 ∧ y = 0 then .fails MP_UNDEF else val1 (Int.gcd x y)

/-- The least common multiple, with the sign of the product. -/
def refLcm (x y : Int) : OpRes := if x = 0 ∧ y = 0 then .fails MP_UNDEF else val1 (x.tdiv (Int.gcd x y) * y)

def refInvmod (x y : Int) : OpRes :=
  if x = 0 ∨ y ≤ 0 then .fails MP_RANGE else if Int.gcd x y ≠ 1 then .fails MP_UNDEF else val1 (invOf x y)

/-- The degree is reduced to 32 bits, after its parity has been looked at. -/
def refRoot (x y : Int) : OpRes :=
  if y ≤ 0 then .crash .assert
  else if x < 0 ∧ y % 2 = 0 then .fails MP_UNDEF
  else if y % 2 ^ 32 = 0 then if x = 0 then .fails MP_UNDEF else val1 x
  else val1 (x.sign * floorRoot (y % 2 ^ 32).toNat x.natAbs)

/-- Modular powers. -/
def refEmod (x y v : Int) : OpRes :=
  if v = 0 then .fails MP_UNDEF
  else if y < 0 then .fails MP_RANGE
  else if v < 0 then val1 (negResult x y.toNat v)
  else if y = 0 ∧ v = 1 then val1 1
  else val1 (x ^ y.toNat % v)

/-- Quotient and remainder; they have to be in different registers. -/
def opDiv : List Nat → List Int → OpRes
  | [_, _, q, r], [x, y, _, _] =>
    if q = r then .crash .assert else if y = 0 then .fails MP_UNDEF else .done [x.tdiv y, x.tmod y]
  | _, _ => .unknown

/-- Quotient and remainder of the division by a power of two, whose exponent is reduced to 32 bits.  If the quotient replaces the
operand, the remainder is that of the quotient.  Left open if a remainder of a negative number is zero. -/
def opDivp2 : List Nat → List Int → OpRes
  | [a, _, q, r], [x, y, _, _] =>
    let t : Int := 2 ^ (y % 2 ^ 32).toNat
    let z := if q = a then x.tdiv t else x
    asLong y (
      if y < 0 ∨ q = r then .crash .assert
      else if z < 0 ∧ z.tmod t = 0 then .unknown
      else .done [x.tdiv t, z.tmod t])
  | _, _ => .unknown

/-- Division by a `long`: the remainder that is expected has to be a `long`, too. -/
def testDivv (ins outs : List (List Nat)) : Verdict :=
  withVals readValue 0 true true true ins outs fun _ xs os e =>
    match xs, os with
    | [x, y, _], [q, r] =>
      match asLong y (asLong r (if y = 0 then .fails MP_UNDEF else .done [x.tdiv y, x.tmod y])) with
      | .done vs =>
        if e ≠ MP_OK then .error MP_OK
        else if vs = [q, r] then .ok []
        else
          let t := numeral 10 (x.tdiv y) ++ 44 :: numeral 10 (x.tmod y)
          if t.length < 2048 then .failed t else .crash .ub
      | w => judge e w []
    | _, _ => .unknown

/-- What the extended algorithm stores in which register, last first: the divisor in `k`, the coefficients in `l` and `q` -/
def egcdStores (L : Lib) (k l q : Nat) (x y : Int) : List (Nat × Int) :=
  if x = 0 then [(q, 1), (l, 0), (k, |y|)]
  else if y = 0 then [(q, 0), (l, 1), (k, |x|)]
  else [(k, Int.gcd x y), (q, (L.bez x y).2), (l, (L.bez x y).1)]

/-- The extended algorithm.  If not all results are as expected, the test passes if the coefficients are those of
the divisor that was found: it is not compared with the expected one then.  All values are those that are in the registers afterwards. -/
def testEgcd (L : Lib) (ins outs : List (List Nat)) : Verdict :=
  withVals readValue 0 true true true ins outs fun ss xs os e =>
    match ss, xs with
    | [i, j, k, l, q], [x, y, _, _, _] =>
      if x = 0 ∧ y = 0 then judge e (.fails MP_UNDEF) []
      else
        let f : Nat → Int := fun s => ((egcdStores L k l q x y ++ ss.zip xs).lookup s).getD 0
        if e ≠ MP_OK then .error MP_OK
        else if [f k, f l, f q] = os ∨ f l * f i + f q * f j = f k then .ok []
        else wrong [f k, f l, f q]
    | _, _ => .unknown

/-- The message for a wrong comparison. -/
def cmpMsg (want got : Int) : List Nat :=
  chars "Incorrect comparison result (want " ++ numeral 10 want ++ chars ", got " ++ numeral 10 got ++ chars ")"

/-- The order of two numbers. -/
def order (x y : Int) : Int := if x < y then -1 else if x = y then 0 else 1

/-- A comparison: `f` is given the values and the texts of the inputs. -/
def cmpTest (f : List Int → List (List Nat) → Option (Except Fault Int)) (ins outs : List (List Nat)) : Verdict :=
  withVals readValue 0 true false true ins outs fun _ xs _ e =>
    match f xs (ins.map trimmed) with
    | none => .unknown
    | some (.error f) => .crash f
    | some (.ok c) => if c = e then .ok [] else .failed (cmpMsg e c)

def cmpXY : List Int → List (List Nat) → Option (Except Fault Int)
  | [x, y], _ => some (.ok (order x y))
  | _, _ => none

def cmpU : List Int → List (List Nat) → Option (Except Fault Int)
  | [x, y], _ => some (.ok (order |x| |y|))
  | _, _ => none

def cmpZero : List Int → List (List Nat) → Option (Except Fault Int)
  | [x], _ => some (.ok (order x 0))
  | _, _ => none

/-- The second operand is not the value that has been read from the text, but the decimal number at its start, which has to be
an `int`. -/
def cmpV : List Int → List (List Nat) → Option (Except Fault Int)
  | [x, _], [_, t] =>
    let v := (scanInt 10 t).1
    some (if -2 ^ 31 ≤ v ∧ v < 2 ^ 31 then .ok (order x v) else .error .ub)
  | _, _ => none

/-- The same with an `unsigned long`. -/
def cmpUV : List Int → List (List Nat) → Option (Except Fault Int)
  | [x, _], [_, t] => some (.ok (order x (ulongOf t)))
  | _, _ => none

/-- The text of a number in some radix. -/
def testTostr (L : Lib) (ins outs : List (List Nat)) : Verdict :=
  withVals readValue 0 true false false ins outs fun _ xs _ _ =>
    match xs, outs with
    | [x, r], [o] =>
      if r = -2 ^ 63 then .crash .ub
      else if r < -2 ^ 63 ∨ 2 ^ 63 ≤ r then .error MP_BADARG
      else if r < 2 ∨ 36 < r then .error MP_RANGE
      else
        let t := numeral r.toNat x
        if Fits L r.toNat x then
          if 2048 ≤ t.length then .crash .ub else if t = trimmed o then .ok [] else .failed t
        else if 2048 ≤ L.room r.toNat x then .crash .ub else .error MP_TRUNC
    | _, _ => .unknown

/-- The bytes of the magnitude. -/
def magBytes (x : Int) : List Nat :=
  let n := max 1 ((Nat.size x.natAbs + 7) / 8)
  (List.range n).map fun i => x.natAbs / 256 ^ (n - 1 - i) % 256

def dottedText (bs : List Nat) : List Nat := List.intercalate [46] (bs.map (numeralN 10))

/-- The bytes `f x` of a number. -/
def binTest (f : Int → List Nat) (ins outs : List (List Nat)) : Verdict :=
  withVals readValue 0 true false false ins outs fun _ xs _ _ =>
    match xs, outs with
    | [x], [o] =>
      match bytesOf (trimmed o) with
      | none => .error MP_BADARG
      | some bs =>
        if (f x).length ≠ bs.length then
          .failed (chars "Output lengths do not match (want " ++ numeralN 10 (f x).length ++ chars ", got " ++
            numeralN 10 bs.length ++ chars ")")
        else if f x = bs then .ok []
        else if 2048 ≤ (dottedText (f x)).length then .crash .ub
        else .failed (dottedText (f x))
    | _, _ => .unknown

/-- Reading bytes with `f`. -/
def readTest (f : List Nat → Int) (ins outs : List (List Nat)) : Verdict :=
  withVals readValue 0 false true true ins outs fun _ _ os e =>
    match ins with
    | [t] =>
      match bytesOf (trimmed t) with
      | none => .error MP_BADARG
      | some bs => if bs = [] then .crash .assert else judge e (val1 (f bs)) os
    | _ => .unknown

/-- Conversion to `long` or `unsigned long`. -/
def convTest (f : Int → OpRes) (ins outs : List (List Nat)) : Verdict :=
  withVals readValue 0 true true true ins outs fun _ xs os e =>
    match xs, os with
    | [x], [o] =>
      match f x with
      | .done _ =>
        if e ≠ MP_OK then .error MP_OK
        else if x = o then .ok [] else .failed (chars "Incorrect value (got " ++ numeral 10 x ++ chars ")")
      | w => judge e w []
    | _, _ => .unknown

def refToInt (x : Int) : OpRes :=
  if x = -2 ^ 63 then .crash .ub else if x < -2 ^ 63 ∨ 2 ^ 63 ≤ x then .fails MP_RANGE else val1 x

def refToUint (x : Int) : OpRes := if x < 0 ∨ 2 ^ 64 ≤ x then .fails MP_RANGE else val1 x

open Classical in
/-- The primality test. -/
noncomputable def testPrime (ins outs : List (List Nat)) : Verdict :=
  withVals readValue 0 true false true ins outs fun _ xs _ e =>
    match xs with
    | [x] => judge e (if Accepted x then .fails MP_TRUE else .fails MP_OK) []
    | _ => .unknown

/-- The tests: their codes, the numbers of inputs and outputs, and what comes of them.  Left open are tests whose operand is
a register that is initialised again (`initu`, `initv`). -/
noncomputable def reference (L : Lib) : List (String × Nat × Nat × (List (List Nat) → List (List Nat) → Verdict)) := [
  ("setu", 2, 1, numTest opSetu), ("setv", 2, 1, numTest opSetv),
  ("neg", 2, 1, numTest (op1 fun x => val1 (-x))), ("abs", 2, 1, numTest (op1 fun x => val1 |x|)),
  ("add", 3, 1, numTest (op2 fun x y => val1 (x + y))), ("addv", 3, 1, numTest (op2 fun x y => asLong y (val1 (x + y)))),
  ("sub", 3, 1, numTest (op2 fun x y => val1 (x - y))), ("subv", 3, 1, numTest (op2 fun x y => asLong y (val1 (x - y)))),
  ("mul", 3, 1, numTest (op2 fun x y => val1 (x * y))), ("mulp2", 3, 1, numTest (op2 refMulp2)),
  ("mulv", 3, 1, numTest (op2 fun x y => asLong y (val1 (x * y)))), ("sqr", 2, 1, numTest (op1 fun x => val1 (x * x))),
  ("div", 4, 2, numTest opDiv), ("divp2", 4, 2, numTest opDivp2), ("divv", 3, 2, testDivv),
  ("expt", 3, 1, numTest (op2 fun x y => asLong y (refExpt x y))),
  ("exptv", 3, 1, numTest (op2 fun x y => asLong x (asLong y (refExpt x y)))), ("exptf", 3, 1, numTest opExptf),
  ("mod", 3, 1, numTest (op2 refMod)), ("gcd", 3, 1, numTest (op2 refGcd)), ("egcd", 5, 3, testEgcd L),
  ("lcm", 3, 1, numTest (op2 refLcm)),
  ("sqrt", 2, 1, numTest (op1 fun x => if x < 0 then .fails MP_UNDEF else val1 (floorRoot 2 x.toNat))),
  ("root", 3, 1, numTest (op2 fun x y => asLong y (refRoot x y))), ("invmod", 3, 1, numTest (op2 refInvmod)),
  ("emod", 4, 1, numTest (op3 refEmod)), ("emodev", 4, 1, numTest (op3 fun x y v => asLong y (refEmod x y v))),
  ("emodbv", 4, 1, numTest (op3 fun x y v => asLong x (refEmod x y v))),
  ("cmp", 2, 1, cmpTest cmpXY), ("cmpu", 2, 1, cmpTest cmpU), ("cmpz", 1, 1, cmpTest cmpZero), ("cmpv", 2, 1, cmpTest cmpV),
  ("cmpuv", 2, 1, cmpTest cmpUV), ("tostr", 2, 1, testTostr L), ("tobin", 1, 1, binTest twosBytes),
  ("readbin", 1, 1, readTest twosVal), ("to-uns", 1, 1, binTest magBytes),
  ("readuns", 1, 1, readTest fun bs => beVal bs),
  ("to-int", 1, 1, convTest refToInt), ("to-uint", 1, 1, convTest refToUint), ("isprime", 1, 1, testPrime)]

end Imath
