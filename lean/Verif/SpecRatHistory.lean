import Verif.SpecRatTrunc
import Verif.SpecRead
import Verif.SpecHistory

/-!
# Programs with rational and integer variables

A program has rational variables and integer variables, numbered separately.  The state of a program
gives the values of those that are initialised; a rational variable has a rational number as value,
that is, a fraction in lowest terms with positive denominator.  A rule per call of imrat.h says which
calls are admissible in a state and what they return and change.  Calls of imath.h are admissible if
they write to integer variables only; they may read numerators and denominators (`mp_rat_numer_ref`,
`mp_rat_denom_ref`).

The parts of all variables are variables of the model: numerator and denominator of the rational
variable `k` are numbers `3k` and `3k + 1`, the integer variable `k` is number `3k + 2`.
-/

namespace Imath

/-- The rational variable `k`. -/
def rv (k : Nat) : RVar := ⟨3 * k, 3 * k + 1⟩

/-- The integer variable `k`. -/
def iv (k : Nat) : Nat := 3 * k + 2

/-- The values of all integers: numerators, denominators and integer variables. -/
def flat (κ : Nat → Option ℚ) (ι : Nat → Option Int) (n : Nat) : Option Int :=
  if n % 3 = 0 then (κ (n / 3)).map Rat.num else if n % 3 = 1 then (κ (n / 3)).map fun q => (q.den : Int) else ι (n / 3)

/-- Assignment to a rational variable. -/
def putR (κ : Nat → Option ℚ) (c : Nat) (q : ℚ) : Nat → Option ℚ := fun n => if n = c then some q else κ n

/-- A rational variable is cleared. -/
def delR (κ : Nat → Option ℚ) (c : Nat) : Nat → Option ℚ := fun n => if n = c then none else κ n

/-- Calls with rational arguments.  Arguments are numbers of variables; `n` is the number of any
integer, see `flat`. -/
inductive QCall where
  | init (c : Nat) | initSize (c np dp : Nat) | initCopy (c a : Nat) | clear (c : Nat)
  | setValue (c : Nat) (x y : Int) | setUvalue (c x y : Nat) | copy (a c : Nat) | zero (c : Nat)
  | abs (a c : Nat) | neg (a c : Nat) | recip (a c : Nat)
  | add (a b c : Nat) | sub (a b c : Nat) | mul (a b c : Nat) | div (a b c : Nat)
  | addInt (a n c : Nat) | subInt (a n c : Nat) | mulInt (a n c : Nat) | divInt (a n c : Nat)
  | expt (a : Nat) (k : Int) (c : Nat) | reduce (c : Nat)
  | numer (a i : Nat) | denom (a i : Nat)
  | compare (a b : Nat) | compareUnsigned (a b : Nat) | compareZero (a : Nat) | compareValue (a : Nat) (x y : Int)
  | isInteger (a : Nat) | sign (a : Nat) | toInts (a : Nat) | stringLen (a r : Nat) | decimalLen (a r prec : Nat)
  | toString (a r : Nat) (str : Bytes) (limit : Int) | toDecimal (a r prec mode : Nat) (str : Bytes) (limit : Int)
  | readCstring (c r : Nat) (str : Bytes) | readCdecimal (c r : Nat) (str : Bytes)
  | readString (c r : Nat) (str : Bytes) | readDecimal (c r : Nat) (str : Bytes) | readUstring (c r : Nat) (str : Bytes)
  | int (c : Call)

/-- A result and two values that are stored if they are there. -/
def outOO (p : Int × Option Int × Option Int) : List Int := p.1 :: (p.2.1.toList ++ p.2.2.toList)

/-- Perform a call. -/
def QCall.exec : QCall → M (List Int)
  | .init c => do let r ← mp_rat_init (rv c).p; pure [r]
  | .initSize c np dp => do let r ← mp_rat_init_size (rv c).p np dp; pure [r]
  | .initCopy c a => do let r ← mp_rat_init_copy (rv c).p (rv a).p; pure [r]
  | .clear c => do let _ ← mp_rat_clear (rv c).p; pure []
  | .setValue c x y => do let r ← mp_rat_set_value (rv c).p x y; pure [r]
  | .setUvalue c x y => do let r ← mp_rat_set_uvalue (rv c).p x y; pure [r]
  | .copy a c => do let r ← mp_rat_copy (rv a).p (rv c).p; pure [r]
  | .zero c => do let _ ← mp_rat_zero (rv c).p; pure []
  | .abs a c => do let r ← mp_rat_abs (rv a).p (rv c).p; pure [r]
  | .neg a c => do let r ← mp_rat_neg (rv a).p (rv c).p; pure [r]
  | .recip a c => do let r ← mp_rat_recip (rv a).p (rv c).p; pure [r]
  | .add a b c => do let r ← mp_rat_add (rv a).p (rv b).p (rv c).p; pure [r]
  | .sub a b c => do let r ← mp_rat_sub (rv a).p (rv b).p (rv c).p; pure [r]
  | .mul a b c => do let r ← mp_rat_mul (rv a).p (rv b).p (rv c).p; pure [r]
  | .div a b c => do let r ← mp_rat_div (rv a).p (rv b).p (rv c).p; pure [r]
  | .addInt a n c => do let r ← mp_rat_add_int (rv a).p (.var n) (rv c).p; pure [r]
  | .subInt a n c => do let r ← mp_rat_sub_int (rv a).p (.var n) (rv c).p; pure [r]
  | .mulInt a n c => do let r ← mp_rat_mul_int (rv a).p (.var n) (rv c).p; pure [r]
  | .divInt a n c => do let r ← mp_rat_div_int (rv a).p (.var n) (rv c).p; pure [r]
  | .expt a k c => do let r ← mp_rat_expt (rv a).p k (rv c).p; pure [r]
  | .reduce c => do let r ← mp_rat_reduce (rv c).p; pure [r]
  | .numer a i => do let r ← mp_rat_numer (rv a).p (.var (iv i)); pure [r]
  | .denom a i => do let r ← mp_rat_denom (rv a).p (.var (iv i)); pure [r]
  | .compare a b => do let r ← mp_rat_compare (rv a).p (rv b).p; pure [r]
  | .compareUnsigned a b => do let r ← mp_rat_compare_unsigned (rv a).p (rv b).p; pure [r]
  | .compareZero a => do let r ← mp_rat_compare_zero (rv a).p; pure [r]
  | .compareValue a x y => do let r ← mp_rat_compare_value (rv a).p x y; pure [r]
  | .isInteger a => do let r ← mp_rat_is_integer (rv a).p; pure (outT r)
  | .sign a => do let r ← mp_rat_sign (rv a).p; pure (outT r)
  | .toString a r str limit => do let p ← mp_rat_to_string (rv a).p r str limit; pure (outB p)
  | .toInts a => do let p ← mp_rat_to_ints (rv a).p; pure (outOO p)
  | .stringLen a r => do let n ← mp_rat_string_len (rv a).p r; pure [n]
  | .decimalLen a r prec => do let n ← mp_rat_decimal_len (rv a).p r prec; pure [n]
  | .toDecimal a r prec mode str limit => do let p ← mp_rat_to_decimal (rv a).p r prec mode str limit; pure (outB p)
  | .readCstring c r str => do let p ← mp_rat_read_cstring (rv c).p r str; pure (outU p)
  | .readCdecimal c r str => do let p ← mp_rat_read_cdecimal (rv c).p r str; pure (outU p)
  | .readString c r str => do let p ← mp_rat_read_string (rv c).p r str; pure [p]
  | .readDecimal c r str => do let p ← mp_rat_read_decimal (rv c).p r str; pure [p]
  | .readUstring c r str => do let p ← mp_rat_read_ustring (rv c).p r str; pure (outU p)
  | .int c => c.exec

/-- Calls of imrat.h whose outcome is determined: all but those whose results depend on the rounding of `double`s. -/
def QCall.Fixed : QCall → Prop
  | .int _ | .stringLen _ _ | .decimalLen _ _ _ => False
  | _ => True

/-- Admissible calls and their outcomes.  The rules `mulIntNum`, `mulIntDen`, `divIntNum`, `divIntDen`, `exptWrap`, `compareValueZero`, `toDecimalCarry` and
`toDecimalTrunc…`, `toDecimalBig` are for outcomes that are defined but differ from the documentation (`Props/RatQuirks.lean`, `Props/RatDecTrunc.lean`). -/
inductive QStep (κ : Nat → Option ℚ) (ι : Nat → Option Int) : QCall → List Int → (Nat → Option ℚ) → (Nat → Option Int) → Prop
  | init {c} : κ c = none → QStep κ ι (.init c) [MP_OK] (putR κ c 0) ι
  | initSize {c np dp} : κ c = none → np < 2 ^ 32 - 1 → dp < 2 ^ 32 - 1 → QStep κ ι (.initSize c np dp) [MP_OK] (putR κ c 0) ι
  | initCopy {c a p} : κ c = none → κ a = some p → QStep κ ι (.initCopy c a) [MP_OK] (putR κ c p) ι
  | clear {c w} : κ c = some w → QStep κ ι (.clear c) [] (delR κ c) ι
  | setValue {c w x y} : κ c = some w → Small x → Small y → y ≠ 0 → QStep κ ι (.setValue c x y) [MP_OK] (putR κ c (x / y)) ι
  | setValueZero {c w x} : κ c = some w → QStep κ ι (.setValue c x 0) [MP_UNDEF] κ ι
  | setUvalue {c w x y} : κ c = some w → x < 2 ^ 64 → y < 2 ^ 64 → y ≠ 0 → QStep κ ι (.setUvalue c x y) [MP_OK] (putR κ c (x / y)) ι
  | setUvalueZero {c w x} : κ c = some w → QStep κ ι (.setUvalue c x 0) [MP_UNDEF] κ ι
  | copy {a c p w} : κ a = some p → κ c = some w → QStep κ ι (.copy a c) [MP_OK] (putR κ c p) ι
  | zero {c w} : κ c = some w → QStep κ ι (.zero c) [] (putR κ c 0) ι
  | abs {a c p w} : κ a = some p → κ c = some w → QStep κ ι (.abs a c) [MP_OK] (putR κ c |p|) ι
  | neg {a c p w} : κ a = some p → κ c = some w → QStep κ ι (.neg a c) [MP_OK] (putR κ c (-p)) ι
  | recip {a c p w} : κ a = some p → κ c = some w → p ≠ 0 → QStep κ ι (.recip a c) [MP_OK] (putR κ c p⁻¹) ι
  | recipZero {a c w} : κ a = some 0 → κ c = some w → QStep κ ι (.recip a c) [MP_UNDEF] κ ι
  | add {a b c p q w} : κ a = some p → κ b = some q → κ c = some w → QStep κ ι (.add a b c) [MP_OK] (putR κ c (p + q)) ι
  | sub {a b c p q w} : κ a = some p → κ b = some q → κ c = some w → QStep κ ι (.sub a b c) [MP_OK] (putR κ c (p - q)) ι
  | mul {a b c p q w} : κ a = some p → κ b = some q → κ c = some w → QStep κ ι (.mul a b c) [MP_OK] (putR κ c (p * q)) ι
  | div {a b c p q w} : κ a = some p → κ b = some q → κ c = some w → q ≠ 0 → QStep κ ι (.div a b c) [MP_OK] (putR κ c (p / q)) ι
  | divZero {a b c p w} : κ a = some p → κ b = some 0 → κ c = some w → QStep κ ι (.div a b c) [MP_UNDEF] κ ι
  | addInt {a n c p y w} : κ a = some p → flat κ ι n = some y → κ c = some w → QStep κ ι (.addInt a n c) [MP_OK] (putR κ c (p + y)) ι
  | subInt {a n c p y w} : κ a = some p → flat κ ι n = some y → κ c = some w → QStep κ ι (.subInt a n c) [MP_OK] (putR κ c (p - y)) ι
  | mulInt {a n c p y w} : κ a = some p → flat κ ι n = some y → κ c = some w → n ≠ 3 * c → n ≠ 3 * c + 1 →
      QStep κ ι (.mulInt a n c) [MP_OK] (putR κ c (p * y)) ι
  | divInt {a n c p y w} : κ a = some p → flat κ ι n = some y → κ c = some w → n ≠ 3 * c → n ≠ 3 * c + 1 → y ≠ 0 →
      QStep κ ι (.divInt a n c) [MP_OK] (putR κ c (p / y)) ι
  | divIntZero {a n c p w} : κ a = some p → flat κ ι n = some 0 → κ c = some w → QStep κ ι (.divInt a n c) [MP_UNDEF] κ ι
  | mulIntNum {a n c p w} : κ a = some p → κ c = some w → n = 3 * c → QStep κ ι (.mulInt a n c) [MP_OK] (putR κ c (p * p.num)) ι
  | mulIntDen {a n c p w} : κ a = some p → κ c = some w → n = 3 * c + 1 → QStep κ ι (.mulInt a n c) [MP_OK] (putR κ c p.num) ι
  | divIntNum {a n c p w} : κ a = some p → κ c = some w → n = 3 * c → w ≠ 0 → QStep κ ι (.divInt a n c) [MP_OK] (putR κ c (p / p.num)) ι
  | divIntDen {a n c p w} : κ a = some p → κ c = some w → n = 3 * c + 1 → QStep κ ι (.divInt a n c) [MP_OK] (putR κ c (p / (p.den : Int))) ι
  | expt {a c p w} {k : Nat} : κ a = some p → κ c = some w → k < 2 ^ 32 → QStep κ ι (.expt a k c) [MP_OK] (putR κ c (p ^ k)) ι
  | exptWrap {a c p w} {k : Nat} : κ a = some p → κ c = some w → 2 ^ 32 ≤ k → QStep κ ι (.expt a k c) [MP_OK] (putR κ c (p ^ (k % 2 ^ 32))) ι
  | exptNeg {a c k p w} : κ a = some p → κ c = some w → k < 0 → QStep κ ι (.expt a k c) [MP_RANGE] κ ι
  | reduce {c p} : κ c = some p → QStep κ ι (.reduce c) [MP_OK] (putR κ c p) ι
  | numer {a i p w} : κ a = some p → ι i = some w → QStep κ ι (.numer a i) [MP_OK] κ (put ι i p.num)
  | denom {a i p w} : κ a = some p → ι i = some w → QStep κ ι (.denom a i) [MP_OK] κ (put ι i p.den)
  | compare {a b p q} : κ a = some p → κ b = some q → QStep κ ι (.compare a b) [cmp3Q p q] κ ι
  | compareUnsigned {a b p q} : κ a = some p → κ b = some q → QStep κ ι (.compareUnsigned a b) [cmp3Q |p| |q|] κ ι
  | compareZero {a p} : κ a = some p → QStep κ ι (.compareZero a) [cmp3Q p 0] κ ι
  | compareValue {a p x y} : κ a = some p → Small x → Small y → y ≠ 0 → QStep κ ι (.compareValue a x y) [cmp3Q p (x / y)] κ ι
  | compareValueZero {a p x} : κ a = some p → QStep κ ι (.compareValue a x 0) [2147483647] κ ι
  | isInteger {a} {k : Int} : κ a = some (k : ℚ) → QStep κ ι (.isInteger a) [1] κ ι
  | isIntegerNo {a p} : κ a = some p → (∀ k : Int, p ≠ k) → QStep κ ι (.isInteger a) [0] κ ι
  | sign {a p} : κ a = some p → QStep κ ι (.sign a) [if p < 0 then 1 else 0] κ ι
  | toString {a r str p} {limit : Int} : κ a = some p → 2 ≤ r → r ≤ 36 → (ratText r p).length + 1 ≤ limit →
      (ratText r p).length + 1 ≤ str.length →
      QStep κ ι (.toString a r str limit) (outB (MP_OK, ratText r p ++ 0 :: str.drop ((ratText r p).length + 1))) κ ι
  | toStringTruncNum {a r str p} {limit : Int} : κ a = some p → 2 ≤ r → r ≤ 36 → 2 ≤ limit → limit ≤ (numeral r p.num).length →
      limit + 1 ≤ str.length →
      QStep κ ι (.toString a r str limit) (outB (MP_TRUNC, numeralTail r p.num limit.toNat ++ 0 :: str.drop (limit.toNat + 1))) κ ι
  | toStringTruncDen {a r str p} {limit : Int} : κ a = some p → 2 ≤ r → r ≤ 36 → limit ≤ (ratText r p).length →
      (numeral r p.num).length + 3 ≤ limit → limit + 1 ≤ str.length →
      QStep κ ι (.toString a r str limit) (outB (MP_TRUNC,
        numeral r p.num ++ 47 :: numeralTail r p.den (limit.toNat - (numeral r p.num).length - 1) ++ 0 :: str.drop (limit.toNat + 1))) κ ι
  | toInts {a p} : κ a = some p → Small p.num → (p.den : Int) < 2 ^ 63 → QStep κ ι (.toInts a) [MP_OK, p.num, p.den] κ ι
  | toIntsDen {a p} : κ a = some p → Small p.num → 2 ^ 63 ≤ (p.den : Int) → QStep κ ι (.toInts a) [MP_RANGE, p.num] κ ι
  | toIntsNum {a p} : κ a = some p → p.num < -2 ^ 63 ∨ 2 ^ 63 ≤ p.num → QStep κ ι (.toInts a) [MP_RANGE] κ ι
  | stringLen {a r p} {n : Int} : κ a = some p → 2 ≤ r → r ≤ 36 → Nat.size p.num.natAbs + Nat.size p.den ≤ 2147483643 →
      (numeral r p.num).length + (if p = 0 then 0 else (numeral r p.den).length) ≤ n → n ≤ Nat.size p.num.natAbs + Nat.size p.den + 4 →
      QStep κ ι (.stringLen a r) [n] κ ι
  | decimalLen {a r prec p} {n : Int} : κ a = some p → 2 ≤ r → r ≤ 36 → Nat.size p.num.natAbs + prec ≤ 2147483642 →
      (numeral r p.num).length + (if prec = 0 then 1 else (prec : Int) + 2) ≤ n → n ≤ Nat.size p.num.natAbs + prec + 5 →
      QStep κ ι (.decimalLen a r prec) [n] κ ι
  | toDecimal {a r prec mode str p t} {limit : Int} : κ a = some p → 2 ≤ r → r ≤ 36 → mode ≤ 3 → prec < 2 ^ 31 - 1 →
      ¬ Carries r prec (roundQ 0 (|p| * r ^ prec)) (roundQ mode (|p| * r ^ prec)) →
      t = decText r prec (p < 0) (roundQ mode (|p| * r ^ prec)) → t.length + (if prec = 0 then 1 else 2) ≤ limit → t.length + 1 ≤ str.length →
      QStep κ ι (.toDecimal a r prec mode str limit) (outB (MP_OK, t ++ 0 :: str.drop (t.length + 1))) κ ι
  | toDecimalCarry {a r prec mode str p t} {limit : Int} : κ a = some p → 2 ≤ r → r ≤ 36 → mode ≤ 3 → prec < 2 ^ 31 - 1 →
      Carries r prec (roundQ 0 (|p| * r ^ prec)) (roundQ mode (|p| * r ^ prec)) →
      t = carryText r prec (p < 0) (roundQ 0 (|p| * r ^ prec)) → t.length + 2 ≤ limit → t.length + 1 ≤ str.length →
      QStep κ ι (.toDecimal a r prec mode str limit) (outB (MP_OK, t ++ 0 :: str.drop (t.length + 1))) κ ι
  | toDecimalTruncInt {a r prec mode str p} {limit : Int} : κ a = some p → 2 ≤ r → r ≤ 36 → mode ≤ 3 → prec < 2 ^ 31 - 1 →
      (decSign r prec mode p).length + 2 ≤ limit → limit ≤ (decHead r prec mode p).length → limit + 1 ≤ str.length →
      QStep κ ι (.toDecimal a r prec mode str limit) (outB (MP_TRUNC, decSign r prec mode p ++
        numeralTail r (decInt prec mode p) (limit.toNat - (decSign r prec mode p).length) ++ 0 :: str.drop (limit.toNat + 1))) κ ι
  | toDecimalBig {a r prec mode str p} {limit : Int} : κ a = some p → 2 ≤ r → r ≤ 36 → mode ≤ 3 → 2 ^ 31 - 1 ≤ prec → prec < 2 ^ 32 →
      (bigSign r prec mode p).length + 2 ≤ limit → limit ≤ (bigSign r prec mode p ++ numeralN r ⌊|p|⌋₊).length → limit + 1 ≤ str.length →
      QStep κ ι (.toDecimal a r prec mode str limit) (outB (MP_TRUNC, bigSign r prec mode p ++
        numeralTail r ⌊|p|⌋₊ (limit.toNat - (bigSign r prec mode p).length) ++ 0 :: str.drop (limit.toNat + 1))) κ ι
  | toDecimalTruncPoint {a r prec mode str p} {limit : Int} : κ a = some p → 2 ≤ r → r ≤ 36 → mode ≤ 3 → prec < 2 ^ 31 - 1 → 0 < prec →
      (decHead r prec mode p).length < limit → limit < (decHead r prec mode p).length + prec + 2 →
      (decHead r prec mode p).length + 1 ≤ str.length →
      QStep κ ι (.toDecimal a r prec mode str limit)
        (outB (MP_TRUNC, decHead r prec mode p ++ 46 :: str.drop ((decHead r prec mode p).length + 1))) κ ι
  | toDecimalTruncLast {a r prec mode str p} {limit : Int} : κ a = some p → 2 ≤ r → r ≤ 36 → mode ≤ 3 → prec < 2 ^ 31 - 1 → 0 < prec →
      limit = (decWritten r prec mode p).length + 1 → DecCarries r prec mode p ∨ ¬ DecLast r prec p → limit ≤ str.length →
      QStep κ ι (.toDecimal a r prec mode str limit)
        (outB (MP_TRUNC, decWritten r prec mode p ++ 0 :: str.drop ((decWritten r prec mode p).length + 1))) κ ι
  | toDecimalTruncCarry {a r prec mode str p} {limit : Int} : κ a = some p → 2 ≤ r → r ≤ 36 → mode ≤ 3 → prec < 2 ^ 31 - 1 → 0 < prec →
      limit = (decWritten r prec mode p).length → DecCarries r prec mode p → ¬ DecLast r prec p → limit ≤ str.length →
      QStep κ ι (.toDecimal a r prec mode str limit)
        (outB (MP_TRUNC, decHead r prec mode p ++ 46 :: (List.replicate prec 48 ++ 0 :: str.drop limit.toNat))) κ ι
  | readString {c r u str} {q : ℚ} : κ c = some u → 2 ≤ r → r ≤ 36 → 0 ∈ str.take 800000001 →
      (readFraction r str).num = q.num → (readFraction r str).den = q.den →
      QStep κ ι (.readString c r str) [(readFraction r str).res] (putR κ c q) ι
  | readDecimal {c r u str} {q : ℚ} : κ c = some u → 2 ≤ r → r ≤ 36 → 0 ∈ str.take 800000001 →
      (readDecimal r str).num = q.num → (readDecimal r str).den = q.den →
      QStep κ ι (.readDecimal c r str) [(readDecimal r str).res] (putR κ c q) ι
  | readUstring {c r u str} {q : ℚ} : κ c = some u → r = 0 ∨ 2 ≤ r ∧ r ≤ 36 → 0 ∈ str.take 800000001 →
      (readText r str).num = q.num → (readText r str).den = q.den →
      QStep κ ι (.readUstring c r str) (outU ((readText r str).res, (readText r str).rest.map fun t => str.length - t.length)) (putR κ c q) ι
  | readCstring {c r u w sg ds w2 w3 sg3 ds3 rest vs vs3} : κ c = some u → 2 ≤ r → r ≤ 36 →
      (∀ x ∈ w, IsSpace x) → sg = [] ∨ sg = [43] ∨ sg = [45] → List.Forall₂ (IsDigit r) ds vs → (sg = [] → ds = [] → w2 = []) →
      (∀ x ∈ w2, IsSpace x) → (∀ x ∈ w3, IsSpace x) → sg3 = [] ∨ sg3 = [43] ∨ sg3 = [45] → List.Forall₂ (IsDigit r) ds3 vs3 →
      0 ∈ (w ++ sg ++ ds ++ (w2 ++ 47 :: (w3 ++ sg3 ++ ds3 ++ 0 :: rest))).take 800000001 → Nat.ofDigits r vs3.reverse ≠ 0 →
      QStep κ ι (.readCstring c r (w ++ sg ++ ds ++ (w2 ++ 47 :: (w3 ++ sg3 ++ ds3 ++ 0 :: rest))))
        (outU (MP_OK, some (w ++ sg ++ ds ++ w2 ++ [47] ++ w3 ++ sg3 ++ ds3).length))
        (putR κ c (((if sg = [45] then -1 else 1) * (Nat.ofDigits r vs.reverse : Nat)) /
          ((if sg3 = [45] then -1 else 1) * (Nat.ofDigits r vs3.reverse : Nat)))) ι
  | readCstringInt {c r u w sg ds w2 rest vs ch} : κ c = some u → 2 ≤ r → r ≤ 36 →
      (∀ x ∈ w, IsSpace x) → sg = [] ∨ sg = [43] ∨ sg = [45] → List.Forall₂ (IsDigit r) ds vs → (sg = [] → ds = [] → w2 = [] ∧ ch ≠ 43 ∧ ch ≠ 45) →
      (∀ x ∈ w2, IsSpace x) → ¬ IsSpace ch → (w2 = [] → ∀ d, ¬ IsDigit r ch d) → ch ≠ 47 →
      0 ∈ (w ++ sg ++ ds ++ (w2 ++ ch :: rest)).take 800000001 →
      QStep κ ι (.readCstring c r (w ++ sg ++ ds ++ (w2 ++ ch :: rest)))
        (outU (if w2 = [] ∧ ch = 0 then MP_OK else MP_TRUNC, some (w ++ sg ++ ds).length))
        (putR κ c ((if sg = [45] then -1 else 1) * (Nat.ofDigits r vs.reverse : Nat))) ι
  | readCdecimal {c r u w sg ds fs rest vs us ch} : κ c = some u → 2 ≤ r → r ≤ 36 →
      (∀ x ∈ w, IsSpace x) → sg = [] ∨ sg = [43] ∨ sg = [45] → List.Forall₂ (IsDigit r) ds vs →
      List.Forall₂ (IsDigit r) fs us → (∀ d, ¬ IsDigit r ch d) → (fs = [] → ¬ IsSpace ch ∧ ch ≠ 43 ∧ ch ≠ 45) →
      0 ∈ (w ++ sg ++ ds ++ 46 :: (fs ++ ch :: rest)).take 800000001 →
      QStep κ ι (.readCdecimal c r (w ++ sg ++ ds ++ 46 :: (fs ++ ch :: rest)))
        (outU (if ch = 0 then MP_OK else MP_TRUNC, some (w ++ sg ++ ds ++ [46] ++ fs).length))
        (putR κ c ((if sg = [45] then -1 else 1) *
          ((Nat.ofDigits r vs.reverse : Nat) + (Nat.ofDigits r us.reverse : Nat) / (r : ℚ) ^ fs.length))) ι
  | readCdecimalInt {c r u w sg ds rest vs ch} : κ c = some u → 2 ≤ r → r ≤ 36 →
      (∀ x ∈ w, IsSpace x) → sg = [] ∨ sg = [43] ∨ sg = [45] → List.Forall₂ (IsDigit r) ds vs →
      (∀ d, ¬ IsDigit r ch d) → (sg = [] → ds = [] → ¬ IsSpace ch ∧ ch ≠ 43 ∧ ch ≠ 45) → ch ≠ 46 →
      0 ∈ (w ++ sg ++ ds ++ ch :: rest).take 800000001 →
      QStep κ ι (.readCdecimal c r (w ++ sg ++ ds ++ ch :: rest))
        (outU (if ch = 0 then MP_OK else MP_TRUNC, some (w ++ sg ++ ds).length))
        (putR κ c ((if sg = [45] then -1 else 1) * (Nat.ofDigits r vs.reverse : Nat))) ι
  | readCdecimalPoint {c r u w sg ds rest vs ch} : κ c = some u → 2 ≤ r → r ≤ 36 →
      (∀ x ∈ w, IsSpace x) → sg = [] ∨ sg = [43] ∨ sg = [45] → List.Forall₂ (IsDigit r) ds vs →
      IsSpace ch ∨ ch = 43 ∨ ch = 45 → 0 ∈ (w ++ sg ++ ds ++ 46 :: ch :: rest).take 800000001 →
      QStep κ ι (.readCdecimal c r (w ++ sg ++ ds ++ 46 :: ch :: rest)) (outU (MP_TRUNC, none))
        (putR κ c ((if sg = [45] then -1 else 1) * (Nat.ofDigits r vs.reverse : Nat))) ι
  | int {c out ρ'} : Step (flat κ ι) c out ρ' → (∀ n ∈ c.outs, n % 3 = 2) → QStep κ ι (.int c) out κ fun k => ρ' (3 * k + 2)

/-- A program: what is called next may depend on what was returned. -/
inductive QProg where
  | done
  | call (c : QCall) (k : List Int → QProg)

/-- Perform a program; the result lists what was returned by the calls. -/
def QProg.exec : QProg → M (List (List Int))
  | .done => pure []
  | .call c k => do
    let out ← c.exec
    let rest ← (k out).exec
    pure (out :: rest)

/-- The program makes admissible calls only, whatever its calls return. -/
inductive QAdmissible : (Nat → Option ℚ) → (Nat → Option Int) → QProg → Prop
  | done {κ ι} : QAdmissible κ ι .done
  | call {κ ι c k} : (∃ out κ' ι', QStep κ ι c out κ' ι') → (∀ out κ' ι', QStep κ ι c out κ' ι' → QAdmissible κ' ι' (k out)) →
      QAdmissible κ ι (.call c k)

/-- `QLeads κ ι p outs κ' ι'`: started with these values, the program may return `outs` and leave these values. -/
inductive QLeads : (Nat → Option ℚ) → (Nat → Option Int) → QProg → List (List Int) → (Nat → Option ℚ) → (Nat → Option Int) → Prop
  | done {κ ι} : QLeads κ ι .done [] κ ι
  | call {κ ι c k out κ' ι' outs κ'' ι''} : QStep κ ι c out κ' ι' → QLeads κ' ι' (k out) outs κ'' ι'' →
      QLeads κ ι (.call c k) (out :: outs) κ'' ι''

end Imath
