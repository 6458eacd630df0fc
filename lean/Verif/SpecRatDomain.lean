import Verif.SpecRatHistory
import Verif.SpecDomain

/-!
# Which rational calls are admissible

As `SpecDomain.lean`, for `QCall` and `QStep` (SpecRatHistory).
-/

namespace Imath

/-- The rational variable is initialised. -/
def InQ (κ : Nat → Option ℚ) (a : Nat) : Prop := ∃ p, κ a = some p

/-- The arguments have the types the prototypes in imrat.h give them. -/
def QCall.Typed : QCall → Prop
  | .initSize _ np dp => np < 2 ^ 32 ∧ dp < 2 ^ 32
  | .setValue _ x y | .compareValue _ x y => (-2 ^ 63 ≤ x ∧ x < 2 ^ 63) ∧ -2 ^ 63 ≤ y ∧ y < 2 ^ 63
  | .setUvalue _ x y => x < 2 ^ 64 ∧ y < 2 ^ 64
  | .expt _ k _ => -2 ^ 63 ≤ k ∧ k < 2 ^ 63
  | .stringLen _ r => r < 2 ^ 32
  | .decimalLen _ r prec => r < 2 ^ 32 ∧ prec < 2 ^ 32
  | .toString _ r str limit => r < 2 ^ 32 ∧ (∀ b ∈ str, b < 256) ∧ -2 ^ 31 ≤ limit ∧ limit < 2 ^ 31
  | .toDecimal _ r prec mode str limit =>
    r < 2 ^ 32 ∧ prec < 2 ^ 32 ∧ mode < 2 ^ 32 ∧ (∀ b ∈ str, b < 256) ∧ -2 ^ 31 ≤ limit ∧ limit < 2 ^ 31
  | .readCstring _ r str | .readCdecimal _ r str | .readString _ r str | .readDecimal _ r str | .readUstring _ r str => r < 2 ^ 32 ∧ ∀ b ∈ str, b < 256
  | .int c => c.Typed
  | _ => True

/-- The variables among the arguments are initialised; those that are to be initialised are not. -/
def QCall.Vars (κ : Nat → Option ℚ) (ι : Nat → Option Int) : QCall → Prop
  | .init c | .initSize c _ _ => κ c = none
  | .initCopy c a => κ c = none ∧ InQ κ a
  | .clear c | .setValue c _ _ | .setUvalue c _ _ | .zero c | .reduce c | .compareZero c | .compareValue c _ _ | .isInteger c | .sign c | .toInts c | .stringLen c _ | .decimalLen c _ _
  | .toString c _ _ _ | .toDecimal c _ _ _ _ _ | .readCstring c _ _ | .readCdecimal c _ _
  | .readString c _ _ | .readDecimal c _ _ | .readUstring c _ _ => InQ κ c
  | .copy a c | .abs a c | .neg a c | .recip a c | .expt a _ c | .compare a c | .compareUnsigned a c => InQ κ a ∧ InQ κ c
  | .add a b c | .sub a b c | .mul a b c | .div a b c => InQ κ a ∧ InQ κ b ∧ InQ κ c
  | .addInt a n c | .subInt a n c | .mulInt a n c | .divInt a n c => InQ κ a ∧ In (flat κ ι) n ∧ InQ κ c
  | .numer a i | .denom a i => InQ κ a ∧ In ι i
  | .int c => c.Vars (flat κ ι)

/-- The text, or what is left of it, and the terminator can be stored.  If there is room for the numerator but for less than three
further characters, the call is not ready. -/
def RatFits (r : Nat) (p : ℚ) (str : Bytes) (limit : Int) : Prop :=
  ((ratText r p).length + 1 ≤ limit ∧ (ratText r p).length + 1 ≤ str.length) ∨
    (limit ≤ (ratText r p).length ∧ limit + 1 ≤ str.length ∧ (limit ≤ (numeral r p.num).length ∨ (numeral r p.num).length + 3 ≤ limit))

/-- The decimal text, or what is left of it, can be stored.  The cases are: the text is complete; the integer part is cut off; the
text ends with the point; `MP_TRUNC` is returned though the text is complete; the digits after the point are lost. -/
def DecFits (r prec mode : Nat) (p : ℚ) (str : Bytes) (limit : Int) : Prop :=
  ((decWritten r prec mode p).length + (if prec = 0 then 1 else 2) ≤ limit ∧ (decWritten r prec mode p).length + 1 ≤ str.length) ∨
  ((decSign r prec mode p).length + 2 ≤ limit ∧ limit ≤ (decHead r prec mode p).length ∧ limit + 1 ≤ str.length) ∨
  (0 < prec ∧ (decHead r prec mode p).length < limit ∧ limit < (decHead r prec mode p).length + prec + 2 ∧
    (decHead r prec mode p).length + 1 ≤ str.length) ∨
  (0 < prec ∧ limit = (decWritten r prec mode p).length + 1 ∧ (DecCarries r prec mode p ∨ ¬ DecLast r prec p) ∧ limit ≤ str.length) ∨
  (0 < prec ∧ limit = (decWritten r prec mode p).length ∧ DecCarries r prec mode p ∧ ¬ DecLast r prec p ∧ limit ≤ str.length)

/-- With a precision of 2^31 - 1 or more, the integer part is cut off. -/
def BigFits (r prec mode : Nat) (p : ℚ) (str : Bytes) (limit : Int) : Prop :=
  (bigSign r prec mode p).length + 2 ≤ limit ∧ limit ≤ (bigSign r prec mode p ++ numeralN r ⌊|p|⌋₊).length ∧ limit + 1 ≤ str.length

/-- The text of a fraction whose denominator is zero or is followed by other characters: white space `w`, a sign `sg`, digits `ds`,
white space `w2`, a slash, white space `w3`, a sign `sg3`, digits `ds3`, and the character `ch`. -/
structure RawText (r : Nat) (w sg ds w2 w3 sg3 ds3 : Bytes) (ch : Nat) (vs vs3 : List Nat) : Prop where
  hw : ∀ x ∈ w, IsSpace x
  hsg : sg = [] ∨ sg = [43] ∨ sg = [45]
  hds : List.Forall₂ (IsDigit r) ds vs
  hne : sg = [] → ds = [] → w2 = []
  hw2 : ∀ x ∈ w2, IsSpace x
  hw3 : ∀ x ∈ w3, IsSpace x
  hsg3 : sg3 = [] ∨ sg3 = [43] ∨ sg3 = [45]
  hds3 : List.Forall₂ (IsDigit r) ds3 vs3
  hch : ∀ d, ¬ IsDigit r ch d
  hhead : sg3 = [] → ds3 = [] → ¬ IsSpace ch ∧ ch ≠ 43 ∧ ch ≠ 45
  hz : ch ≠ 0 ∨ Nat.ofDigits r vs3.reverse = 0

/-- What is stored is a fraction in lowest terms with a positive denominator. -/
def Reading.Lowest (x : Reading) : Prop := ∃ q : ℚ, x.num = q.num ∧ x.den = q.den

/-- The further conditions under which a call is admissible. -/
def QCall.Ready (κ : Nat → Option ℚ) (ι : Nat → Option Int) : QCall → Prop
  | .initSize _ np dp => np ≠ 2 ^ 32 - 1 ∧ dp ≠ 2 ^ 32 - 1
  | .setValue _ x y | .compareValue _ x y => y = 0 ∨ x ≠ -2 ^ 63 ∧ y ≠ -2 ^ 63
  | .toInts a => ∀ p, κ a = some p → p.num ≠ -2 ^ 63
  | .stringLen a r => (2 ≤ r ∧ r ≤ 36) ∧ ∀ p, κ a = some p → Nat.size p.num.natAbs + Nat.size p.den ≤ 2147483643
  | .decimalLen a r prec => (2 ≤ r ∧ r ≤ 36) ∧ ∀ p, κ a = some p → Nat.size p.num.natAbs + prec ≤ 2147483642
  | .toString a r str limit => (2 ≤ r ∧ r ≤ 36) ∧ 2 ≤ limit ∧ ∀ p, κ a = some p → RatFits r p str limit
  | .toDecimal a r prec mode str limit => (2 ≤ r ∧ r ≤ 36) ∧ mode ≤ 3 ∧
      ∀ p, κ a = some p → prec < 2 ^ 31 - 1 ∧ DecFits r prec mode p str limit ∨ 2 ^ 31 - 1 ≤ prec ∧ BigFits r prec mode p str limit
  | .readCstring _ r str => (2 ≤ r ∧ r ≤ 36) ∧ 0 ∈ str.take 800000001 ∧ ∀ w sg ds w2 w3 sg3 ds3 ch rest vs vs3,
      str = w ++ sg ++ ds ++ (w2 ++ 47 :: (w3 ++ sg3 ++ ds3 ++ ch :: rest)) → ¬ RawText r w sg ds w2 w3 sg3 ds3 ch vs vs3
  | .readCdecimal _ r str | .readDecimal _ r str => (2 ≤ r ∧ r ≤ 36) ∧ 0 ∈ str.take 800000001
  | .readString _ r str => (2 ≤ r ∧ r ≤ 36) ∧ 0 ∈ str.take 800000001 ∧ (readFraction r str).Lowest
  | .readUstring _ r str => (r = 0 ∨ 2 ≤ r ∧ r ≤ 36) ∧ 0 ∈ str.take 800000001 ∧ (readText r str).Lowest
  | .int c => c.Ready (flat κ ι) ∧ ∀ n ∈ c.outs, n % 3 = 2
  | _ => True

/-- Calls that end in undefined behaviour or a failing assertion, whatever the state. -/
inductive QBreaks (κ : Nat → Option ℚ) (ι : Nat → Option Int) : QCall → Fault → Prop
  | initSize {c np dp} : np = 2 ^ 32 - 1 ∨ dp = 2 ^ 32 - 1 → QBreaks κ ι (.initSize c np dp) .ub
  | setValue {c x y} : y ≠ 0 → x = -2 ^ 63 ∨ y = -2 ^ 63 → QBreaks κ ι (.setValue c x y) .ub
  | compareValue {c x y} : y ≠ 0 → x = -2 ^ 63 ∨ y = -2 ^ 63 → QBreaks κ ι (.compareValue c x y) .ub
  | toInts {a p} : κ a = some p → p.num = -2 ^ 63 → QBreaks κ ι (.toInts a) .ub
  | stringLen {a r} : r < 2 ∨ 36 < r → QBreaks κ ι (.stringLen a r) .assert
  | decimalLen {a r prec} : r < 2 ∨ 36 < r → QBreaks κ ι (.decimalLen a r prec) .assert
  | toStringLimit {a r str limit} : limit < 2 → QBreaks κ ι (.toString a r str limit) .assert
  | toStringRadix {a r str limit} : r < 2 ∨ 36 < r → QBreaks κ ι (.toString a r str limit) .assert
  | toStringMid {a r str p} {limit : Int} : κ a = some p → p ≠ 0 → 2 ≤ r ∧ r ≤ 36 → 2 ≤ limit → (numeral r p.num).length < limit →
      limit ≤ (numeral r p.num).length + 2 → (numeral r p.num).length < str.length → QBreaks κ ι (.toString a r str limit) .assert
  | toStringShort {a r str p} {limit : Int} : κ a = some p → 2 ≤ r ∧ r ≤ 36 → 2 ≤ limit →
      p = 0 ∨ limit ≤ (numeral r p.num).length ∨ (numeral r p.num).length + 3 ≤ limit ∨ str.length ≤ (numeral r p.num).length →
      (str.length : Int) ≤ limit → str.length ≤ (ratText r p).length → QBreaks κ ι (.toString a r str limit) .ub
  | toDecimalRadix {a r prec mode str limit} : r < 2 ∨ 36 < r → mode ≤ 3 → prec < 2 ^ 31 → str ≠ [] →
      QBreaks κ ι (.toDecimal a r prec mode str limit) .assert
  | toDecimalSign {a r prec mode limit p} : κ a = some p → r < 2 ∨ 36 < r → mode ≤ 3 → prec < 2 ^ 31 → SignShown r prec mode p →
      QBreaks κ ι (.toDecimal a r prec mode [] limit) .ub
  | toDecimalEmpty {a r prec mode limit p} : κ a = some p → r < 2 ∨ 36 < r → mode ≤ 3 → prec < 2 ^ 31 → ¬ SignShown r prec mode p →
      QBreaks κ ι (.toDecimal a r prec mode [] limit) .assert
  | toDecimalBigSign {a r prec mode str p} {limit : Int} : κ a = some p → mode ≤ 3 → 2 ^ 31 - 1 ≤ prec →
      str.length < (bigSign r prec mode p).length → QBreaks κ ι (.toDecimal a r prec mode str limit) .ub
  | toDecimalBigLimit {a r prec mode str p} {limit : Int} : κ a = some p → mode ≤ 3 → 2 ^ 31 - 1 ≤ prec →
      (bigSign r prec mode p).length ≤ str.length → (r < 2 ∨ 36 < r) ∨ limit < (bigSign r prec mode p).length + 2 →
      QBreaks κ ι (.toDecimal a r prec mode str limit) .assert
  | toDecimalBig {a r prec mode str p} {limit : Int} : κ a = some p → mode ≤ 3 → 2 ^ 31 - 1 ≤ prec → 2 ≤ r ∧ r ≤ 36 →
      (bigSign r prec mode p).length + 2 ≤ limit →
      (bigSign r prec mode p ++ numeralN r ⌊|p|⌋₊).length < limit ∨ (str.length : Int) ≤ limit →
      QBreaks κ ι (.toDecimal a r prec mode str limit) .ub
  | toDecimalLimit {a r prec mode str p} {limit : Int} : κ a = some p → 2 ≤ r ∧ r ≤ 36 → mode ≤ 3 → prec < 2 ^ 31 - 1 →
      limit < (decSign r prec mode p).length + 2 → (decSign r prec mode p).length ≤ str.length →
      QBreaks κ ι (.toDecimal a r prec mode str limit) .assert
  | toDecimalLast {a r prec mode str p} {limit : Int} : κ a = some p → 2 ≤ r ∧ r ≤ 36 → mode ≤ 3 → prec < 2 ^ 31 - 1 → 0 < prec →
      limit = (decHead r prec mode p).length + prec + 2 → DecLast r prec p → (decHead r prec mode p).length + prec ≤ str.length →
      QBreaks κ ι (.toDecimal a r prec mode str limit) .assert
  | toDecimalShortInt {a r prec mode str p} {limit : Int} : κ a = some p → 2 ≤ r ∧ r ≤ 36 → mode ≤ 3 → prec < 2 ^ 31 - 1 →
      str.length < (decSign r prec mode p).length ∨ (decSign r prec mode p).length + 2 ≤ limit ∧ (str.length : Int) ≤ limit ∧
        str.length ≤ (decHead r prec mode p).length → QBreaks κ ι (.toDecimal a r prec mode str limit) .ub
  | toDecimalShortFrac {a r prec mode str p} {limit : Int} : κ a = some p → 2 ≤ r ∧ r ≤ 36 → mode ≤ 3 → prec < 2 ^ 31 - 1 → 0 < prec →
      (decHead r prec mode p).length + prec + 2 ≤ limit → (decHead r prec mode p).length < str.length →
      (limit = (decHead r prec mode p).length + prec + 2 → DecLast r prec p → str.length < (decHead r prec mode p).length + prec) →
      str.length ≤ (decWritten r prec mode p).length → str.length < limit → QBreaks κ ι (.toDecimal a r prec mode str limit) .ub
  | readCstring {c r str} : r < 2 ∨ 36 < r → QBreaks κ ι (.readCstring c r str) .assert
  | readCstringEnd {c r str} : 2 ≤ r ∧ r ≤ 36 → 0 ∉ str → QBreaks κ ι (.readCstring c r str) .ub
  | readCdecimal {c r str} : r < 2 ∨ 36 < r → (∃ x ∈ str, ¬ IsSpace x) → QBreaks κ ι (.readCdecimal c r str) .assert
  | readCdecimalSpace {c r str} : r < 2 ∨ 36 < r → (∀ x ∈ str, IsSpace x) → QBreaks κ ι (.readCdecimal c r str) .ub
  | readCdecimalEnd {c r str} : 2 ≤ r ∧ r ≤ 36 → 0 ∉ str → QBreaks κ ι (.readCdecimal c r str) .ub
  | readString {c r str} : r < 2 ∨ 36 < r → QBreaks κ ι (.readString c r str) .assert
  | readStringEnd {c r str} : 2 ≤ r ∧ r ≤ 36 → 0 ∉ str → QBreaks κ ι (.readString c r str) .ub
  | readDecimal {c r str} : r < 2 ∨ 36 < r → (∃ x ∈ str, ¬ IsSpace x) → QBreaks κ ι (.readDecimal c r str) .assert
  | readDecimalSpace {c r str} : r < 2 ∨ 36 < r → (∀ x ∈ str, IsSpace x) → QBreaks κ ι (.readDecimal c r str) .ub
  | readDecimalEnd {c r str} : 2 ≤ r ∧ r ≤ 36 → 0 ∉ str → QBreaks κ ι (.readDecimal c r str) .ub
  | readUstring {c r str} : r = 1 ∨ 36 < r → QBreaks κ ι (.readUstring c r str) .assert
  | readUstringEnd {c r str} : r = 0 ∨ 2 ≤ r ∧ r ≤ 36 → 0 ∉ str → QBreaks κ ι (.readUstring c r str) .ub
  | int {c e} : Breaks (flat κ ι) c e → QBreaks κ ι (.int c) e

/-- Calls that store a numerator `x` and a denominator `y` in the variable `c` that are not in lowest terms, or have a denominator
that is not positive. -/
inductive Raw : QCall → List Int → Nat → Int → Int → Prop
  | readCstring {c r w sg ds w2 w3 sg3 ds3 ch rest vs vs3} : 2 ≤ r ∧ r ≤ 36 → RawText r w sg ds w2 w3 sg3 ds3 ch vs vs3 →
      0 ∈ (w ++ sg ++ ds ++ (w2 ++ 47 :: (w3 ++ sg3 ++ ds3 ++ ch :: rest))).take 800000001 →
      Raw (.readCstring c r (w ++ sg ++ ds ++ (w2 ++ 47 :: (w3 ++ sg3 ++ ds3 ++ ch :: rest))))
        (outU (if ch = 0 then MP_UNDEF else MP_TRUNC, some (w ++ sg ++ ds ++ w2 ++ [47] ++ w3 ++ sg3 ++ ds3).length)) c
        ((if sg = [45] then -1 else 1) * (Nat.ofDigits r vs.reverse : Nat)) ((if sg3 = [45] then -1 else 1) * (Nat.ofDigits r vs3.reverse : Nat))
  | readString {c r str} : 2 ≤ r ∧ r ≤ 36 → 0 ∈ str.take 800000001 → ¬ (readFraction r str).Lowest →
      Raw (.readString c r str) [(readFraction r str).res] c (readFraction r str).num (readFraction r str).den
  | readUstring {c r str} : r = 0 ∨ 2 ≤ r ∧ r ≤ 36 → 0 ∈ str.take 800000001 → ¬ (readText r str).Lowest →
      Raw (.readUstring c r str) (outU ((readText r str).res, (readText r str).rest.map fun t => str.length - t.length)) c
        (readText r str).num (readText r str).den

/-- Calls that return without freeing what they have allocated (imrat.c:580-581), and what they return. -/
inductive Leaks : QCall → List Int → Prop
  | toDecimal {a r prec mode str limit} : 3 < mode → Leaks (.toDecimal a r prec mode str limit) (outB (MP_BADARG, str))

/-- Calls on integers that are right (C77), though they may write to a part of a rational, or that use up the memory. -/
inductive OnInt (κ : Nat → Option ℚ) (ι : Nat → Option Int) : QCall → Prop
  | ready {c : Call} : c.Ready (flat κ ι) → OnInt κ ι (.int c)
  | exhausts {c : Call} : Exhausts (flat κ ι) c → OnInt κ ι (.int c)

/-- What is left: the lengths of texts of more than two billion bits or places; the
terminator comes after more than 800 million characters; what is left of the calls on integers. -/
def QCall.Open (κ : Nat → Option ℚ) (ι : Nat → Option Int) : QCall → Prop
  | .stringLen a _ => ∃ p, κ a = some p ∧ 2147483643 < Nat.size p.num.natAbs + Nat.size p.den
  | .decimalLen a _ prec => ∃ p, κ a = some p ∧ 2147483642 < Nat.size p.num.natAbs + prec
  | .readCstring _ _ str | .readString _ _ str | .readUstring _ _ str | .readCdecimal _ _ str | .readDecimal _ _ str => 0 ∈ str ∧ 0 ∉ str.take 800000001
  | .int c => c.Open (flat κ ι)
  | _ => False

/-- A program all of whose calls are ready, whatever the calls before have returned. -/
inductive ReadyQProg : (Nat → Option ℚ) → (Nat → Option Int) → QProg → Prop
  | done {κ ι} : ReadyQProg κ ι .done
  | call {κ ι} {c : QCall} {k : List Int → QProg} : c.Typed → c.Vars κ ι → c.Ready κ ι →
      (∀ out κ' ι', QStep κ ι c out κ' ι' → ReadyQProg κ' ι' (k out)) → ReadyQProg κ ι (.call c k)

end Imath
