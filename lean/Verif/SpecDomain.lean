import Verif.SpecHistory

/-!
# Which calls are admissible

`Step` (SpecHistory) has a rule for each way a call can end.  Here it is said, call by call, which calls
have a rule (`Call.Ready`), which end in undefined behaviour or a failing assertion (`Breaks`), and which
are left (`Call.Open`).
-/

namespace Imath

/-- The variable is initialised. -/
def In (ρ : Nat → Option Int) (a : Nat) : Prop := ∃ x, ρ a = some x

/-- The remainder of the division of `y` by `2 ^ p` is no negative zero. -/
def NoNegZero (y : Int) (p : Nat) : Prop := y < 0 → ¬ 2 ^ p ∣ y

/-- Exactly one of the two is zero. -/
def OneZero (x y : Int) : Prop := x = 0 ∧ y ≠ 0 ∨ x ≠ 0 ∧ y = 0

/-- The arguments have the types the prototypes in imath.h give them: `mp_small` (64 bits, signed),
`mp_usmall` (64 bits), `mp_size` (32 bits), `int` (32 bits, signed), `unsigned char`.  Numbers of type
`mp_small` that must not be negative are natural numbers in `Call`. -/
def Call.Typed : Call → Prop
  | .initSize _ p | .defaultPrecision p | .multiplyThreshold p => p < 2 ^ 32
  | .initValue _ v | .setValue _ v | .addValue _ v _ | .subValue _ v _ | .mulValue _ v _ | .divValue _ v _ | .divisible _ v
  | .exptmodE _ v _ _ | .exptmodB v _ _ _ | .compareValue _ v => -2 ^ 63 ≤ v ∧ v < 2 ^ 63
  | .exptValue v k _ => (-2 ^ 63 ≤ v ∧ v < 2 ^ 63) ∧ -2 ^ 63 ≤ k ∧ k < 2 ^ 63
  | .expt _ k _ => -2 ^ 63 ≤ k ∧ k < 2 ^ 63
  | .initUvalue _ v | .setUvalue _ v | .compareUvalue _ v => v < 2 ^ 64
  | .mulPow2 _ p _ | .divPow2 _ p _ _ | .root _ p _ => p < 2 ^ 63
  | .toString _ r str limit => r < 2 ^ 32 ∧ (∀ b ∈ str, b < 256) ∧ -2 ^ 31 ≤ limit ∧ limit < 2 ^ 31
  | .stringLen _ r => r < 2 ^ 32
  | .readCstring _ r str => r < 2 ^ 32 ∧ ∀ b ∈ str, b < 256
  | .toBinary _ buf n | .readBinary _ buf n | .toUnsigned _ buf n | .readUnsigned _ buf n =>
    (∀ b ∈ buf, b < 256) ∧ -2 ^ 31 ≤ n ∧ n < 2 ^ 31
  | _ => True

/-- The variables among the arguments are initialised; those that are to be initialised are not. -/
def Call.Vars (ρ : Nat → Option Int) : Call → Prop
  | .init c | .initSize c _ | .initValue c _ | .initUvalue c _ => ρ c = none
  | .initCopy c a => ρ c = none ∧ In ρ a
  | .clear c | .zero c | .setValue c _ | .setUvalue c _ | .exptValue _ _ c | .readCstring c _ _ | .readBinary c _ _
  | .readUnsigned c _ _ => In ρ c
  | .copy a c | .neg a c | .abs a c | .swap a c | .addValue a _ c | .subValue a _ c | .mulValue a _ c | .mulPow2 a _ c
  | .sqr a c | .expt a _ c | .reduxConst a c | .root a _ c | .compare a c | .compareUnsigned a c => In ρ a ∧ In ρ c
  | .add a b c | .sub a b c | .mul a b c | .mod a b c | .exptFull a b c | .gcd a b c | .lcm a b c | .invmod a b c
  | .exptmodE a _ b c | .exptmodB _ a b c => In ρ a ∧ In ρ b ∧ In ρ c
  | .div a b q r => In ρ a ∧ In ρ b ∧ HasOpt ρ q ∧ HasOpt ρ r
  | .divValue a _ q => In ρ a ∧ HasOpt ρ q
  | .divPow2 a _ q r => In ρ a ∧ HasOpt ρ q ∧ HasOpt ρ r
  | .exptmod a b d c => In ρ a ∧ In ρ b ∧ In ρ d ∧ In ρ c
  | .exptmodKnown a b d u c => In ρ a ∧ In ρ b ∧ In ρ d ∧ In ρ u ∧ In ρ c
  | .egcd a b c x y => In ρ a ∧ In ρ b ∧ In ρ c ∧ HasOpt ρ x ∧ HasOpt ρ y
  | .divisible a _ | .compareZero a | .compareValue a _ | .compareUvalue a _ | .isPow2 a | .countBits a | .isOdd a | .isEven a
  | .toInt a | .toUint a | .toString a _ _ _ | .stringLen a _ | .toBinary a _ _ | .toUnsigned a _ _ | .binaryLen a
  | .unsignedLen a => In ρ a
  | .defaultPrecision _ | .multiplyThreshold _ => True

/-- `mp_int_div_pow2(a, p, q, r)` leaves no negative zero in `r`.  (Only the low 32 bits of `p` count.  If `q` is `a`,
what is divided for the remainder is the quotient.) -/
def Pow2Ready (ρ : Nat → Option Int) (a p : Nat) (q r : Option Nat) : Prop :=
  r ≠ none → ∀ x, ρ a = some x → NoNegZero (if q = some a then x.tdiv (2 ^ (p % 2 ^ 32)) else x) (p % 2 ^ 32)

/-- `mp_int_expt_full(a, b, b)`: the base has one digit. -/
def FullReady (ρ : Nat → Option Int) (a b c : Nat) : Prop :=
  c = b → ∀ x y, ρ a = some x → ρ b = some y → 0 ≤ y → |x| < 2 ^ 32

/-- The fourth argument of `mp_int_exptmod_known` is the constant of the modulus (up to its sign) and is not the
result variable - unless the call is refused anyway. -/
def KnownReady (ρ : Nat → Option Int) (b d u c : Nat) : Prop :=
  ∀ y v U, ρ b = some y → ρ d = some v → ρ u = some U → 0 ≤ y → v ≠ 0 →
    c ≠ u ∧ ∀ k : Nat, 1 ≤ k → 2 ^ (32 * (k - 1)) ≤ |v| → |v| < 2 ^ (32 * k) → |U| = 2 ^ (64 * k) / |v|

/-- If exactly one operand of `mp_int_egcd` is zero, there are two coefficient variables. -/
def EgcdReady (ρ : Nat → Option Int) (a b : Nat) (X Y : Option Nat) : Prop :=
  ∀ x y, ρ a = some x → ρ b = some y → OneZero x y → X ≠ none ∧ Y ≠ none

/-- The array can take what is written: the numeral or as much of it as the limit admits, and the terminator. -/
def StringFits (ρ : Nat → Option Int) (a r : Nat) (str : Bytes) (limit : Int) : Prop :=
  ∀ x, ρ a = some x → min (numeral r x).length limit.toNat + 1 ≤ str.length

/-- What is written fits into the array. -/
def BytesFit (ρ : Nat → Option Int) (a : Nat) (len : Int → Nat) (buf : Bytes) (limit : Int) : Prop :=
  ∀ x, ρ a = some x → min (len x) limit.toNat ≤ buf.length

/-- The further conditions under which a call is admissible. -/
def Call.Ready (ρ : Nat → Option Int) : Call → Prop
  | .initSize _ p => p ≠ 2 ^ 32 - 1
  | .initValue _ v | .setValue _ v | .addValue _ v _ | .subValue _ v _ | .mulValue _ v _ | .divValue _ v _ | .divisible _ v
  | .exptmodE _ v _ _ | .exptmodB v _ _ _=> v ≠ -2 ^ 63
  | .exptValue v k _ => k < 0 ∨ v ≠ -2 ^ 63
  | .div _ _ q r => q ≠ r
  | .divPow2 a p q r => q ≠ r ∧ Pow2Ready ρ a p q r
  | .exptFull a b c => FullReady ρ a b c
  | .exptmodKnown _ b d u c => KnownReady ρ b d u c
  | .reduxConst d c => c ≠ d
  | .egcd a b _ X Y => (X ≠ none ∨ Y ≠ none) ∧ EgcdReady ρ a b X Y
  | .root _ k _ => k ≠ 0
  | .toInt a => ρ a ≠ some (-2 ^ 63)
  | .toString a r str limit => (2 ≤ r ∧ r ≤ 36) ∧ 2 ≤ limit ∧ StringFits ρ a r str limit
  | .stringLen _ r => 2 ≤ r ∧ r ≤ 36
  | .readCstring _ r str => (2 ≤ r ∧ r ≤ 36) ∧ 0 ∈ str.take 800000001
  | .toBinary a buf limit => 1 ≤ limit ∧ BytesFit ρ a binLen buf limit
  | .toUnsigned a buf limit => 1 ≤ limit ∧ BytesFit ρ a unsLen buf limit
  | .readBinary _ buf len | .readUnsigned _ buf len => 1 ≤ len ∧ len < 2 ^ 28 ∧ len ≤ buf.length
  | .defaultPrecision n => n ≠ 0 ∧ n ≠ 2 ^ 32 - 1
  | .multiplyThreshold n => 8 ≤ n
  | _ => True

/-- Calls that end in undefined behaviour or a failing assertion, whatever the state. -/
inductive Breaks (ρ : Nat → Option Int) : Call → Fault → Prop
  | initSize {c} : Breaks ρ (.initSize c (2 ^ 32 - 1)) .ub
  | initValue {c} : Breaks ρ (.initValue c (-2 ^ 63)) .ub
  | setValue {c} : Breaks ρ (.setValue c (-2 ^ 63)) .ub
  | addValue {a c} : Breaks ρ (.addValue a (-2 ^ 63) c) .ub
  | subValue {a c} : Breaks ρ (.subValue a (-2 ^ 63) c) .ub
  | mulValue {a c} : Breaks ρ (.mulValue a (-2 ^ 63) c) .ub
  | divValue {a q} : Breaks ρ (.divValue a (-2 ^ 63) q) .ub
  | divisible {a} : Breaks ρ (.divisible a (-2 ^ 63)) .ub
  | exptValue {k c} : 0 ≤ k → Breaks ρ (.exptValue (-2 ^ 63) k c) .ub
  | exptmodE {a d c} : Breaks ρ (.exptmodE a (-2 ^ 63) d c) .ub
  | exptmodB {b d c} : Breaks ρ (.exptmodB (-2 ^ 63) b d c) .ub
  | div {a b q} : Breaks ρ (.div a b q q) .assert
  | divPow2 {a p q} : Breaks ρ (.divPow2 a p q q) .assert
  | reduxConst {d} : Breaks ρ (.reduxConst d d) .assert
  | egcd {a b c} : Breaks ρ (.egcd a b c none none) .assert
  | egcdNull {a b c x y X Y} : ρ a = some x → ρ b = some y → OneZero x y → X = none ∨ Y = none →
      Breaks ρ (.egcd a b c X Y) .assert
  | root {a c} : Breaks ρ (.root a 0 c) .assert
  | toInt {a} : ρ a = some (-2 ^ 63) → Breaks ρ (.toInt a) .ub
  | toStringLimit {a r str limit} : limit < 2 → Breaks ρ (.toString a r str limit) .assert
  | toStringRadix {a r str limit} : r < 2 ∨ 36 < r → Breaks ρ (.toString a r str limit) .assert
  | toStringShort {a r str limit x} : ρ a = some x → 2 ≤ r ∧ r ≤ 36 → 2 ≤ limit → (str.length : Int) ≤ limit →
      str.length ≤ (numeral r x).length → Breaks ρ (.toString a r str limit) .ub
  | stringLen {a r} : r < 2 ∨ 36 < r → Breaks ρ (.stringLen a r) .assert
  | readCstring {c r str} : r < 2 ∨ 36 < r → Breaks ρ (.readCstring c r str) .assert
  | readCstringEnd {c r str} : 2 ≤ r ∧ r ≤ 36 → 0 ∉ str → Breaks ρ (.readCstring c r str) .ub
  | toBinaryLimit {a buf limit} : limit ≤ 0 → Breaks ρ (.toBinary a buf limit) .ub
  | toBinaryShort {a buf limit x} : ρ a = some x → (buf.length : Int) < limit → buf.length < binLen x →
      Breaks ρ (.toBinary a buf limit) .ub
  | toUnsignedShort {a buf limit x} : ρ a = some x → (buf.length : Int) < limit → buf.length < unsLen x →
      Breaks ρ (.toUnsigned a buf limit) .ub
  | readBinary {c buf len} : len ≤ 0 → Breaks ρ (.readBinary c buf len) .assert
  | readBinaryShort {c buf len} : (∀ b ∈ buf, b < 256) → (buf.length : Int) < len → len < 2 ^ 28 → Breaks ρ (.readBinary c buf len) .ub
  | readBinaryLong {c buf len} : 2 ^ 28 ≤ len → Breaks ρ (.readBinary c buf len) .ub
  | readUnsigned {c buf len} : len ≤ 0 → Breaks ρ (.readUnsigned c buf len) .assert
  | readUnsignedShort {c buf len} : (∀ b ∈ buf, b < 256) → (buf.length : Int) < len → len < 2 ^ 28 → Breaks ρ (.readUnsigned c buf len) .ub
  | readUnsignedLong {c buf len} : 2 ^ 28 ≤ len → Breaks ρ (.readUnsigned c buf len) .ub
  | defaultPrecision : Breaks ρ (.defaultPrecision 0) .assert
  | multiplyThreshold {n} : n < 8 → Breaks ρ (.multiplyThreshold n) .assert

/-- `mp_int_expt_full(a, b, b)` with a base of more than one digit: the result overwrites the exponent while it is
read, and the number grows until a request is refused. -/
inductive Exhausts (ρ : Nat → Option Int) : Call → Prop
  | exptFull {a b x y} : ρ a = some x → ρ b = some y → 0 ≤ y → 2 ^ 32 ≤ |x| → Exhausts ρ (.exptFull a b b)

/-- What is left: a negative zero is stored; the constant given to `mp_int_exptmod_known` is another number or is
overwritten; the terminator comes after more than 800 million characters; `mp_int_to_unsigned` with a limit of 0 or less
(nothing is written, but `REV`, imath.c:102-110, computes a pointer before the array); the largest default precision. -/
def Call.Open (ρ : Nat → Option Int) : Call → Prop
  | .divPow2 a p q r => r ≠ none ∧ ¬ Pow2Ready ρ a p q r
  | .exptmodKnown _ b d u c => ¬ KnownReady ρ b d u c
  | .readCstring _ _ str => 0 ∈ str ∧ 0 ∉ str.take 800000001
  | .toUnsigned _ _ limit => limit ≤ 0
  | .defaultPrecision n => n = 2 ^ 32 - 1
  | _ => False

/-- A program all of whose calls are ready, whatever the calls before have returned. -/
inductive ReadyProg : (Nat → Option Int) → Prog → Prop
  | done {ρ} : ReadyProg ρ .done
  | call {ρ} {c : Call} {k : List Int → Prog} : c.Typed → c.Vars ρ → c.Ready ρ → (∀ out ρ', Step ρ c out ρ' → ReadyProg ρ' (k out)) → ReadyProg ρ (.call c k)

end Imath
