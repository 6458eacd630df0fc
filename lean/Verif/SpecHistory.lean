import Verif.Model.Conv
import Verif.Spec
import Verif.SpecConv
import Verif.SpecExptmod
import Mathlib.Data.Int.GCD

/-!
# Programs that use the library

A `Call` is a call of a function of the interface with concrete arguments (variables are numbered);
`Call.exec` performs the modelled function and returns everything the caller can observe as a list of
integers.  A `Prog` is a program that performs calls and whose further course may depend on what they
returned.

`Step ρ c out ρ'` says, in terms of integers only, that in a state in which the variables have the
values `ρ` the call `c` is admissible, may return `out` and leaves the values `ρ'`.  `DStep` are the
calls whose result is determined by `ρ` and is the one that is documented; `UStep` are those whose result is
determined but is another one, because a property fails there; `NStep` are those of which less is stated.
What is not admissible is undefined behaviour, a violated precondition, or one of a few calls whose result
makes no sense (see the witnesses beside the respective theorems).
-/

namespace Imath

/-- Calls of the interface of imath.h. -/
inductive Call where
  | init (c : Nat) | initSize (c prec : Nat) | initCopy (c a : Nat) | initValue (c : Nat) (v : Int) | initUvalue (c v : Nat)
  | clear (c : Nat) | copy (a c : Nat) | neg (a c : Nat) | abs (a c : Nat) | zero (c : Nat) | swap (a c : Nat)
  | setValue (c : Nat) (v : Int) | setUvalue (c v : Nat)
  | add (a b c : Nat) | addValue (a : Nat) (v : Int) (c : Nat) | sub (a b c : Nat) | subValue (a : Nat) (v : Int) (c : Nat)
  | mul (a b c : Nat) | mulValue (a : Nat) (v : Int) (c : Nat) | mulPow2 (a p c : Nat) | sqr (a c : Nat)
  | div (a b : Nat) (q r : Option Nat) | divValue (a : Nat) (v : Int) (q : Option Nat) | divPow2 (a p : Nat) (q r : Option Nat)
  | mod (a b c : Nat) | divisible (a : Nat) (v : Int)
  | expt (a : Nat) (k : Int) (c : Nat) | exptValue (v k : Int) (c : Nat) | exptFull (a b c : Nat)
  | exptmod (a b d c : Nat) | exptmodE (a : Nat) (v : Int) (d c : Nat) | exptmodB (v : Int) (b d c : Nat)
  | exptmodKnown (a b d u c : Nat) | reduxConst (d c : Nat)
  | gcd (a b c : Nat) | egcd (a b c : Nat) (x y : Option Nat) | lcm (a b c : Nat) | invmod (a b c : Nat) | root (a k c : Nat)
  | compare (a b : Nat) | compareUnsigned (a b : Nat) | compareZero (a : Nat) | compareValue (a : Nat) (v : Int)
  | compareUvalue (a v : Nat) | isPow2 (a : Nat) | countBits (a : Nat) | isOdd (a : Nat) | isEven (a : Nat)
  | toInt (a : Nat) | toUint (a : Nat)
  | toString (a r : Nat) (str : Bytes) (limit : Int) | stringLen (a r : Nat) | readCstring (c r : Nat) (str : Bytes)
  | toBinary (a : Nat) (buf : Bytes) (limit : Int) | readBinary (c : Nat) (buf : Bytes) (len : Int)
  | toUnsigned (a : Nat) (buf : Bytes) (limit : Int) | readUnsigned (c : Nat) (buf : Bytes) (len : Int)
  | binaryLen (a : Nat) | unsignedLen (a : Nat)
  | defaultPrecision (n : Nat) | multiplyThreshold (n : Nat)

/-- A result and the contents of a buffer. -/
def outB (p : Int × Bytes) : List Int := p.1 :: p.2.map fun (b : Nat) => (b : Int)
/-- A result and a value that is stored if there is one. -/
def outO (p : Int × Option Int) : List Int := p.1 :: p.2.toList
def outU (p : Int × Option Nat) : List Int := p.1 :: p.2.toList.map fun (b : Nat) => (b : Int)
def outT (b : Bool) : List Int := [if b then 1 else 0]

/-- Perform a call. -/
def Call.exec : Call → M (List Int)
  | .init c => do let r ← mp_int_init (.var c); pure [r]
  | .initSize c p => do let r ← mp_int_init_size (.var c) p; pure [r]
  | .initCopy c a => do let r ← mp_int_init_copy (.var c) (.var a); pure [r]
  | .initValue c v => do let r ← mp_int_init_value (.var c) v; pure [r]
  | .initUvalue c v => do let r ← mp_int_init_uvalue (.var c) v; pure [r]
  | .clear c => do let _ ← mp_int_clear (.var c); pure []
  | .copy a c => do let r ← mp_int_copy (.var a) (.var c); pure [r]
  | .neg a c => do let r ← mp_int_neg (.var a) (.var c); pure [r]
  | .abs a c => do let r ← mp_int_abs (.var a) (.var c); pure [r]
  | .zero c => do let _ ← mp_int_zero (.var c); pure []
  | .swap a c => do let _ ← mp_int_swap (.var a) (.var c); pure []
  | .setValue c v => do let r ← mp_int_set_value (.var c) v; pure [r]
  | .setUvalue c v => do let r ← mp_int_set_uvalue (.var c) v; pure [r]
  | .add a b c => do let r ← mp_int_add (.var a) (.var b) (.var c); pure [r]
  | .addValue a v c => do let r ← mp_int_add_value (.var a) v (.var c); pure [r]
  | .sub a b c => do let r ← mp_int_sub (.var a) (.var b) (.var c); pure [r]
  | .subValue a v c => do let r ← mp_int_sub_value (.var a) v (.var c); pure [r]
  | .mul a b c => do let r ← mp_int_mul (.var a) (.var b) (.var c); pure [r]
  | .mulValue a v c => do let r ← mp_int_mul_value (.var a) v (.var c); pure [r]
  | .mulPow2 a p c => do let r ← mp_int_mul_pow2 (.var a) p (.var c); pure [r]
  | .sqr a c => do let r ← mp_int_sqr (.var a) (.var c); pure [r]
  | .div a b q r => do let res ← mp_int_div (.var a) (.var b) (q.map .var) (r.map .var); pure [res]
  | .divValue a v q => do let res ← mp_int_div_value (.var a) v (q.map .var); pure (outO res)
  | .divPow2 a p q r => do let res ← mp_int_div_pow2 (.var a) p (q.map .var) (r.map .var); pure [res]
  | .mod a b c => do let r ← mp_int_mod (.var a) (.var b) (.var c); pure [r]
  | .divisible a v => do let r ← mp_int_divisible_value (.var a) v; pure (outT r)
  | .expt a k c => do let r ← mp_int_expt (.var a) k (.var c); pure [r]
  | .exptValue v k c => do let r ← mp_int_expt_value v k (.var c); pure [r]
  | .exptFull a b c => do let r ← mp_int_expt_full (.var a) (.var b) (.var c); pure [r]
  | .exptmod a b d c => do let r ← mp_int_exptmod (.var a) (.var b) (.var d) (.var c); pure [r]
  | .exptmodE a v d c => do let r ← mp_int_exptmod_evalue (.var a) v (.var d) (.var c); pure [r]
  | .exptmodB v b d c => do let r ← mp_int_exptmod_bvalue v (.var b) (.var d) (.var c); pure [r]
  | .exptmodKnown a b d u c => do let r ← mp_int_exptmod_known (.var a) (.var b) (.var d) (.var u) (.var c); pure [r]
  | .reduxConst d c => do let r ← mp_int_redux_const (.var d) (.var c); pure [r]
  | .gcd a b c => do let r ← mp_int_gcd (.var a) (.var b) (.var c); pure [r]
  | .egcd a b c x y => do let r ← mp_int_egcd (.var a) (.var b) (.var c) (x.map .var) (y.map .var); pure [r]
  | .lcm a b c => do let r ← mp_int_lcm (.var a) (.var b) (.var c); pure [r]
  | .invmod a b c => do let r ← mp_int_invmod (.var a) (.var b) (.var c); pure [r]
  | .root a k c => do let r ← mp_int_root (.var a) k (.var c); pure [r]
  | .compare a b => do let r ← mp_int_compare (.var a) (.var b); pure [r]
  | .compareUnsigned a b => do let r ← mp_int_compare_unsigned (.var a) (.var b); pure [r]
  | .compareZero a => do let r ← mp_int_compare_zero (.var a); pure [r]
  | .compareValue a v => do let r ← mp_int_compare_value (.var a) v; pure [r]
  | .compareUvalue a v => do let r ← mp_int_compare_uvalue (.var a) v; pure [r]
  | .isPow2 a => do let r ← mp_int_is_pow2 (.var a); pure [r]
  | .countBits a => do let r ← mp_int_count_bits (.var a); pure [r]
  | .isOdd a => do let r ← mp_int_is_odd (.var a); pure (outT r)
  | .isEven a => do let r ← mp_int_is_even (.var a); pure (outT r)
  | .toInt a => do let r ← mp_int_to_int (.var a); pure (outO r)
  | .toUint a => do let r ← mp_int_to_uint (.var a); pure (outU r)
  | .toString a r str limit => do let p ← mp_int_to_string (.var a) r str limit; pure (outB p)
  | .stringLen a r => do let p ← mp_int_string_len (.var a) r; pure [p]
  | .readCstring c r str => do let p ← mp_int_read_cstring (.var c) r str; pure [p.1, p.2]
  | .toBinary a buf limit => do let p ← mp_int_to_binary (.var a) buf limit; pure (outB p)
  | .readBinary c buf len => do let p ← mp_int_read_binary (.var c) buf len; pure (outB p)
  | .toUnsigned a buf limit => do let p ← mp_int_to_unsigned (.var a) buf limit; pure (outB p)
  | .readUnsigned c buf len => do let p ← mp_int_read_unsigned (.var c) buf len; pure [p]
  | .binaryLen a => do let r ← mp_int_binary_len (.var a); pure [r]
  | .unsignedLen a => do let r ← mp_int_unsigned_len (.var a); pure [r]
  | .defaultPrecision n => do let _ ← mp_int_default_precision n; pure []
  | .multiplyThreshold n => do let _ ← mp_int_multiply_threshold n; pure []

/-- The variables a call may change. -/
def Call.outs : Call → List Nat
  | .init c | .initSize c _ | .initCopy c _ | .initValue c _ | .initUvalue c _ | .clear c | .copy _ c | .neg _ c | .abs _ c
  | .zero c | .setValue c _ | .setUvalue c _ | .add _ _ c | .addValue _ _ c | .sub _ _ c | .subValue _ _ c | .mul _ _ c
  | .mulValue _ _ c | .mulPow2 _ _ c | .sqr _ c | .mod _ _ c | .expt _ _ c | .exptValue _ _ c | .exptFull _ _ c
  | .exptmod _ _ _ c | .exptmodE _ _ _ c | .exptmodB _ _ _ c | .exptmodKnown _ _ _ _ c | .reduxConst _ c | .gcd _ _ c
  | .lcm _ _ c | .invmod _ _ c | .root _ _ c | .readCstring c _ _ | .readBinary c _ _ | .readUnsigned c _ _ => [c]
  | .swap a c => [a, c]
  | .div _ _ q r | .divPow2 _ _ q r => q.toList ++ r.toList
  | .divValue _ _ q => q.toList
  | .egcd _ _ c x y => c :: x.toList ++ y.toList
  | _ => []

/-- Store in an optional output variable. -/
def putOpt (ρ : Nat → Option Int) (q : Option Nat) (v : Int) : Nat → Option Int :=
  match q with
  | some n => put ρ n v
  | none => ρ

/-- The optional output variable is initialised. -/
def HasOpt (ρ : Nat → Option Int) (q : Option Nat) : Prop := ∀ n, q = some n → ∃ w, ρ n = some w

/-- A value of type `mp_small` other than the least one. -/
def Small (v : Int) : Prop := -2 ^ 63 < v ∧ v < 2 ^ 63

/-- Three-way comparison. -/
def cmp3 (x y : Int) : Int := if x < y then -1 else if x = y then 0 else 1

/-- Calls whose outcome is determined. -/
inductive DStep (ρ : Nat → Option Int) : Call → List Int → (Nat → Option Int) → Prop
  | init {c} : ρ c = none → DStep ρ (.init c) [MP_OK] (put ρ c 0)
  | initSize {c p} : ρ c = none → p < 2 ^ 32 - 1 → DStep ρ (.initSize c p) [MP_OK] (put ρ c 0)
  | initCopy {c a x} : ρ c = none → ρ a = some x → DStep ρ (.initCopy c a) [MP_OK] (put ρ c x)
  | initValue {c v} : ρ c = none → Small v → DStep ρ (.initValue c v) [MP_OK] (put ρ c v)
  | initUvalue {c v} : ρ c = none → v < 2 ^ 64 → DStep ρ (.initUvalue c v) [MP_OK] (put ρ c v)
  | clear {c w} : ρ c = some w → DStep ρ (.clear c) [] (del ρ c)
  | copy {a c x w} : ρ a = some x → ρ c = some w → DStep ρ (.copy a c) [MP_OK] (put ρ c x)
  | neg {a c x w} : ρ a = some x → ρ c = some w → DStep ρ (.neg a c) [MP_OK] (put ρ c (-x))
  | abs {a c x w} : ρ a = some x → ρ c = some w → DStep ρ (.abs a c) [MP_OK] (put ρ c |x|)
  | zero {c w} : ρ c = some w → DStep ρ (.zero c) [] (put ρ c 0)
  | swap {a c x y} : ρ a = some x → ρ c = some y → DStep ρ (.swap a c) [] (put (put ρ a y) c x)
  | setValue {c w v} : ρ c = some w → Small v → DStep ρ (.setValue c v) [MP_OK] (put ρ c v)
  | setUvalue {c w v} : ρ c = some w → v < 2 ^ 64 → DStep ρ (.setUvalue c v) [MP_OK] (put ρ c v)
  | add {a b c x y w} : ρ a = some x → ρ b = some y → ρ c = some w → DStep ρ (.add a b c) [MP_OK] (put ρ c (x + y))
  | addValue {a v c x w} : ρ a = some x → ρ c = some w → Small v → DStep ρ (.addValue a v c) [MP_OK] (put ρ c (x + v))
  | sub {a b c x y w} : ρ a = some x → ρ b = some y → ρ c = some w → DStep ρ (.sub a b c) [MP_OK] (put ρ c (x - y))
  | subValue {a v c x w} : ρ a = some x → ρ c = some w → Small v → DStep ρ (.subValue a v c) [MP_OK] (put ρ c (x - v))
  | mul {a b c x y w} : ρ a = some x → ρ b = some y → ρ c = some w → DStep ρ (.mul a b c) [MP_OK] (put ρ c (x * y))
  | mulValue {a v c x w} : ρ a = some x → ρ c = some w → Small v → DStep ρ (.mulValue a v c) [MP_OK] (put ρ c (x * v))
  | mulPow2 {a p c x w} : ρ a = some x → ρ c = some w → p < 2 ^ 32 → DStep ρ (.mulPow2 a p c) [MP_OK] (put ρ c (x * 2 ^ p))
  | sqr {a c x w} : ρ a = some x → ρ c = some w → DStep ρ (.sqr a c) [MP_OK] (put ρ c (x ^ 2))
  | div {a b q r x y} : ρ a = some x → ρ b = some y → y ≠ 0 → HasOpt ρ q → HasOpt ρ r → q ≠ r →
      DStep ρ (.div a b q r) [MP_OK] (putOpt (putOpt ρ q (x.tdiv y)) r (x.tmod y))
  | divZero {a b q r x} : ρ a = some x → ρ b = some 0 → HasOpt ρ q → HasOpt ρ r → q ≠ r → DStep ρ (.div a b q r) [MP_UNDEF] ρ
  | divValue {a v q x} : ρ a = some x → v ≠ 0 → Small v → HasOpt ρ q →
      DStep ρ (.divValue a v q) [MP_OK, x.tmod v] (putOpt ρ q (x.tdiv v))
  | divValueZero {a q x} : ρ a = some x → HasOpt ρ q → DStep ρ (.divValue a 0 q) [MP_UNDEF] ρ
  | divPow2 {a p q r x} : ρ a = some x → p < 2 ^ 32 → HasOpt ρ q → HasOpt ρ r → q ≠ r → (q = some a → r = none) →
      (r ≠ none → x < 0 → ¬ 2 ^ p ∣ x) →
      DStep ρ (.divPow2 a p q r) [MP_OK] (putOpt (putOpt ρ q (x.tdiv (2 ^ p))) r (x.tmod (2 ^ p)))
  | mod {a b c x y w} : ρ a = some x → ρ b = some y → ρ c = some w → 0 < y → DStep ρ (.mod a b c) [MP_OK] (put ρ c (x % y))
  | modZero {a b c x w} : ρ a = some x → ρ b = some 0 → ρ c = some w → DStep ρ (.mod a b c) [MP_UNDEF] ρ
  | divisible {a v x} : ρ a = some x → Small v → DStep ρ (.divisible a v) [if v ≠ 0 ∧ v ∣ x then 1 else 0] ρ
  | expt {a c x w} {k : Nat} : ρ a = some x → ρ c = some w → k < 2 ^ 32 → DStep ρ (.expt a k c) [MP_OK] (put ρ c (x ^ k))
  | exptNeg {a k c x w} : ρ a = some x → ρ c = some w → k < 0 → DStep ρ (.expt a k c) [MP_RANGE] ρ
  | exptValue {v c w} {k : Nat} : Small v → ρ c = some w → k < 2 ^ 32 → DStep ρ (.exptValue v k c) [MP_OK] (put ρ c (v ^ k))
  | exptValueNeg {v k c w} : ρ c = some w → k < 0 → DStep ρ (.exptValue v k c) [MP_RANGE] ρ
  | exptFull {a b c x y w} : ρ a = some x → ρ b = some y → ρ c = some w → c ≠ b → 0 ≤ y →
      DStep ρ (.exptFull a b c) [MP_OK] (put ρ c (x ^ y.toNat))
  | exptFullNeg {a b c y} : ρ b = some y → y < 0 → DStep ρ (.exptFull a b c) [MP_RANGE] ρ
  | exptmod {a b d c x y v w} : ρ a = some x → ρ b = some y → ρ d = some v → ρ c = some w → 0 < v → 0 ≤ y → y ≠ 0 ∨ v ≠ 1 →
      DStep ρ (.exptmod a b d c) [MP_OK] (put ρ c (x ^ y.toNat % v))
  | exptmodZero {a b d c} : ρ d = some 0 → DStep ρ (.exptmod a b d c) [MP_UNDEF] ρ
  | exptmodNeg {a b d c y v} : ρ b = some y → ρ d = some v → v ≠ 0 → y < 0 → DStep ρ (.exptmod a b d c) [MP_RANGE] ρ
  | exptmodE {a y d c x v w} : Small y → ρ a = some x → ρ d = some v → ρ c = some w → 0 < v → 0 ≤ y → y ≠ 0 ∨ v ≠ 1 →
      DStep ρ (.exptmodE a y d c) [MP_OK] (put ρ c (x ^ y.toNat % v))
  | exptmodB {x b d c y v w} : Small x → ρ b = some y → ρ d = some v → ρ c = some w → 0 < v → 0 ≤ y → y ≠ 0 ∨ v ≠ 1 →
      DStep ρ (.exptmodB x b d c) [MP_OK] (put ρ c (x ^ y.toNat % v))
  | exptmodEZero {a y d c x w} : Small y → ρ a = some x → ρ d = some 0 → ρ c = some w → DStep ρ (.exptmodE a y d c) [MP_UNDEF] ρ
  | exptmodENeg {a y d c x v w} : Small y → ρ a = some x → ρ d = some v → ρ c = some w → 0 < v → y < 0 →
      DStep ρ (.exptmodE a y d c) [MP_RANGE] ρ
  | exptmodBZero {x b d c y w} : Small x → ρ b = some y → ρ d = some 0 → ρ c = some w → DStep ρ (.exptmodB x b d c) [MP_UNDEF] ρ
  | exptmodBNeg {x b d c y v w} : Small x → ρ b = some y → ρ d = some v → ρ c = some w → 0 < v → y < 0 →
      DStep ρ (.exptmodB x b d c) [MP_RANGE] ρ
  | exptmodKnownZero {a b d u c} : ρ d = some 0 → DStep ρ (.exptmodKnown a b d u c) [MP_UNDEF] ρ
  | exptmodKnownNeg {a b d u c y v} : ρ b = some y → ρ d = some v → v ≠ 0 → y < 0 → DStep ρ (.exptmodKnown a b d u c) [MP_RANGE] ρ
  | exptmodKnown {a b d u c k x y v w} : ρ a = some x → ρ b = some y → ρ d = some v → ρ u = some (2 ^ (64 * k) / v) →
      ρ c = some w → c ≠ u → 0 ≤ y → y ≠ 0 ∨ v ≠ 1 → 1 ≤ k → 2 ^ (32 * (k - 1)) ≤ v → v < 2 ^ (32 * k) →
      DStep ρ (.exptmodKnown a b d u c) [MP_OK] (put ρ c (x ^ y.toNat % v))
  | reduxConst {d c k v w} : ρ d = some v → ρ c = some w → 0 ≤ w → c ≠ d → 1 ≤ k → 2 ^ (32 * (k - 1)) ≤ v → v < 2 ^ (32 * k) →
      DStep ρ (.reduxConst d c) [MP_OK] (put ρ c (2 ^ (64 * k) / v))
  | gcd {a b c x y w} : ρ a = some x → ρ b = some y → ρ c = some w → x ≠ 0 ∨ y ≠ 0 →
      DStep ρ (.gcd a b c) [MP_OK] (put ρ c (Int.gcd x y))
  | gcdZero {a b c w} : ρ a = some 0 → ρ b = some 0 → ρ c = some w → DStep ρ (.gcd a b c) [MP_UNDEF] ρ
  | egcdZero {a b c x y} : ρ a = some 0 → ρ b = some 0 → x ≠ none ∨ y ≠ none → DStep ρ (.egcd a b c x y) [MP_UNDEF] ρ
  | lcm {a b c x y w} : ρ a = some x → ρ b = some y → ρ c = some w → x ≠ 0 ∨ y ≠ 0 →
      DStep ρ (.lcm a b c) [MP_OK] (put ρ c (x.tdiv (Int.gcd x y) * y))
  | lcmZero {a b c w} : ρ a = some 0 → ρ b = some 0 → ρ c = some w → DStep ρ (.lcm a b c) [MP_UNDEF] ρ
  | invmod {a b c x y w i} : ρ a = some x → ρ b = some y → ρ c = some w → x ≠ 0 → ¬ (x < 0 ∧ y = 1) →
      0 ≤ i → i < y → y ∣ x * i - 1 → DStep ρ (.invmod a b c) [MP_OK] (put ρ c i)
  | invmodRange {a b c x y w} : ρ a = some x → ρ b = some y → ρ c = some w → x = 0 ∨ y ≤ 0 → DStep ρ (.invmod a b c) [MP_RANGE] ρ
  | invmodUndef {a b c x y w} : ρ a = some x → ρ b = some y → ρ c = some w → x ≠ 0 → 0 < y → Int.gcd x y ≠ 1 →
      DStep ρ (.invmod a b c) [MP_UNDEF] ρ
  | root {a k c x w} {r : Nat} : ρ a = some x → ρ c = some w → 0 < k → k < 2 ^ 32 → 0 ≤ x ∨ k % 2 = 1 →
      r ^ k ≤ x.natAbs → x.natAbs < (r + 1) ^ k → DStep ρ (.root a k c) [MP_OK] (put ρ c (if x < 0 then -r else r))
  | rootUndef {a k c x w} : ρ a = some x → ρ c = some w → 0 < k → k < 2 ^ 63 → x < 0 → k % 2 = 0 →
      DStep ρ (.root a k c) [MP_UNDEF] ρ
  | compare {a b x y} : ρ a = some x → ρ b = some y → DStep ρ (.compare a b) [cmp3 x y] ρ
  | compareUnsigned {a b x y} : ρ a = some x → ρ b = some y → DStep ρ (.compareUnsigned a b) [cmp3 |x| |y|] ρ
  | compareZero {a x} : ρ a = some x → DStep ρ (.compareZero a) [cmp3 x 0] ρ
  | compareValue {a x v} : ρ a = some x → -2 ^ 63 ≤ v → v < 2 ^ 63 → DStep ρ (.compareValue a v) [cmp3 x v] ρ
  | compareUvalue {a x v} : ρ a = some x → v < 2 ^ 64 → DStep ρ (.compareUvalue a v) [cmp3 x v] ρ
  | isPow2 {a} {k : Nat} : ρ a = some (2 ^ k) → DStep ρ (.isPow2 a) [k] ρ
  | isPow2No {a x} : ρ a = some x → 0 < x → (∀ k : Nat, x ≠ 2 ^ k) → DStep ρ (.isPow2 a) [-1] ρ
  | countBits {a x} {n : Nat} : ρ a = some x → 2 ^ n ≤ |x| → |x| < 2 ^ (n + 1) → DStep ρ (.countBits a) [n + 1] ρ
  | countBitsZero {a} : ρ a = some 0 → DStep ρ (.countBits a) [1] ρ
  | isOdd {a x} : ρ a = some x → DStep ρ (.isOdd a) [if 2 ∣ x then 0 else 1] ρ
  | isEven {a x} : ρ a = some x → DStep ρ (.isEven a) [if 2 ∣ x then 1 else 0] ρ
  | toInt {a x} : ρ a = some x → Small x → DStep ρ (.toInt a) [MP_OK, x] ρ
  | toIntRange {a x} : ρ a = some x → x < -2 ^ 63 ∨ 2 ^ 63 ≤ x → DStep ρ (.toInt a) [MP_RANGE] ρ
  | toUint {a x} : ρ a = some x → 0 ≤ x → x < 2 ^ 64 → DStep ρ (.toUint a) [MP_OK, x] ρ
  | toUintRange {a x} : ρ a = some x → x < 0 ∨ 2 ^ 64 ≤ x → DStep ρ (.toUint a) [MP_RANGE] ρ
  | toString {a r str x} {limit : Int} : ρ a = some x → 2 ≤ r → r ≤ 36 → 2 ≤ limit → (numeral r x).length + 1 ≤ limit →
      (numeral r x).length + 1 ≤ str.length →
      DStep ρ (.toString a r str limit) (outB (MP_OK, numeral r x ++ 0 :: str.drop ((numeral r x).length + 1))) ρ
  | toStringTrunc {a r str x} {limit : Int} : ρ a = some x → 2 ≤ r → r ≤ 36 → 2 ≤ limit → limit < (numeral r x).length + 1 →
      limit + 1 ≤ str.length →
      DStep ρ (.toString a r str limit) (outB (MP_TRUNC, numeralTail r x limit.toNat ++ 0 :: str.drop (limit.toNat + 1))) ρ
  | readCstring {c r w ch sp sg ds rest vs} : ρ c = some w → 2 ≤ r → r ≤ 36 →
      (∀ x ∈ sp, IsSpace x) → sg = [] ∨ sg = [43] ∨ sg = [45] → List.Forall₂ (IsDigit r) ds vs → (∀ d, ¬ IsDigit r ch d) →
      (sg = [] → ds = [] → ¬ IsSpace ch ∧ ch ≠ 43 ∧ ch ≠ 45) → 0 ∈ (sp ++ sg ++ ds ++ ch :: rest).take 800000001 →
      DStep ρ (.readCstring c r (sp ++ sg ++ ds ++ ch :: rest)) [if ch = 0 then MP_OK else MP_TRUNC, (sp ++ sg ++ ds).length]
        (put ρ c ((if sg = [45] then -1 else 1) * ((Nat.ofDigits r vs.reverse : Nat) : Int)))
  | toBinary {a buf x} {limit : Int} {X : Bytes} : ρ a = some x → (binLen x : Int) ≤ limit → binLen x ≤ buf.length →
      X.length = binLen x → (∀ b ∈ X, b < 256) → twosVal X = x →
      DStep ρ (.toBinary a buf limit) (outB (MP_OK, X ++ buf.drop X.length)) ρ
  | toBinaryTrunc {a buf x} {limit : Int} {X : Bytes} : ρ a = some x → 1 ≤ limit → limit < binLen x → limit ≤ buf.length →
      X.length = limit → (∀ b ∈ X, b < 256) → (beVal X : Int) = x % 256 ^ limit.toNat →
      DStep ρ (.toBinary a buf limit) (outB (MP_TRUNC, X ++ buf.drop limit.toNat)) ρ
  | readBinary {c w} {X R : Bytes} : ρ c = some w → (∀ b ∈ X, b < 256) → 1 ≤ X.length → X.length < 2 ^ 28 →
      DStep ρ (.readBinary c (X ++ R) X.length) (outB (MP_OK, X ++ R)) (put ρ c (twosVal X))
  | toUnsigned {a buf x} {limit : Int} {X : Bytes} : ρ a = some x → (unsLen x : Int) ≤ limit → unsLen x ≤ buf.length →
      X.length = unsLen x → (∀ b ∈ X, b < 256) → (beVal X : Int) = |x| →
      DStep ρ (.toUnsigned a buf limit) (outB (MP_OK, X ++ buf.drop X.length)) ρ
  | toUnsignedTrunc {a buf x} {limit : Int} {X : Bytes} : ρ a = some x → 1 ≤ limit → limit < unsLen x → limit ≤ buf.length →
      X.length = limit → (∀ b ∈ X, b < 256) → (beVal X : Int) = |x| % 256 ^ limit.toNat →
      DStep ρ (.toUnsigned a buf limit) (outB (MP_TRUNC, X ++ buf.drop limit.toNat)) ρ
  | readUnsigned {c w} {X R : Bytes} : ρ c = some w → (∀ b ∈ X, b < 256) → 1 ≤ X.length → X.length < 2 ^ 28 →
      DStep ρ (.readUnsigned c (X ++ R) X.length) [MP_OK] (put ρ c (beVal X))
  | binaryLen {a x} : ρ a = some x → DStep ρ (.binaryLen a) [(binLen x : Int)] ρ
  | unsignedLen {a x} : ρ a = some x → DStep ρ (.unsignedLen a) [(unsLen x : Int)] ρ
  | defaultPrecision {n} : 0 < n → n < 2 ^ 32 - 1 → DStep ρ (.defaultPrecision n) [] ρ
  | multiplyThreshold {n} : 8 ≤ n → DStep ρ (.multiplyThreshold n) [] ρ

/-- Calls that are defined and whose outcome is determined, but is not what the documentation suggests. -/
inductive UStep (ρ : Nat → Option Int) : Call → List Int → (Nat → Option Int) → Prop
  | mulPow2 {a p c x w} : ρ a = some x → ρ c = some w → UStep ρ (.mulPow2 a p c) [MP_OK] (put ρ c (x * 2 ^ (p % 2 ^ 32)))
  | divPow2 {a p q r x} : ρ a = some x → HasOpt ρ q → HasOpt ρ r → q ≠ r → (q = some a → r = none) →
      (r ≠ none → x < 0 → ¬ 2 ^ (p % 2 ^ 32) ∣ x) →
      UStep ρ (.divPow2 a p q r) [MP_OK] (putOpt (putOpt ρ q (x.tdiv (2 ^ (p % 2 ^ 32)))) r (x.tmod (2 ^ (p % 2 ^ 32))))
  | divPow2Alias {a p r x w} : ρ a = some x → ρ r = some w → a ≠ r →
      (x.tdiv (2 ^ (p % 2 ^ 32)) < 0 → ¬ 2 ^ (p % 2 ^ 32) ∣ x.tdiv (2 ^ (p % 2 ^ 32))) →
      UStep ρ (.divPow2 a p (some a) (some r)) [MP_OK]
        (put (put ρ a (x.tdiv (2 ^ (p % 2 ^ 32)))) r ((x.tdiv (2 ^ (p % 2 ^ 32))).tmod (2 ^ (p % 2 ^ 32))))
  | mod {a b c x y w} : ρ a = some x → ρ b = some y → ρ c = some w → y < 0 →
      UStep ρ (.mod a b c) [MP_OK] (put ρ c (if x.tmod y < 0 then x.tmod y + y else x.tmod y))
  | expt {a c x w} {k : Nat} : ρ a = some x → ρ c = some w → UStep ρ (.expt a k c) [MP_OK] (put ρ c (x ^ (k % 2 ^ 32)))
  | exptValue {v c w} {k : Nat} : Small v → ρ c = some w → UStep ρ (.exptValue v k c) [MP_OK] (put ρ c (v ^ (k % 2 ^ 32)))
  | exptFull {a b x y} : ρ a = some x → ρ b = some y → 0 ≤ y → |x| < 2 ^ 32 → UStep ρ (.exptFull a b b) [MP_OK] (put ρ b x)
  | exptmod {a b d c x w} : ρ a = some x → ρ b = some 0 → ρ d = some 1 → ρ c = some w →
      UStep ρ (.exptmod a b d c) [MP_OK] (put ρ c 1)
  | exptmodE {a d c x w} : ρ a = some x → ρ d = some 1 → ρ c = some w → UStep ρ (.exptmodE a 0 d c) [MP_OK] (put ρ c 1)
  | exptmodB {x b d c w} : Small x → ρ b = some 0 → ρ d = some 1 → ρ c = some w → UStep ρ (.exptmodB x b d c) [MP_OK] (put ρ c 1)
  | exptmodKnown {a b d u c x w U} : ρ a = some x → ρ b = some 0 → ρ d = some 1 → ρ u = some U → |U| = 2 ^ 64 →
      ρ c = some w → c ≠ u → UStep ρ (.exptmodKnown a b d u c) [MP_OK] (put ρ c 1)
  | exptmodMod {a b d c x y v w} : ρ a = some x → ρ b = some y → ρ d = some v → ρ c = some w → v < 0 → 0 ≤ y →
      UStep ρ (.exptmod a b d c) [MP_OK] (put ρ c (negResult x y.toNat v))
  | exptmodEMod {a y d c x v w} : Small y → ρ a = some x → ρ d = some v → ρ c = some w → v < 0 → 0 ≤ y →
      UStep ρ (.exptmodE a y d c) [MP_OK] (put ρ c (negResult x y.toNat v))
  | exptmodENeg {a y d c x v w} : Small y → ρ a = some x → ρ d = some v → ρ c = some w → v < 0 → y < 0 →
      UStep ρ (.exptmodE a y d c) [MP_RANGE] ρ
  | exptmodBMod {x b d c y v w} : Small x → ρ b = some y → ρ d = some v → ρ c = some w → v < 0 → 0 ≤ y →
      UStep ρ (.exptmodB x b d c) [MP_OK] (put ρ c (negResult x y.toNat v))
  | exptmodBNeg {x b d c y v w} : Small x → ρ b = some y → ρ d = some v → ρ c = some w → v < 0 → y < 0 →
      UStep ρ (.exptmodB x b d c) [MP_RANGE] ρ
  | exptmodKnownMod {a b d u c k x y v w U} : ρ a = some x → ρ b = some y → ρ d = some v → ρ u = some U → |U| = 2 ^ (64 * k) / |v| →
      ρ c = some w → c ≠ u → 0 ≤ y → v < 0 → 1 ≤ k → 2 ^ (32 * (k - 1)) ≤ |v| → |v| < 2 ^ (32 * k) →
      UStep ρ (.exptmodKnown a b d u c) [MP_OK] (put ρ c (negResult x y.toNat v))
  | exptmodKnownSign {a b d u c k x y v w U} : ρ a = some x → ρ b = some y → ρ d = some v → ρ u = some U → |U| = 2 ^ (64 * k) / v →
      ρ c = some w → c ≠ u → 0 ≤ y → y ≠ 0 ∨ v ≠ 1 → 1 ≤ k → 2 ^ (32 * (k - 1)) ≤ v → v < 2 ^ (32 * k) →
      UStep ρ (.exptmodKnown a b d u c) [MP_OK] (put ρ c (x ^ y.toNat % v))
  | reduxConst {d c k v w} : ρ d = some v → ρ c = some w → c ≠ d → 1 ≤ k → 2 ^ (32 * (k - 1)) ≤ |v| → |v| < 2 ^ (32 * k) →
      UStep ρ (.reduxConst d c) [MP_OK] (put ρ c (((if w < 0 then -1 else 1) * 2 ^ (64 * k)).tdiv v))
  | reduxConstZero {d c w} : ρ d = some 0 → ρ c = some w → c ≠ d →
      UStep ρ (.reduxConst d c) [MP_UNDEF] (put ρ c ((if w < 0 then -1 else 1) * 2 ^ 64))
  | egcdLeft {a b c p q y w wp wq} : ρ a = some 0 → ρ b = some y → ρ c = some w → y ≠ 0 → ρ p = some wp → ρ q = some wq →
      UStep ρ (.egcd a b c (some p) (some q)) [MP_OK] (put (put (put ρ c |y|) p 0) q 1)
  | egcdRight {a b c p q x w wp wq} : ρ a = some x → ρ b = some 0 → ρ c = some w → x ≠ 0 → ρ p = some wp → ρ q = some wq →
      UStep ρ (.egcd a b c (some p) (some q)) [MP_OK] (put (put (put ρ c |x|) p 1) q 0)
  | invmod {a b c x w} : ρ a = some x → ρ b = some 1 → ρ c = some w → x < 0 → UStep ρ (.invmod a b c) [MP_OK] (put ρ c 1)
  | root {a k c x w} {r : Nat} : ρ a = some x → ρ c = some w → k < 2 ^ 63 → 0 < k % 2 ^ 32 → 0 ≤ x ∨ k % 2 = 1 →
      r ^ (k % 2 ^ 32) ≤ x.natAbs → x.natAbs < (r + 1) ^ (k % 2 ^ 32) →
      UStep ρ (.root a k c) [MP_OK] (put ρ c (if x < 0 then -r else r))
  | rootMultiple {a k c x w} : ρ a = some x → ρ c = some w → 0 < k → k < 2 ^ 63 → k % 2 ^ 32 = 0 → 0 < x →
      UStep ρ (.root a k c) [MP_OK] (put ρ c x)
  | rootMultipleZero {a k c w} : ρ a = some 0 → ρ c = some w → 0 < k → k < 2 ^ 63 → k % 2 ^ 32 = 0 →
      UStep ρ (.root a k c) [MP_UNDEF] ρ
  | isPow2Zero {a} : ρ a = some 0 → UStep ρ (.isPow2 a) [0] ρ
  | isPow2 {a} {k : Nat} : ρ a = some (-2 ^ k) → UStep ρ (.isPow2 a) [k] ρ
  | isPow2No {a x} : ρ a = some x → x < 0 → (∀ k : Nat, x ≠ -2 ^ k) → UStep ρ (.isPow2 a) [-1] ρ

/-- Calls of whose outcome less is stated: the coefficients of `mp_int_egcd` are those of some linear
combination; the result of `mp_int_string_len` is an upper bound. -/
inductive NStep (ρ : Nat → Option Int) : Call → List Int → (Nat → Option Int) → Prop
  | egcd {a b c x y w X Y P R} : ρ a = some x → ρ b = some y → ρ c = some w → x ≠ 0 → y ≠ 0 → HasOpt ρ X → HasOpt ρ Y →
      X ≠ none ∨ Y ≠ none → (Int.gcd x y : Int) = |x| * P + |y| * R →
      NStep ρ (.egcd a b c X Y) [MP_OK] (put (putOpt (putOpt ρ X P) Y R) c (Int.gcd x y))
  | stringLen {a r x} {n : Int} : ρ a = some x → 2 ≤ r → r ≤ 36 → (numeral r x).length ≤ n → NStep ρ (.stringLen a r) [n] ρ

/-- Admissible calls and their outcomes. -/
def Step (ρ : Nat → Option Int) (c : Call) (out : List Int) (ρ' : Nat → Option Int) : Prop :=
  DStep ρ c out ρ' ∨ UStep ρ c out ρ' ∨ NStep ρ c out ρ'

/-- A program: what is called next may depend on what was returned. -/
inductive Prog where
  | done
  | call (c : Call) (k : List Int → Prog)

/-- Perform a program; the result lists what was returned by the calls. -/
def Prog.exec : Prog → M (List (List Int))
  | .done => pure []
  | .call c k => do
    let out ← c.exec
    let rest ← (k out).exec
    pure (out :: rest)

/-- The program makes admissible calls only, whatever its calls return. -/
inductive Admissible : (Nat → Option Int) → Prog → Prop
  | done {ρ} : Admissible ρ .done
  | call {ρ c k} : (∃ out ρ', Step ρ c out ρ') → (∀ out ρ', Step ρ c out ρ' → Admissible ρ' (k out)) → Admissible ρ (.call c k)

/-- `Leads ρ p outs ρ'`: started with the values `ρ`, the program may return `outs` and leave the values `ρ'`. -/
inductive Leads : (Nat → Option Int) → Prog → List (List Int) → (Nat → Option Int) → Prop
  | done {ρ} : Leads ρ .done [] ρ
  | call {ρ c k out ρ' outs ρ''} : Step ρ c out ρ' → Leads ρ' (k out) outs ρ'' → Leads ρ (.call c k) (out :: outs) ρ''

/-- The same for programs all of whose calls have a determined outcome. -/
inductive DLeads : (Nat → Option Int) → Prog → List (List Int) → (Nat → Option Int) → Prop
  | done {ρ} : DLeads ρ .done [] ρ
  | call {ρ c k out ρ' outs ρ''} : DStep ρ c out ρ' → DLeads ρ' (k out) outs ρ'' → DLeads ρ (.call c k) (out :: outs) ρ''

end Imath
