import Verif.SpecHistory
import Verif.SpecRatHistory
import Verif.SpecGmp
import Verif.SpecGmpStr
import Verif.SpecPrime
import Verif.Model.Gmp
import Verif.Model.Prime
import Verif.Model.Rsa

/-!
# Programs that use all interfaces of the library

As in `Verif/SpecHistory.lean`: an `XCall` is a call with concrete arguments, of a function of imath.h (`lib`), imrat.h (`rat`),
gmp_compat.h, iprime.h or rsamath.h; `XStep ρ c out ρ'` says in terms of integers and rational numbers that in a state in
which the variables have the values `ρ` the call is admissible, may return `out` and leaves the values `ρ'`.  `GStep` are the
calls whose outcome is determined, `GNStep` those of which less is stated.

A rational number is a pair of integer variables (`RVar`), as the structure `mpq_t` is; a program can therefore access
numerator and denominator with the functions for integers, which is what `mpq_numref` and `mpq_denref` are for.  The calls of
imrat.h are those of `Verif/SpecRatHistory.lean`; they are admissible if the variables are numbered as it is said there and the
initialised rational variables have rational numbers (fractions in lowest terms) as values, as all functions but
`mpq_set_str` and the functions for integers leave them.
-/

namespace Imath

/-- Calls of the interfaces. -/
inductive XCall where
  | lib (c : Call)
  | rat (c : QCall)
  -- gmp_compat.h, integers
  | zInit (c : Nat) | zClear (c : Nat) | zSet (c a : Nat) | zSetSi (c : Nat) (v : Int) | zSetUi (c v : Nat) | zSwap (a c : Nat)
  | zAbs (c a : Nat) | zNeg (c a : Nat) | zAdd (c a b : Nat) | zSub (c a b : Nat) | zMul (c a b : Nat)
  | zAddmul (c a b : Nat) | zSubmul (c a b : Nat) | zAddUi (c a u : Nat) | zSubUi (c a u : Nat) | zMulUi (c a u : Nat)
  | zPowUi (c a u : Nat) | zMul2exp (c a u : Nat) | zGcd (c a b : Nat) | zLcm (c a b : Nat)
  | zCdivQ (c a b : Nat) | zFdivQ (c a b : Nat) | zTdivQ (c a b : Nat) | zFdivR (c a b : Nat) | zFdivQUi (c a u : Nat)
  | zDivexact (c a b : Nat) | zDivexactUi (c a u : Nat) | zDivisible (a b : Nat)
  | zCmp (a b : Nat) | zCmpabs (a b : Nat) | zCmpSi (a : Nat) (v : Int) | zSgn (a : Nat) | zGetUi (a : Nat) | zGetSi (a : Nat)
  | zGetStr (a : Nat) (radix : Int) | zGetStrBuf (a : Nat) (radix : Int) (buf : Bytes) | zSetStr (c : Nat) (str : Bytes) (base : Int)
  | zSizeinbase (a : Nat) (base : Int)
  | zExport (a : Nat) (rop : Option Bytes) (order : Int) (size : Nat) (endian : Int)
  | zImport (c count : Nat) (order : Int) (size : Nat) (endian : Int) (op : Bytes)
  -- gmp_compat.h, rational numbers
  | qInit (d : RVar) | qClear (d : RVar) | qSet (d s : RVar) | qMul (d s t : RVar) | qSetUi (d : RVar) (u v : Nat) | qCanon (d : RVar)
  | qCmp (s t : RVar) | qSgn (s : RVar) | qGetStrBuf (s : RVar) (radix : Int) (buf : Bytes) | qSetStr (d : RVar) (str : Bytes) (base : Int)
  -- iprime.h
  | isPrime (a : Nat) | findPrime (a : Nat)
  -- rsamath.h
  | rsa (k : Fin 4) (a b n c : Nat) | rsaMaxLen (a : Nat)
  | i2osp (a : Nat) (buf : Bytes) (len : Int) | os2ip (c : Nat) (buf : Bytes) (len : Int)
  | encode (buf : Bytes) (msgLen bufLen tag : Int) (filler : Int → Bytes) | decode (buf : Bytes) (bufLen tag : Int)

/-- Bytes among the results. -/
def outBs (l : Bytes) : List Int := l.map fun (b : Nat) => (b : Int)

/-- The four RSA primitives. -/
def rsaFn (k : Fin 4) : Id → Id → Id → Id → M Int := match k with
  | 0 => rsa_rsaep
  | 1 => rsa_rsadp
  | 2 => rsa_rsasp
  | 3 => rsa_rsavp

/-- Perform a call.  The text in an array that `impz_get_str` has allocated is observed up to its terminator, as is that of
`impq_get_str` (which may change the case of two characters after the terminator, see `C75_q_get_str_partial`). -/
def XCall.exec : XCall → M (List Int)
  | .lib c => c.exec
  | .rat c => c.exec
  | .zInit c => do let _ ← impz_init (.var c); pure []
  | .zClear c => do let _ ← impz_clear (.var c); pure []
  | .zSet c a => do let _ ← impz_set (.var c) (.var a); pure []
  | .zSetSi c v => do let _ ← impz_set_si (.var c) v; pure []
  | .zSetUi c v => do let _ ← impz_set_ui (.var c) v; pure []
  | .zSwap a c => do let _ ← impz_swap (.var a) (.var c); pure []
  | .zAbs c a => do let _ ← impz_abs (.var c) (.var a); pure []
  | .zNeg c a => do let _ ← impz_neg (.var c) (.var a); pure []
  | .zAdd c a b => do let _ ← impz_add (.var c) (.var a) (.var b); pure []
  | .zSub c a b => do let _ ← impz_sub (.var c) (.var a) (.var b); pure []
  | .zMul c a b => do let _ ← impz_mul (.var c) (.var a) (.var b); pure []
  | .zAddmul c a b => do let _ ← impz_addmul (.var c) (.var a) (.var b); pure []
  | .zSubmul c a b => do let _ ← impz_submul (.var c) (.var a) (.var b); pure []
  | .zAddUi c a u => do let _ ← impz_add_ui (.var c) (.var a) u; pure []
  | .zSubUi c a u => do let _ ← impz_sub_ui (.var c) (.var a) u; pure []
  | .zMulUi c a u => do let _ ← impz_mul_ui (.var c) (.var a) u; pure []
  | .zPowUi c a u => do let _ ← impz_pow_ui (.var c) (.var a) u; pure []
  | .zMul2exp c a u => do let _ ← impz_mul_2exp (.var c) (.var a) u; pure []
  | .zGcd c a b => do let _ ← impz_gcd (.var c) (.var a) (.var b); pure []
  | .zLcm c a b => do let _ ← impz_lcm (.var c) (.var a) (.var b); pure []
  | .zCdivQ c a b => do let _ ← impz_cdiv_q (.var c) (.var a) (.var b); pure []
  | .zFdivQ c a b => do let _ ← impz_fdiv_q (.var c) (.var a) (.var b); pure []
  | .zTdivQ c a b => do let _ ← impz_tdiv_q (.var c) (.var a) (.var b); pure []
  | .zFdivR c a b => do let _ ← impz_fdiv_r (.var c) (.var a) (.var b); pure []
  | .zFdivQUi c a u => do let r ← impz_fdiv_q_ui (.var c) (.var a) u; pure [(r : Int)]
  | .zDivexact c a b => do let _ ← impz_divexact (.var c) (.var a) (.var b); pure []
  | .zDivexactUi c a u => do let _ ← impz_divexact_ui (.var c) (.var a) u; pure []
  | .zDivisible a b => do let r ← impz_divisible_p (.var a) (.var b); pure [r]
  | .zCmp a b => do let r ← impz_cmp (.var a) (.var b); pure [r]
  | .zCmpabs a b => do let r ← impz_cmpabs (.var a) (.var b); pure [r]
  | .zCmpSi a v => do let r ← impz_cmp_si (.var a) v; pure [r]
  | .zSgn a => do let r ← impz_sgn (.var a); pure [r]
  | .zGetUi a => do let r ← impz_get_ui (.var a); pure [(r : Int)]
  | .zGetSi a => do let r ← impz_get_si (.var a); pure [r]
  | .zGetStr a radix => do let s ← impz_get_str none radix (.var a); pure (outBs (s.takeWhile (· ≠ 0)))
  | .zGetStrBuf a radix buf => do let s ← impz_get_str (some buf) radix (.var a); pure (outBs s)
  | .zSetStr c str base => do let r ← impz_set_str (.var c) str base; pure [r]
  | .zSizeinbase a base => do let r ← impz_sizeinbase (.var a) base; pure [(r : Int)]
  | .zExport a rop order size endian => do
    let r ← impz_export rop order size endian 0 (.var a)
    pure ((r.2 : Int) :: outBs (r.1.getD []))
  | .zImport c count order size endian op => do let _ ← impz_import (.var c) count order size endian 0 (some op); pure []
  | .qInit d => do let _ ← impq_init d.p; pure []
  | .qClear d => do let _ ← impq_clear d.p; pure []
  | .qSet d s => do let _ ← impq_set d.p s.p; pure []
  | .qMul d s t => do let _ ← impq_mul d.p s.p t.p; pure []
  | .qSetUi d u v => do let _ ← impq_set_ui d.p u v; pure []
  | .qCanon d => do let _ ← impq_canonicalize d.p; pure []
  | .qCmp s t => do let r ← impq_cmp s.p t.p; pure [r]
  | .qSgn s => do let r ← impq_sgn s.p; pure [r]
  | .qGetStrBuf s radix buf => do let r ← impq_get_str (some buf) radix s.p; pure (outBs (r.takeWhile (· ≠ 0)))
  | .qSetStr d str base => do let r ← impq_set_str d.p str base; pure [r]
  | .isPrime a => do let r ← mp_int_is_prime (.var a); pure [r]
  | .findPrime a => do let r ← mp_int_find_prime (.var a); pure [r]
  | .rsa k a b n c => do let r ← rsaFn k (.var a) (.var b) (.var n) (.var c); pure [r]
  | .rsaMaxLen a => do let r ← rsa_max_message_len (.var a); pure [r]
  | .i2osp a buf len => do let p ← rsa_i2osp (.var a) buf len; pure (outB p)
  | .os2ip c buf len => do let p ← rsa_os2ip (.var c) buf len; pure (outB p)
  | .encode buf msgLen bufLen tag filler => do let p ← rsa_pkcs1v15_encode buf msgLen bufLen tag filler; pure (outB p)
  | .decode buf bufLen tag => do let p ← rsa_pkcs1v15_decode buf bufLen tag; pure (p.1 :: p.2.2.toList ++ outBs p.2.1)

/-- The integers a call of imrat.h may change. -/
def QCall.outs : QCall → List Nat
  | .init c | .initSize c _ _ | .initCopy c _ | .clear c | .setValue c _ _ | .setUvalue c _ _ | .copy _ c | .zero c | .abs _ c
  | .neg _ c | .recip _ c | .add _ _ c | .sub _ _ c | .mul _ _ c | .div _ _ c | .addInt _ _ c | .subInt _ _ c | .mulInt _ _ c
  | .divInt _ _ c | .expt _ _ c | .reduce c | .readCstring c _ _ | .readCdecimal c _ _ | .readString c _ _
  | .readDecimal c _ _ | .readUstring c _ _ => [(rv c).num, (rv c).den]
  | .numer _ i | .denom _ i => [iv i]
  | .int c => c.outs
  | _ => []

/-- The variables a call may change. -/
def XCall.outs : XCall → List Nat
  | .lib c => c.outs
  | .rat c => c.outs
  | .zInit c | .zClear c | .zSet c _ | .zSetSi c _ | .zSetUi c _ | .zAbs c _ | .zNeg c _ | .zAdd c _ _ | .zSub c _ _ | .zMul c _ _
  | .zAddmul c _ _ | .zSubmul c _ _ | .zAddUi c _ _ | .zSubUi c _ _ | .zMulUi c _ _ | .zPowUi c _ _ | .zMul2exp c _ _ | .zGcd c _ _
  | .zLcm c _ _ | .zCdivQ c _ _ | .zFdivQ c _ _ | .zTdivQ c _ _ | .zFdivR c _ _ | .zFdivQUi c _ _ | .zDivexact c _ _
  | .zDivexactUi c _ _ | .zSetStr c _ _ | .zImport c _ _ _ _ _ | .findPrime c | .rsa _ _ _ _ c | .os2ip c _ _ => [c]
  | .zSwap a c => [a, c]
  | .qInit d | .qClear d | .qSet d _ | .qMul d _ _ | .qSetUi d _ _ | .qCanon d | .qSetStr d _ _ => [d.num, d.den]
  | _ => []

/-- The estimated length of the numeral is enough: for all numbers in some radices, for numbers below 13^5458 in the others. -/
def TextOk (r : Nat) (x : Int) : Prop :=
  (r ∈ [2, 3, 4, 9, 10, 12, 15, 16, 18, 21, 24, 26, 27, 28, 31, 32, 35, 36] ∨ |x| < 13 ^ 5458) ∧ Nat.size x.natAbs ≤ 2 ^ 25

open Classical in
/-- Calls whose outcome is determined. -/
inductive GStep (ρ : Nat → Option Int) : XCall → List Int → (Nat → Option Int) → Prop
  | zInit {c} : ρ c = none → GStep ρ (.zInit c) [] (put ρ c 0)
  | zClear {c w} : ρ c = some w → GStep ρ (.zClear c) [] (del ρ c)
  | zSet {c a x w} : ρ a = some x → ρ c = some w → GStep ρ (.zSet c a) [] (put ρ c x)
  | zSetSi {c v w} : ρ c = some w → Small v → GStep ρ (.zSetSi c v) [] (put ρ c v)
  | zSetUi {c v w} : ρ c = some w → v < 2 ^ 64 → GStep ρ (.zSetUi c v) [] (put ρ c v)
  | zSwap {a c x y} : ρ a = some x → ρ c = some y → GStep ρ (.zSwap a c) [] (put (put ρ a y) c x)
  | zAbs {c a x w} : ρ a = some x → ρ c = some w → GStep ρ (.zAbs c a) [] (put ρ c |x|)
  | zNeg {c a x w} : ρ a = some x → ρ c = some w → GStep ρ (.zNeg c a) [] (put ρ c (-x))
  | zAdd {c a b x y w} : ρ a = some x → ρ b = some y → ρ c = some w → GStep ρ (.zAdd c a b) [] (put ρ c (x + y))
  | zSub {c a b x y w} : ρ a = some x → ρ b = some y → ρ c = some w → GStep ρ (.zSub c a b) [] (put ρ c (x - y))
  | zMul {c a b x y w} : ρ a = some x → ρ b = some y → ρ c = some w → GStep ρ (.zMul c a b) [] (put ρ c (x * y))
  | zAddmul {c a b x y w} : ρ a = some x → ρ b = some y → ρ c = some w → GStep ρ (.zAddmul c a b) [] (put ρ c (w + x * y))
  | zSubmul {c a b x y w} : ρ a = some x → ρ b = some y → ρ c = some w → GStep ρ (.zSubmul c a b) [] (put ρ c (w - x * y))
  | zAddUi {c a u x w} : ρ a = some x → ρ c = some w → u < 2 ^ 64 → GStep ρ (.zAddUi c a u) [] (put ρ c (x + u))
  | zSubUi {c a u x w} : ρ a = some x → ρ c = some w → u < 2 ^ 64 → GStep ρ (.zSubUi c a u) [] (put ρ c (x - u))
  | zMulUi {c a u x w} : ρ a = some x → ρ c = some w → u < 2 ^ 64 → GStep ρ (.zMulUi c a u) [] (put ρ c (x * u))
  | zPowUi {c a u x w} : ρ a = some x → ρ c = some w → u < 2 ^ 64 → GStep ρ (.zPowUi c a u) [] (put ρ c (x ^ u))
  | zMul2exp {c a u x w} : ρ a = some x → ρ c = some w → x = 0 ∨ u < 2 ^ 32 → GStep ρ (.zMul2exp c a u) [] (put ρ c (x * 2 ^ u))
  | zGcd {c a b x y w} : ρ a = some x → ρ b = some y → ρ c = some w → GStep ρ (.zGcd c a b) [] (put ρ c (Int.gcd x y))
  | zLcm {c a b x y w} : ρ a = some x → ρ b = some y → ρ c = some w → GStep ρ (.zLcm c a b) [] (put ρ c (Int.lcm x y))
  | zCdivQ {c a b x y w} : ρ a = some x → ρ b = some y → ρ c = some w → y ≠ 0 → GStep ρ (.zCdivQ c a b) [] (put ρ c ⌈(x : ℚ) / y⌉)
  | zFdivQ {c a b x y w} : ρ a = some x → ρ b = some y → ρ c = some w → y ≠ 0 → GStep ρ (.zFdivQ c a b) [] (put ρ c ⌊(x : ℚ) / y⌋)
  | zTdivQ {c a b x y w} : ρ a = some x → ρ b = some y → ρ c = some w → y ≠ 0 → GStep ρ (.zTdivQ c a b) [] (put ρ c (x.tdiv y))
  | zFdivR {c a b x y w} : ρ a = some x → ρ b = some y → ρ c = some w → y ≠ 0 →
      GStep ρ (.zFdivR c a b) [] (put ρ c (x - ⌊(x : ℚ) / y⌋ * y))
  | zFdivQUi {c a u x w} : ρ a = some x → ρ c = some w → u < 2 ^ 64 → u ≠ 0 →
      GStep ρ (.zFdivQUi c a u) [x - ⌊(x : ℚ) / u⌋ * u] (put ρ c ⌊(x : ℚ) / u⌋)
  | zDivexact {c a b v y w} : ρ a = some (y * v) → ρ b = some y → ρ c = some w → y ≠ 0 → GStep ρ (.zDivexact c a b) [] (put ρ c v)
  | zDivexactUi {c a v w} {u : Nat} : ρ a = some (u * v) → ρ c = some w → u < 2 ^ 64 → u ≠ 0 →
      GStep ρ (.zDivexactUi c a u) [] (put ρ c v)
  | zDivisible {a b x y} : ρ a = some x → ρ b = some y → GStep ρ (.zDivisible a b) [if y ∣ x then 1 else 0] ρ
  | zCmp {a b x y} : ρ a = some x → ρ b = some y → GStep ρ (.zCmp a b) [cmp3 x y] ρ
  | zCmpabs {a b x y} : ρ a = some x → ρ b = some y → GStep ρ (.zCmpabs a b) [cmp3 |x| |y|] ρ
  | zCmpSi {a v x} : ρ a = some x → -2 ^ 63 ≤ v → v < 2 ^ 63 → GStep ρ (.zCmpSi a v) [cmp3 x v] ρ
  | zSgn {a x} : ρ a = some x → GStep ρ (.zSgn a) [cmp3 x 0] ρ
  | zGetUi {a x} : ρ a = some x → GStep ρ (.zGetUi a) [(x.natAbs % 2 ^ 64 : Nat)] ρ
  | zGetSi {a x} : ρ a = some x → x ≠ -2 ^ 63 → GStep ρ (.zGetSi a) [siOf x] ρ
  | zGetStr {a x} {radix : Int} : ρ a = some x → 2 ≤ radix.natAbs → radix.natAbs ≤ 36 → TextOk radix.natAbs x →
      GStep ρ (.zGetStr a radix) (outBs (gmpCase radix (numeral radix.natAbs x))) ρ
  | zGetStrBuf {a x} {radix : Int} {buf : Bytes} : ρ a = some x → 2 ≤ radix.natAbs → radix.natAbs ≤ 36 → TextOk radix.natAbs x →
      (numeral radix.natAbs x).length + 1 ≤ buf.length →
      GStep ρ (.zGetStrBuf a radix buf)
        (outBs (gmpCase radix (numeral radix.natAbs x) ++ 0 :: buf.drop ((numeral radix.natAbs x).length + 1))) ρ
  | zSetStr {c w} {base : Int} {A R : Bytes} : ρ c = some w → 2 ≤ base → base ≤ 36 → 0 ∉ A → A.length ≤ 800000000 →
      GStep ρ (.zSetStr c (A ++ 0 :: R) base) [if (gmpScan base.toNat A).2 then 0 else -1] (put ρ c (gmpScan base.toNat A).1)
  | zSizeinbaseZero {a base} : ρ a = some 0 → GStep ρ (.zSizeinbase a base) [1] ρ
  | zSizeinbasePow2 {a x base} {k : Nat} : ρ a = some x → x ≠ 0 → base = 2 ^ k → 1 ≤ k → k ≤ 5 → k ≠ 3 ∨ |x| < 13 ^ 5458 →
      GStep ρ (.zSizeinbase a base) [(numeralN (2 ^ k) x.natAbs).length] ρ
  | zExport {a x} {order endian : Int} {size count : Nat} {buf : Bytes} : ρ a = some x → x ≠ 0 → order = 1 ∨ order = -1 →
      endian = 1 ∨ endian = 0 ∨ endian = -1 → 1 ≤ size → size < 2 ^ 62 → 1 ≤ count → Encodes order endian size count buf x.natAbs →
      256 ^ ((count - 1) * size) ≤ x.natAbs → buf.length = count * size → GStep ρ (.zExport a none order size endian) (count :: outBs buf) ρ
  | zExportBuf {a x} {order endian : Int} {size count : Nat} {b buf : Bytes} : ρ a = some x → x ≠ 0 → order = 1 ∨ order = -1 →
      endian = 1 ∨ endian = 0 ∨ endian = -1 → 1 ≤ size → size < 2 ^ 62 → 1 ≤ count → Encodes order endian size count buf x.natAbs →
      256 ^ ((count - 1) * size) ≤ x.natAbs → buf.length = b.length → (∀ p, count * size ≤ p → buf[p]? = b[p]?) →
      GStep ρ (.zExport a (some b) order size endian) (count :: outBs buf) ρ
  | zImport {c w} {order endian : Int} {size count : Nat} {op : Bytes} : ρ c = some w → order = 1 ∨ order = -1 →
      endian = 1 ∨ endian = 0 ∨ endian = -1 → 1 ≤ size → 1 ≤ count → count * size ≤ 2 ^ 34 - 8 →
      (∀ i < count * size, ∃ x < 256, op[i]? = some x) →
      GStep ρ (.zImport c count order size endian op) [] (put ρ c (arrVal order endian size count op))
  | qInit {d : RVar} : d.num ≠ d.den → ρ d.num = none → ρ d.den = none → GStep ρ (.qInit d) [] (putQ ρ d 0)
  | qClear {d} : ReadyQ ρ d → GStep ρ (.qClear d) [] (del (del ρ d.num) d.den)
  | qSet {d s p} : HasQ ρ s p → ReadyQ ρ d → SepV s d → GStep ρ (.qSet d s) [] (putQ ρ d p)
  | qMul {d s t p q} : HasQ ρ s p → HasQ ρ t q → ReadyQ ρ d → SepV s d → SepV t d → GStep ρ (.qMul d s t) [] (putQ ρ d (p * q))
  | qSetUi {d} {u v : Nat} : ReadyQ ρ d → u < 2 ^ 64 → v < 2 ^ 64 → v ≠ 0 → GStep ρ (.qSetUi d u v) [] (putQ ρ d ((u : ℚ) / v))
  | qCanon {d : RVar} {x y} : d.num ≠ d.den → ρ d.num = some x → ρ d.den = some y → y ≠ 0 →
      GStep ρ (.qCanon d) [] (putQ ρ d ((x : ℚ) / y))
  | qCmp {s t p q} : HasQ ρ s p → HasQ ρ t q → GStep ρ (.qCmp s t) [cmp3Q p q] ρ
  | qSgn {s p} : HasQ ρ s p → GStep ρ (.qSgn s) [cmp3Q p 0] ρ
  | qGetStrBuf {s p} {radix : Int} {buf : Bytes} : HasQ ρ s p → 2 ≤ radix.natAbs → radix.natAbs ≤ 36 →
      TextOk radix.natAbs p.num → TextOk radix.natAbs p.den → (gmpText radix.natAbs p).length + 3 ≤ buf.length →
      (∀ c ∈ (buf.drop ((gmpText radix.natAbs p).length + 1)).take 2, c < 128) →
      GStep ρ (.qGetStrBuf s radix buf) (outBs (gmpCase radix (gmpText radix.natAbs p))) ρ
  | qSetStr {d} {base : Int} {A R : Bytes} : ReadyQ ρ d → 2 ≤ base → base ≤ 36 → 0 ∉ A → A.length ≤ 800000000 →
      GStep ρ (.qSetStr d (A ++ 0 :: R) base) [if (gmpScanQ base.toNat A).2.2 then 0 else -1]
        (put (put ρ d.num (gmpScanQ base.toNat A).1) d.den (gmpScanQ base.toNat A).2.1)
  | isPrime {a x} : ρ a = some x → GStep ρ (.isPrime a) [if Accepted x then MP_TRUE else MP_FALSE] ρ
  | findPrime {a x w} : ρ a = some x → 3 ≤ x → x ≤ w → Accepted w → (∀ u, x ≤ u → u < w → ¬ Accepted u) →
      GStep ρ (.findPrime a) [MP_TRUE] (put ρ a w)
  | findPrimeLow {a x} : ρ a = some x → x ≤ 2 → GStep ρ (.findPrime a) [MP_TRUE] (put ρ a 3)
  | rsa {k a b n c x y v w} : ρ a = some x → ρ b = some y → ρ n = some v → ρ c = some w → 0 ≤ x → x < v → 0 ≤ y → v ≠ 1 →
      GStep ρ (.rsa k a b n c) [MP_OK] (put ρ c (x ^ y.toNat % v))
  | rsaRange {k a b n c x y v w} : ρ a = some x → ρ b = some y → ρ n = some v → ρ c = some w → x < 0 ∨ v ≤ x ∨ y < 0 →
      GStep ρ (.rsa k a b n c) [MP_RANGE] ρ
  | rsaMaxLen {a x} : ρ a = some x → GStep ρ (.rsaMaxLen a) [(Nat.size x.natAbs / 8 - 11 : Nat)] ρ
  | i2osp {a x} {buf X : Bytes} : ρ a = some x → 0 ≤ x → binLen x ≤ buf.length → X.length = binLen x → (∀ b ∈ X, b < 256) →
      (beVal X : Int) = x → GStep ρ (.i2osp a buf (binLen x)) (outB (MP_OK, X ++ buf.drop (binLen x))) ρ
  | i2ospLonger {a x buf len} : ρ a = some x → (binLen x : Int) < len → GStep ρ (.i2osp a buf len) (outB (MP_RANGE, buf)) ρ
  | os2ip {c w} {X R : Bytes} : ρ c = some w → (∀ b ∈ X, b < 256) → 1 ≤ X.length → X.length < 2 ^ 28 →
      GStep ρ (.os2ip c (X ++ R) X.length) (outB (MP_OK, X ++ R)) (put ρ c (twosVal X))
  | encode {msg mid rest : Bytes} {tag : Int} {filler : Int → Bytes} : (∀ k : Int, 0 ≤ k → (filler k).length = k) → 11 ≤ mid.length →
      msg.length + mid.length < 2 ^ 31 →
      GStep ρ (.encode (msg ++ mid ++ rest) msg.length (msg ++ mid).length tag filler)
        (outB (MP_OK, [0, (tag % 256).toNat] ++ filler (mid.length - 3) ++ [0] ++ msg ++ rest)) ρ
  | encodeRange {buf : Bytes} {msgLen bufLen tag : Int} {filler : Int → Bytes} : bufLen - 11 < msgLen → 0 ≤ bufLen → bufLen < 2 ^ 31 →
      GStep ρ (.encode buf msgLen bufLen tag filler) (outB (MP_RANGE, buf)) ρ
  | decode {pad msg rest : Bytes} {tag : Int} : (∀ x ∈ pad, x ≠ 0) → 8 ≤ pad.length + msg.length → pad.length + msg.length + 3 < 2 ^ 31 →
      GStep ρ (.decode ([0, (tag % 256).toNat] ++ pad ++ [0] ++ msg ++ rest) (pad.length + msg.length + 3) tag)
        (MP_OK :: (msg.length : Int) :: outBs (msg ++ List.replicate (pad.length + 3) 0 ++ rest)) ρ
  | decodeBad {buf : Bytes} {bufLen tag : Int} : bufLen ≤ buf.length →
      bufLen < 11 ∨ buf[0]? ≠ some 0 ∨ buf[1]? ≠ some (tag % 256).toNat → GStep ρ (.decode buf bufLen tag) (MP_UNDEF :: outBs buf) ρ

/-- Calls of whose outcome less is stated: `impz_sizeinbase` returns the number of digits or one more. -/
inductive GNStep (ρ : Nat → Option Int) : XCall → List Int → (Nat → Option Int) → Prop
  | zSizeinbase {a x r} {base : Int} : ρ a = some x → x ≠ 0 → 2 ≤ base → base ≤ 36 → TextOk base.toNat x →
      r = (numeralN base.toNat x.natAbs).length ∨ r = (numeralN base.toNat x.natAbs).length + 1 →
      GNStep ρ (.zSizeinbase a base) [(r : Int)] ρ

/-- Admissible calls and their outcomes. -/
inductive XStep (ρ : Nat → Option Int) : XCall → List Int → (Nat → Option Int) → Prop
  | lib {c out ρ'} : Step ρ c out ρ' → XStep ρ (.lib c) out ρ'
  | rat {κ ι c out κ' ι'} : ρ = flat κ ι → QStep κ ι c out κ' ι' → XStep ρ (.rat c) out (flat κ' ι')
  | det {c out ρ'} : GStep ρ c out ρ' → XStep ρ c out ρ'
  | nondet {c out ρ'} : GNStep ρ c out ρ' → XStep ρ c out ρ'

/-- A program: what is called next may depend on what was returned. -/
inductive XProg where
  | done
  | call (c : XCall) (k : List Int → XProg)

/-- Perform a program; the result lists what was returned by the calls. -/
def XProg.exec : XProg → M (List (List Int))
  | .done => pure []
  | .call c k => do
    let out ← c.exec
    let rest ← (k out).exec
    pure (out :: rest)

/-- The program makes admissible calls only, whatever its calls return. -/
inductive XAdmissible : (Nat → Option Int) → XProg → Prop
  | done {ρ} : XAdmissible ρ .done
  | call {ρ c k} : (∃ out ρ', XStep ρ c out ρ') → (∀ out ρ', XStep ρ c out ρ' → XAdmissible ρ' (k out)) → XAdmissible ρ (.call c k)

/-- `XLeads ρ p outs ρ'`: started with the values `ρ`, the program may return `outs` and leave the values `ρ'`. -/
inductive XLeads : (Nat → Option Int) → XProg → List (List Int) → (Nat → Option Int) → Prop
  | done {ρ} : XLeads ρ .done [] ρ
  | call {ρ c k out ρ' outs ρ''} : XStep ρ c out ρ' → XLeads ρ' (k out) outs ρ'' → XLeads ρ (.call c k) (out :: outs) ρ''

/-- The same for programs all of whose calls have a determined outcome. -/
inductive XDLeads : (Nat → Option Int) → XProg → List (List Int) → (Nat → Option Int) → Prop
  | done {ρ} : XDLeads ρ .done [] ρ
  | lib {ρ c k out ρ' outs ρ''} : DStep ρ c out ρ' → XDLeads ρ' (k out) outs ρ'' → XDLeads ρ (.call (.lib c) k) (out :: outs) ρ''
  | rat {ρ κ ι c k out κ' ι' outs ρ''} : ρ = flat κ ι → QStep κ ι c out κ' ι' → c.Fixed →
      XDLeads (flat κ' ι') (k out) outs ρ'' → XDLeads ρ (.call (.rat c) k) (out :: outs) ρ''
  | call {ρ c k out ρ' outs ρ''} : GStep ρ c out ρ' → XDLeads ρ' (k out) outs ρ'' → XDLeads ρ (.call c k) (out :: outs) ρ''

end Imath
