import Verif.Model.Mem
import Mathlib.Data.Nat.Digits.Defs

/-!
# What the theorems talk about

This file states what it means that memory represents integers, and what it means that a call
succeeds.  It uses the memory model (`Mem`, `Out`) but none of the modelled functions, and none of
the auxiliary notions used in the proofs.
-/

namespace Imath

/-- The `mpz_t` object `z` is initialised, canonical, and has the value `v`: its `digits` member
points to the start of a block of `alloc` 32-bit digits, of which the first `used` ones are the
base 2^32 representation (least significant digit first) of the magnitude of `v`; there is at least
one digit, no leading zero digit, and zero is not negative. -/
def Holds (m : Mem) (z : Id) (v : Int) : Prop :=
  ∃ (Z : Mpz) (p : Ptr) (l : List Nat),
    m.int z = some Z ∧ Z.digits = some p ∧ p.off = 0 ∧ m.dig p.base = some l ∧
    Z.alloc = l.length ∧ l.length ≤ MAXD ∧ (∀ d ∈ l, d < 2 ^ 32) ∧
    1 ≤ Z.used ∧ Z.used ≤ l.length ∧ (1 < Z.used → l[Z.used - 1]? ≠ some 0) ∧
    v = (if Z.neg then -1 else 1) * ((Nat.ofDigits (2 ^ 32) (l.take Z.used) : Nat) : Int) ∧
    (Z.neg = true → v ≠ 0)

/-- `ρ` gives the values of the initialised variables of the program; `m` is a memory in which these
variables hold these values, and which contains nothing else of relevance. -/
structure State (m : Mem) (ρ : Nat → Option Int) : Prop where
  /-- every initialised variable is canonical and has its value -/
  holds : ∀ {n v}, ρ n = some v → Holds m (.var n) v
  /-- its digits are its own `single` digit or a block of the heap -/
  place : ∀ {n v Z p}, ρ n = some v → m.int (.var n) = some Z → Z.digits = some p →
    p.base = .single (.var n) ∨ ∃ k, p.base = .heap k
  /-- no two initialised variables share digits -/
  sep : ∀ {n v Z p n' v' Z' p'}, ρ n = some v → m.int (.var n) = some Z → Z.digits = some p →
    ρ n' = some v' → m.int (.var n') = some Z' → Z'.digits = some p' → p.base = p'.base → n = n'
  /-- every live block of the heap belongs to an initialised variable: nothing has leaked -/
  noleak : ∀ {k l}, m.dig (.heap k) = some l →
    ∃ n v Z p, ρ n = some v ∧ m.int (.var n) = some Z ∧ Z.digits = some p ∧ p.base = .heap k
  /-- every variable is declared, initialised or not -/
  decl : ∀ n, (∃ Z, m.int (.var n) = some Z) ∧ ∃ d, m.dig (.single (.var n)) = some [d]
  /-- identities that have not been drawn are not in use -/
  fresh : ∀ k, m.next ≤ k → m.dig (.heap k) = none ∧ m.dig (.stack k) = none
  /-- the tuning parameters have admissible values -/
  prec : 1 ≤ m.defPrec ∧ m.defPrec < 2 ^ 32 - 1
  thr : 8 ≤ m.mulThr

/-- `ρ` with the value of `n` changed. -/
def put (ρ : Nat → Option Int) (n : Nat) (v : Int) : Nat → Option Int :=
  fun n' => if n' = n then some v else ρ n'

/-- `ρ` with `n` no longer initialised. -/
def del (ρ : Nat → Option Int) (n : Nat) : Nat → Option Int :=
  fun n' => if n' = n then none else ρ n'

/-- The call `f` in memory `m` terminates without undefined behaviour and without a failing
assertion, and its result and the memory afterwards satisfy `P` - unless the allocator refuses a
request, in which case the process aborts (the assertion in `s_alloc`/`s_realloc`). -/
def Runs {α : Type} (env : Env) (f : M α) (m : Mem) (P : α → Mem → Prop) : Prop :=
  match f env m with
  | .ok r m' => P r m'
  | .fault (.oom n) => ∃ j, env.grant j n = false
  | .fault _ => False

/-- The call `f` ends in the fault `e`. -/
def Faults {α : Type} (env : Env) (f : M α) (m : Mem) (e : Fault) : Prop := f env m = .fault e

/-- The call `f` ends in the fault `e`, unless the allocator refuses a request before. -/
def FaultsOr {α : Type} (env : Env) (f : M α) (m : Mem) (e : Fault) : Prop :=
  f env m = .fault e ∨ ∃ n, f env m = .fault (.oom n) ∧ ∃ j, env.grant j n = false

end Imath
