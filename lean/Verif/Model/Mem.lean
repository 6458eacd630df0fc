/-!
# Level 0: the C memory model

This file is the only part of the model which does not transcribe a particular function: it fixes
what a digit buffer, an `mpz_t`, an allocation and a fault are.  See DESIGN.md.
-/

namespace Imath

/-- The digit radix 2^32 (`MP_DIGIT_MAX + 1`, imath.h:52-55). -/
notation "𝔹" => (4294967296 : Nat)

/-- Largest number of digits of a single allocation that malloc may grant (a model assumption,
DESIGN.md).  It keeps `32 * digits` below 2^31, hence in the range of `int`. -/
notation "MAXD" => (67108862 : Nat)

/-- Identity of an `mpz_t` object (imath.h:58-64): a variable of the caller, a temporary of a
library function (`DECLARE_TEMP`, imath.c:136-149), or a stack value filled in by `s_fake`
(imath.c:1739-1752) whose digits live in a caller-supplied array and must never be resized. -/
inductive Id where
  | var (n : Nat)
  | tmp (n : Nat)
  | fake (n : Nat)
deriving DecidableEq, Repr

/-- Everything but `fake` values owns its digit buffer. -/
def Id.own : Id → Bool
  | .fake _ => false
  | _ => true

/-- Storage blocks that hold digits: a malloc'ed block, the `single` member of an `mpz_t`
(imath.h:59), or a local array `mp_digit vbuf[...]`. -/
inductive Base where
  | heap (n : Nat)
  | single (z : Id)
  | stack (n : Nat)
deriving DecidableEq, Repr

/-- A pointer to a digit. -/
structure Ptr where
  base : Base
  off : Nat
deriving DecidableEq, Repr

/-- Pointer arithmetic `p + i`. -/
def Ptr.add (p : Ptr) (i : Nat) : Ptr := ⟨p.base, p.off + i⟩

/-- The members of `mpz_t` other than `single` (imath.h:58-64); `digits = none` is NULL,
`neg` is `sign == MP_NEG`. -/
structure Mpz where
  digits : Option Ptr
  alloc : Nat
  used : Nat
  neg : Bool
deriving DecidableEq, Repr

/-- Memory.  `dig b = none`: block `b` is not allocated.  `next` is a counter from which identities of
new objects are drawn.  `defPrec` and `mulThr` are the static variables `default_precision` and
`multiply_threshold` (imath.c:198-211). -/
structure Mem where
  dig : Base → Option (List Nat)
  int : Id → Option Mpz
  next : Nat
  defPrec : Nat
  mulThr : Nat

/-- Abnormal outcomes.  `oom n`: malloc or realloc refused a request for `n` digits and the
`assert(out != NULL)` of `s_alloc`/`s_realloc` (imath.c:1694, 1711) aborts.  `assert`: another
assertion failed.  `ub`: undefined behaviour.  `diverge`: a loop exceeded the fuel of the model. -/
inductive Fault where
  | oom (n : Nat)
  | assert
  | ub
  | diverge
deriving DecidableEq, Repr

inductive Out (α : Type) where
  | ok (a : α) (m : Mem)
  | fault (f : Fault)

/-- The environment: which allocations are granted, what new memory contains, and how a `double`
operation rounds.  All are arbitrary, except that a request above `MAXD` digits is never granted, and
that the relative error of a rounding is at most 2^-53 (only non-negative values occur, and they are in the
normal range). -/
structure Env where
  grant : Nat → Nat → Bool
  junk : Nat → Nat → Nat
  fl : Rat → Rat
  grant_le : ∀ k n, grant k n = true → n ≤ MAXD
  fl_err : ∀ x, 0 ≤ x → x - x / 9007199254740992 ≤ fl x ∧ fl x ≤ x + x / 9007199254740992

/-- A C computation. -/
def M (α : Type) : Type := Env → Mem → Out α

namespace M

def pure {α : Type} (a : α) : M α := fun _ m => .ok a m

def bind {α β : Type} (x : M α) (f : α → M β) : M β := fun env m =>
  match x env m with
  | .ok a m' => f a env m'
  | .fault f => .fault f

instance : Monad M where
  pure := M.pure
  bind := M.bind

end M

def fail {α : Type} (f : Fault) : M α := fun _ _ => .fault f

/-- `assert(c)` -/
def cassert (c : Bool) : M Unit := if c then pure () else fail .assert

/-- `if (c) x;` -/
def cwhen (c : Prop) [Decidable c] (x : M Unit) : M Unit := if c then x else pure ()

/-- `c ? x : y`, or an `if` statement whose branches assign the same variable -/
def cif {α : Type} (c : Prop) [Decidable c] (x y : M α) : M α := if c then x else y

def getMem : M Mem := fun _ m => .ok m m
def setMem (m : Mem) : M Unit := fun _ _ => .ok () m

/-- Conversion to `mp_size` (`unsigned int`). -/
def u32 (x : Nat) : Nat := x % 4294967296
/-- Conversion to `mp_word` or `mp_usmall` (64-bit unsigned). -/
def u64 (x : Nat) : Nat := x % 18446744073709551616
/-- Subtraction in `mp_size`. -/
def sub32 (x y : Nat) : Nat := u32 (x + 4294967296 - y)
/-- Subtraction in `mp_word`. -/
def sub64 (x y : Nat) : Nat := u64 (x + 18446744073709551616 - y)
/-- Conversion of an unsigned value to `int` (two's complement). -/
def toInt32 (x : Nat) : Int := if u32 x < 2147483648 then (u32 x : Int) else (u32 x : Int) - 4294967296

/-! ### Digit blocks -/

/-- The digit at index `i` of block `b`, if there is one. -/
def Mem.get (m : Mem) (b : Base) (i : Nat) : Option Nat :=
  match m.dig b with
  | some l => l[i]?
  | none => none

def Mem.setDig (m : Mem) (b : Base) (v : Option (List Nat)) : Mem :=
  { m with dig := fun b' => if b' = b then v else m.dig b' }

/-- `*p` -/
def rd (p : Ptr) : M Nat := fun _ m =>
  match m.get p.base p.off with
  | some x => .ok x m
  | none => .fault .ub

/-- `*p = x` -/
def wr (p : Ptr) (x : Nat) : M Unit := fun _ m =>
  match m.dig p.base with
  | some l => if p.off < l.length then .ok () (m.setDig p.base (some (l.set p.off x)))
      else .fault .ub
  | none => .fault .ub

/-- Arbitrary contents of a new block of `n` digits. -/
def junkBlock (env : Env) (k n : Nat) : List Nat := (List.range n).map fun i => env.junk k i % 𝔹

/-- `malloc` of `n` digits followed by `assert(out != NULL)`. -/
def mallocD (n : Nat) : M Ptr := fun env m =>
  if env.grant m.next n then
    .ok ⟨.heap m.next, 0⟩
      { m.setDig (.heap m.next) (some (junkBlock env m.next n)) with next := m.next + 1 }
  else .fault (.oom n)

/-- `free`; anything but the start of a live malloc'ed block is undefined behaviour. -/
def freeD (p : Ptr) : M Unit := fun _ m =>
  match p.base, p.off, m.dig p.base with
  | .heap n, 0, some _ => .ok () (m.setDig (.heap n) none)
  | _, _, _ => .fault .ub

/-- `realloc` to `n` digits followed by `assert(new != NULL)`.  The block always moves (the old
pointer becomes invalid), the common prefix is kept, the rest is arbitrary. -/
def reallocD (p : Ptr) (n : Nat) : M Ptr := fun env m =>
  match p.base, p.off, m.dig p.base with
  | .heap k, 0, some l =>
    if env.grant m.next n then
      .ok ⟨.heap m.next, 0⟩
        { (m.setDig (.heap k) none).setDig (.heap m.next)
            (some (l.take n ++ (junkBlock env m.next n).drop l.length)) with next := m.next + 1 }
    else .fault (.oom n)
  | _, _, _ => .fault .ub

/-! ### `mpz_t` objects -/

def Mem.setInt (m : Mem) (z : Id) (v : Option Mpz) : Mem :=
  { m with int := fun z' => if z' = z then v else m.int z' }

/-- Access to the members of `*z`. -/
def getI (z : Id) : M Mpz := fun _ m =>
  match m.int z with
  | some Z => .ok Z m
  | none => .fault .ub

def setI (z : Id) (f : Mpz → Mpz) : M Unit := fun _ m =>
  match m.int z with
  | some Z => .ok () (m.setInt z (some (f Z)))
  | none => .fault .ub

/-- `MP_USED(z)` (imath.h:68) -/
def MP_USED (z : Id) : M Nat := do return (← getI z).used
/-- `MP_ALLOC(z)` (imath.h:67) -/
def MP_ALLOC (z : Id) : M Nat := do return (← getI z).alloc
/-- `MP_SIGN(z)` (imath.h:69); `true` is `MP_NEG`. -/
def MP_SIGN (z : Id) : M Bool := do return (← getI z).neg
/-- `MP_DIGITS(z)` (imath.h:66).  Every use in the library goes on to access the digits, so a NULL
pointer is treated as a fault already here. -/
def MP_DIGITS (z : Id) : M Ptr := do
  match (← getI z).digits with
  | some p => return p
  | none => fail .ub

/-- `z->used = n` -/
def setUsed (z : Id) (n : Nat) : M Unit := setI z fun Z => { Z with used := n }
/-- `z->alloc = n` -/
def setAlloc (z : Id) (n : Nat) : M Unit := setI z fun Z => { Z with alloc := n }
/-- `z->sign = s` -/
def setSign (z : Id) (s : Bool) : M Unit := setI z fun Z => { Z with neg := s }
/-- `z->digits = p` -/
def setDigits (z : Id) (p : Option Ptr) : M Unit := setI z fun Z => { Z with digits := p }

/-- `&(z->single)` -/
def singlePtr (z : Id) : Ptr := ⟨.single z, 0⟩

/-- A new local `mpz_t` with arbitrary member values; the identity is drawn by `mk`. -/
def declInt (mk : Nat → Id) : M Id := fun env m =>
  .ok (mk m.next)
    { (m.setInt (mk m.next) (some ⟨some ⟨.heap (env.junk m.next 1), 0⟩, env.junk m.next 2,
          env.junk m.next 3, env.junk m.next 4 % 2 == 1⟩)).setDig (.single (mk m.next))
        (some [env.junk m.next 0 % 𝔹]) with next := m.next + 1 }

/-- The local `mpz_t` goes out of scope. -/
def dropInt (z : Id) : M Unit := fun _ m =>
  .ok () ((m.setInt z none).setDig (.single z) none)

/-- A new local array of `n` digits. -/
def declArr (n : Nat) : M Ptr := fun env m =>
  .ok ⟨.stack m.next, 0⟩
    { m.setDig (.stack m.next) (some (junkBlock env m.next n)) with next := m.next + 1 }

/-- The local array goes out of scope. -/
def dropArr (p : Ptr) : M Unit := fun _ m => .ok () (m.setDig p.base none)

/-! ### Result codes (imath.c:34-42) -/

def MP_OK : Int := 0
def MP_FALSE : Int := 0
def MP_TRUE : Int := -1
def MP_MEMORY : Int := -2
def MP_RANGE : Int := -3
def MP_UNDEF : Int := -4
def MP_TRUNC : Int := -5
def MP_BADARG : Int := -6
def MP_MINERR : Int := -6

/-- `LONG_MIN`, `LONG_MAX`, `ULONG_MAX` (imath.h:83-85, LP64) -/
notation "SMALL_MIN" => (-9223372036854775808 : Int)
notation "SMALL_MAX" => (9223372036854775807 : Int)
notation "USMALL_MAX" => (18446744073709551615 : Nat)

end Imath
