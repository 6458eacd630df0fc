import Verif.Model.Alloc
import Verif.Model.Keygen
import Verif.SpecConv

/-!
# Model of the calculator `examples/imcalc.c`

The program reads commands in reverse Polish notation from text.  A file is a list of characters, and the
end of the list is its end.  The arrays `elts`, `mem` and `names` are lists, as long as their used part; that
an index lies in the used part, or inside the array where an entry is added, is checked.  Since the request for a longer array may be refused (see
`Verif.Model.Alloc`), `used` and `mused` stay far below 2^31, and the arithmetic on indices does not overflow.
What is modelled of the output is what is written to `g_output_file`; messages on the standard error output are
not modelled.
-/

namespace Imath

/-- imcalc.c:49-64 `cstate_t`, with the rest of the input file instead of `ifp`, and with the radix
`g_output_radix` (0 for binary output) and what has been written to `g_output_file`.  `elts` lists the stack
from its top: `sp->elts[sp->used - 1 - k]` is element `k` of the list. -/
structure Calc where
  elts : List Id
  alloc : Nat
  mem : List (Bytes × Id)
  mslots : Nat
  ibuf : Bytes
  buflen : Nat
  inp : Bytes
  radix : Nat
  out : Bytes

/-- imcalc.c:193 `token_t` -/
inductive Token where
  | eof
  | symbol
  | number
  | error
deriving DecidableEq

/-- imcalc.c:190 `BUFFER_SIZE` -/
def BUFFER_SIZE : Nat := 16384

/-- imcalc.c:202 and 217 `MP_INPUT` -/
def MP_INPUT : Int := MP_MINERR - 1

/-- `ispunct` in the "C" locale -/
def ispunct (c : Nat) : Bool := (33 ≤ c ∧ c ≤ 47) ∨ (58 ≤ c ∧ c ≤ 64) ∨ (91 ≤ c ∧ c ≤ 96) ∨ (123 ≤ c ∧ c ≤ 126)

/-- `strcasecmp(s, t) == 0` -/
def caseEq (s t : Bytes) : Bool := s.map tolower = t.map tolower

/-- `malloc(n)` for an array of characters with arbitrary contents -/
def mallocB (n : Nat) : M Bytes := fun env m =>
  if env.grant m.next ((n + 3) / 4) then
    .ok ((List.range n).map fun i => env.junk m.next i % 256) { m with next := m.next + 1 }
  else .fault (.oom ((n + 3) / 4))

/-! ### Reading -/

/-- The loop of imcalc.c:287-288 -/
def skipWs : Bytes → Bytes
  | [] => []
  | ch :: s => if isspace ch then skipWs s else ch :: s

/-- The loop of imcalc.c:307-318, and line 320.  The results are `res`, the buffer and the rest of the input. -/
def tokLoop (size : Nat) : Bytes → Token → Bytes → Nat → M (Token × Bytes × Bytes)
  | [], res, buf, pos => do
    let buf ← bset buf pos 0
    pure (res, buf, [])
  | ch :: s, res, buf, pos =>
    if (res = .number ∧ ispunct ch ∧ ch ≠ 45) ∨ (res = .symbol ∧ isdigit ch) ∨ isspace ch then do
      let buf ← bset buf pos 0
      pure (res, buf, ch :: s)
    else if pos + 1 ≥ size then do
      let buf ← bset buf pos 0
      pure (.error, buf, s)
    else do
      let buf ← bset buf pos ch
      tokLoop size s res buf (pos + 1)

/-- imcalc.c:295-304: the kind of the token that begins with `ch`, before the text `s` -/
def tokKind (ch : Nat) (s : Bytes) : Token :=
  if ch = 45 then
    match s with
    | [] => .symbol
    | next :: _ => if ¬ isdigit next then .symbol else .number
  else if isdigit ch ∨ ch = 35 then .number
  else .symbol

/-- imcalc.c:281-322 `next_token` -/
def next_token (inp buf : Bytes) (size : Nat) : M (Token × Bytes × Bytes) := do
  cassert (size > 0)
  match skipWs inp with
  | [] => do
    let buf ← bset buf 0 0
    pure (.eof, buf, [])
  | ch :: s => do
    let buf ← bset buf 0 ch
    tokLoop size s (tokKind ch s) buf 1

/-- `next_token(sp->ifp, sp->ibuf, sp->buflen)` -/
def nextTok (sp : Calc) : M (Token × Calc) := do
  let r ← next_token sp.inp sp.ibuf sp.buflen
  pure (r.1, { sp with ibuf := r.2.1, inp := r.2.2 })

/-- imcalc.c:331-355: the radix and the start of the digits, or `MP_BADARG` -/
def numberRadix (buf : Bytes) : M (Option (Nat × Nat)) := do
  let c ← bget buf 0
  if c = 35 then do
    let d ← bget buf 1
    if d = 98 ∨ d = 66 then pure (some (2, 2))
    else if d = 100 ∨ d = 68 then pure (some (10, 2))
    else if d = 111 ∨ d = 79 then pure (some (8, 2))
    else if d = 120 ∨ d = 88 then pure (some (16, 2))
    else pure none
  else pure (some (10, 0))

/-- imcalc.c:324-369 `read_number`; the second result is `*out`, if it is not NULL -/
def read_number (buf : Bytes) : M (Int × Option Id) := do
  let r ← numberRadix buf
  match r with
  | none => pure (MP_BADARG, none)
  | some (radix, pos) => do
    let value ← mp_int_alloc
    let res ← mp_int_read_string value radix (buf.drop pos)
    if res ≠ MP_OK then do
      mp_int_free value
      pure (res, none)
    else pure (res, some value)

/-! ### The stack and the memory -/

/-- `sp->elts[sp->used - 1 - k]` -/
def elt (sp : Calc) (k : Nat) : M Id :=
  match sp.elts[k]? with
  | some z => pure z
  | none => fail .ub

/-- Entry `n` of an array of `size` entries is written. -/
def inArray (n size : Nat) : M Unit := if n < size then pure () else fail .ub

/-- imcalc.c:557-576 `stack_push`; the write of line 574 must fall inside the array. -/
def stack_push (sp : Calc) (z : Id) : M (Int × Calc) := do
  cwhen (sp.elts.length ≥ sp.alloc) (request (4 * sp.alloc))
  let alloc := if sp.elts.length ≥ sp.alloc then 2 * sp.alloc else sp.alloc
  inArray sp.elts.length alloc
  pure (MP_OK, { sp with elts := z :: sp.elts, alloc := alloc })

/-- imcalc.c:578-588 `stack_pop` -/
def stack_pop (sp : Calc) : M (Int × Calc) :=
  match sp.elts with
  | [] => pure (MP_UNDEF, sp)
  | z :: s => do
    mp_int_clear z
    pure (MP_OK, { sp with elts := s })

/-- `stack_pop(sp);` -/
def popped (sp : Calc) : M Calc := do
  let r ← stack_pop sp
  pure r.2

/-- `mp_int_clear` of several integers, one after the other -/
def clearAll : List Id → M Unit
  | [] => pure ()
  | z :: s => do
    mp_int_clear z
    clearAll s

/-- `mp_int_free` of several integers, one after the other -/
def freeAll : List Id → M Unit
  | [] => pure ()
  | z :: s => do
    mp_int_free z
    freeAll s

/-- imcalc.c:544-555 `stack_flush` -/
def stack_flush (sp : Calc) : M Calc := do
  clearAll sp.elts.reverse
  pure { sp with elts := [] }

/-- imcalc.c:590-636 `mem_insert`; the writes of lines 630 and 634 must fall inside the arrays. -/
def mem_insert (sp : Calc) (name : Bytes) (value : Id) : M (Int × Calc) := do
  let ix := sp.mem.findIdx fun e => e.1 = name
  match sp.mem[ix]? with
  | some e => do
    mp_int_free e.2
    let z ← mp_int_alloc
    let res ← mp_int_copy value z
    pure (res, { sp with mem := sp.mem.set ix (e.1, z) })
  | none => do
    cwhen (sp.mem.length ≥ sp.mslots) (do
      request (4 * sp.mslots)
      request (4 * sp.mslots))
    let mslots := if sp.mem.length ≥ sp.mslots then 2 * sp.mslots else sp.mslots
    inArray sp.mem.length mslots
    request ((name.length + 4) / 4)
    let z ← mp_int_alloc
    let res ← mp_int_copy value z
    pure (res, { sp with mem := sp.mem ++ [(name, z)], mslots := mslots })

/-- imcalc.c:638-648 `mem_recall` -/
def mem_recall (sp : Calc) (name : Bytes) (value : Id) : M Int :=
  match sp.mem.find? fun e => e.1 = name with
  | some e => mp_int_copy e.2 value
  | none => pure MP_UNDEF

/-- imcalc.c:650-660 `mem_clear` -/
def mem_clear (sp : Calc) : M (Int × Calc) := do
  freeAll (sp.mem.map Prod.snd)
  pure (MP_OK, { sp with mem := [] })

/-! ### Output -/

/-- `"%02x"` of an `unsigned char` -/
def fmt02x (x : Nat) : Bytes :=
  let h := fun d => if d < 10 then 48 + d else 87 + d
  [h (x / 16), h (x % 16)]

/-- `"%2d"` of a number that is not negative -/
def fmt2d (n : Nat) : Bytes := List.replicate (2 - (numeralN 10 n).length) 32 ++ numeralN 10 n

/-- The loop of imcalc.c:397-399, and line 400; the count is `len - 1 - ix` -/
def hexLoop (buf : Bytes) : Nat → Nat → Bytes → M Bytes
  | 0, ix, out => do
    let x ← bget buf ix
    pure (out ++ fmt02x x ++ [10])
  | n + 1, ix, out => do
    let x ← bget buf ix
    hexLoop buf n (ix + 1) (out ++ fmt02x x ++ [46])

/-- imcalc.c:389-418 `print_value`; the result is what is written -/
def print_value (radix : Nat) (v : Id) : M Bytes :=
  if radix = 0 then do
    let len ← mp_int_binary_len v
    let buf ← mallocB len.toNat
    let r ← mp_int_to_binary v buf len
    hexLoop r.2 (len - 1).toNat 0 []
  else do
    let len ← mp_int_string_len v radix
    let buf ← mallocB len.toNat
    let r ← mp_int_to_string v radix buf len
    let text ← cstr r.2
    pure (text ++ [10])

/-! ### The operators -/

/-- imcalc.c:662-666 `cf_abs` -/
def cf_abs (sp : Calc) : M (Int × Calc) := do
  let a ← elt sp 0
  let res ← mp_int_abs a a
  pure (res, sp)

/-- imcalc.c:668-672 `cf_neg` -/
def cf_neg (sp : Calc) : M (Int × Calc) := do
  let a ← elt sp 0
  let res ← mp_int_neg a a
  pure (res, sp)

/-- imcalc.c:674-682 `cf_add` -/
def cf_add (sp : Calc) : M (Int × Calc) := do
  let b ← elt sp 0
  let a ← elt sp 1
  let res ← mp_int_add a b a
  let sp ← cif (res = MP_OK) (popped sp) (pure sp)
  pure (res, sp)

/-- imcalc.c:684-692 `cf_sub` -/
def cf_sub (sp : Calc) : M (Int × Calc) := do
  let b ← elt sp 0
  let a ← elt sp 1
  let res ← mp_int_sub a b a
  let sp ← cif (res = MP_OK) (popped sp) (pure sp)
  pure (res, sp)

/-- imcalc.c:694-702 `cf_mul` -/
def cf_mul (sp : Calc) : M (Int × Calc) := do
  let b ← elt sp 0
  let a ← elt sp 1
  let res ← mp_int_mul a b a
  let sp ← cif (res = MP_OK) (popped sp) (pure sp)
  pure (res, sp)

/-- imcalc.c:704-709 `cf_divmod` -/
def cf_divmod (sp : Calc) : M (Int × Calc) := do
  let b ← elt sp 0
  let a ← elt sp 1
  let res ← mp_int_div a b (some a) (some b)
  pure (res, sp)

/-- imcalc.c:711-719 `cf_div` -/
def cf_div (sp : Calc) : M (Int × Calc) := do
  let b ← elt sp 0
  let a ← elt sp 1
  let res ← mp_int_div a b (some a) none
  let sp ← cif (res = MP_OK) (popped sp) (pure sp)
  pure (res, sp)

/-- imcalc.c:721-729 `cf_mod` -/
def cf_mod (sp : Calc) : M (Int × Calc) := do
  let b ← elt sp 0
  let a ← elt sp 1
  let res ← mp_int_mod a b a
  let sp ← cif (res = MP_OK) (popped sp) (pure sp)
  pure (res, sp)

/-- imcalc.c:731-741 `cf_expt` -/
def cf_expt (sp : Calc) : M (Int × Calc) := do
  let b ← elt sp 0
  let a ← elt sp 1
  let (res, bval) ← mp_int_to_int b
  if res ≠ MP_OK then pure (res, sp)
  else do
    let sp ← popped sp
    let res ← mp_int_expt a (bval.getD 0) a
    pure (res, sp)

/-- imcalc.c:743-755 `cf_exptmod` -/
def cf_exptmod (sp : Calc) : M (Int × Calc) := do
  let m ← elt sp 0
  let b ← elt sp 1
  let a ← elt sp 2
  let res ← mp_int_exptmod a b m a
  let sp ← cif (res = MP_OK) (do
    let sp ← popped sp
    popped sp) (pure sp)
  pure (res, sp)

/-- imcalc.c:757-761 `cf_square` -/
def cf_square (sp : Calc) : M (Int × Calc) := do
  let a ← elt sp 0
  let res ← mp_int_sqr a a
  pure (res, sp)

/-- imcalc.c:763-771 `cf_invmod` -/
def cf_invmod (sp : Calc) : M (Int × Calc) := do
  let m ← elt sp 0
  let a ← elt sp 1
  let res ← mp_int_invmod a m a
  let sp ← popped sp
  pure (res, sp)

/-- imcalc.c:773-781 `cf_gcd` -/
def cf_gcd (sp : Calc) : M (Int × Calc) := do
  let b ← elt sp 0
  let a ← elt sp 1
  let res ← mp_int_gcd a b a
  let sp ← cif (res = MP_OK) (popped sp) (pure sp)
  pure (res, sp)

/-- imcalc.c:783-798 `cf_xgcd` -/
def cf_xgcd (sp : Calc) : M (Int × Calc) := do
  let b ← elt sp 0
  let a ← elt sp 1
  let t ← mp_int_alloc
  let res ← mp_int_egcd a b a (some b) (some t)
  if res ≠ MP_OK then do
    mp_int_free t
    pure (res, sp)
  else stack_push sp t

/-- imcalc.c:800-804 `cf_sqrt`, with `mp_int_sqrt` of imath.h:311 -/
def cf_sqrt (sp : Calc) : M (Int × Calc) := do
  let a ← elt sp 0
  let res ← mp_int_root a 2 a
  pure (res, sp)

/-- imcalc.c:806-816 `cf_root` -/
def cf_root (sp : Calc) : M (Int × Calc) := do
  let a ← elt sp 1
  let bp ← elt sp 0
  let (res, b) ← mp_int_to_int bp
  if res ≠ MP_OK then pure (res, sp)
  else do
    let sp ← popped sp
    let res ← mp_int_root a (b.getD 0) a
    pure (res, sp)

/-- imcalc.c:818-826 `cf_cmplt` -/
def cf_cmplt (sp : Calc) : M (Int × Calc) := do
  let b ← elt sp 0
  let a ← elt sp 1
  let cmp ← mp_int_compare a b
  let res ← mp_int_set_value a (if cmp < 0 then 1 else 0)
  let sp ← popped sp
  pure (res, sp)

/-- imcalc.c:828-836 `cf_cmpgt` -/
def cf_cmpgt (sp : Calc) : M (Int × Calc) := do
  let b ← elt sp 0
  let a ← elt sp 1
  let cmp ← mp_int_compare a b
  let res ← mp_int_set_value a (if cmp > 0 then 1 else 0)
  let sp ← popped sp
  pure (res, sp)

/-- imcalc.c:838-846 `cf_cmple` -/
def cf_cmple (sp : Calc) : M (Int × Calc) := do
  let b ← elt sp 0
  let a ← elt sp 1
  let cmp ← mp_int_compare a b
  let res ← mp_int_set_value a (if cmp ≤ 0 then 1 else 0)
  let sp ← popped sp
  pure (res, sp)

/-- imcalc.c:848-856 `cf_cmpge` -/
def cf_cmpge (sp : Calc) : M (Int × Calc) := do
  let b ← elt sp 0
  let a ← elt sp 1
  let cmp ← mp_int_compare a b
  let res ← mp_int_set_value a (if cmp ≥ 0 then 1 else 0)
  let sp ← popped sp
  pure (res, sp)

/-- imcalc.c:858-866 `cf_cmpeq` -/
def cf_cmpeq (sp : Calc) : M (Int × Calc) := do
  let b ← elt sp 0
  let a ← elt sp 1
  let cmp ← mp_int_compare a b
  let res ← mp_int_set_value a (if cmp = 0 then 1 else 0)
  let sp ← popped sp
  pure (res, sp)

/-- imcalc.c:868-876 `cf_cmpne` -/
def cf_cmpne (sp : Calc) : M (Int × Calc) := do
  let b ← elt sp 0
  let a ← elt sp 1
  let cmp ← mp_int_compare a b
  let res ← mp_int_set_value a (if cmp ≠ 0 then 1 else 0)
  let sp ← popped sp
  pure (res, sp)

/-- imcalc.c:878-882 `cf_inc` -/
def cf_inc (sp : Calc) : M (Int × Calc) := do
  let a ← elt sp 0
  let res ← mp_int_add_value a 1 a
  pure (res, sp)

/-- imcalc.c:884-888 `cf_dec` -/
def cf_dec (sp : Calc) : M (Int × Calc) := do
  let a ← elt sp 0
  let res ← mp_int_sub_value a 1 a
  pure (res, sp)

/-- The loop of imcalc.c:899-902 and line 904; the first argument is fuel -/
def factLoop (x tmp : Id) : Nat → M Int
  | 0 => fail .diverge
  | n + 1 => do
    let c ← mp_int_compare_value x 1
    if c > 0 then
      REQUIRE (mp_int_mul tmp x tmp) <|
      REQUIRE (mp_int_sub_value x 1 x) <|
      factLoop x tmp n
    else mp_int_copy tmp x

/-- imcalc.c:890-909 `cf_fact`; the fuel exceeds the value of `x` -/
def cf_fact (sp : Calc) : M (Int × Calc) := do
  let x ← elt sp 0
  let c ← mp_int_compare_zero x
  if c < 0 then pure (MP_UNDEF, sp)
  else do
    let fuel := 𝔹 ^ (← MP_USED x) + 1
    let res ← withUnchk (fun t => mp_int_init_value t 1) fun tmp => factLoop x tmp fuel
    pure (res, sp)

/-- imcalc.c:911-915 `cf_pprint` -/
def cf_pprint (sp : Calc) : M (Int × Calc) := do
  let a ← elt sp 0
  let t ← print_value sp.radix a
  let sp ← popped { sp with out := sp.out ++ t }
  pure (MP_OK, sp)

/-- imcalc.c:917-920 `cf_print` -/
def cf_print (sp : Calc) : M (Int × Calc) := do
  let a ← elt sp 0
  let t ← print_value sp.radix a
  pure (MP_OK, { sp with out := sp.out ++ t })

/-- The loop of imcalc.c:928-931 -/
def pstackLoop (radix : Nat) : List Id → Nat → M Bytes
  | [], _ => pure []
  | z :: s, ix => do
    let t ← print_value radix z
    let rest ← pstackLoop radix s (ix + 1)
    pure (fmt2d ix ++ [58, 32] ++ t ++ rest)

/-- imcalc.c:922-935 `cf_pstack` -/
def cf_pstack (sp : Calc) : M (Int × Calc) := do
  -- <stack empty>
  let t ← cif (sp.elts.length = 0) (pure [60, 115, 116, 97, 99, 107, 32, 101, 109, 112, 116, 121, 62, 10])
    (pstackLoop sp.radix sp.elts 0)
  pure (MP_OK, { sp with out := sp.out ++ t })

/-- imcalc.c:937-941 `cf_clstk` -/
def cf_clstk (sp : Calc) : M (Int × Calc) := do
  let sp ← stack_flush sp
  pure (MP_OK, sp)

/-- imcalc.c:943 `cf_pop` -/
def cf_pop (sp : Calc) : M (Int × Calc) := stack_pop sp

/-- imcalc.c:945-959 `cf_dup` -/
def cf_dup (sp : Calc) : M (Int × Calc) := do
  let cp ← mp_int_alloc
  let a ← elt sp 0
  let res ← mp_int_copy a cp
  if res ≠ MP_OK then do
    mp_int_free cp
    pure (res, sp)
  else stack_push sp cp

/-- The loop of imcalc.c:973-984; the last argument is `ncopy - ix` -/
def dupLoop (ncopy : Nat) : Nat → Calc → M (Int × Calc)
  | 0, sp => pure (MP_OK, sp)
  | n + 1, sp => do
    let old ← elt sp (ncopy - 1)
    let new ← mp_int_alloc
    let res ← mp_int_copy old new
    if res ≠ MP_OK then do
      mp_int_free new
      pure (res, sp)
    else do
      let r ← stack_push sp new
      if r.1 ≠ MP_OK then pure r
      else dupLoop ncopy n r.2

/-- imcalc.c:961-987 `cf_copy` -/
def cf_copy (sp : Calc) : M (Int × Calc) := do
  let n ← elt sp 0
  let (res, ncopy) ← mp_int_to_int n
  let ncopy := ncopy.getD 0
  if res ≠ MP_OK then pure (res, sp)
  else if ncopy < 1 ∨ ncopy ≥ sp.elts.length then pure (MP_RANGE, sp)
  else do
    let sp ← popped sp
    dupLoop ncopy.toNat ncopy.toNat sp

/-- imcalc.c:989-996 `cf_swap` -/
def cf_swap (sp : Calc) : M (Int × Calc) := do
  let t ← elt sp 0
  let a ← elt sp 1
  pure (MP_OK, { sp with elts := (sp.elts.set 0 a).set 1 t })

/-- imcalc.c:998-1006 `cf_rot` -/
def cf_rot (sp : Calc) : M (Int × Calc) := do
  let t ← elt sp 2
  let b ← elt sp 1
  let c ← elt sp 0
  pure (MP_OK, { sp with elts := ((sp.elts.set 2 b).set 1 c).set 0 t })

/-- imcalc.c:1008-1018 `cf_pick` -/
def cf_pick (sp : Calc) : M (Int × Calc) := do
  let n ← elt sp 0
  let (res, pos) ← mp_int_to_int n
  let pos := pos.getD 0
  if res ≠ MP_OK then pure (res, sp)
  else if pos < 0 ∨ pos ≥ (sp.elts.length : Int) - 1 then pure (MP_RANGE, sp)
  else do
    let a ← elt sp (1 + pos.toNat)
    let res ← mp_int_copy a n
    pure (res, sp)

/-- imcalc.c:1020-1032 `cf_setr` -/
def cf_setr (sp : Calc) : M (Int × Calc) := do
  let a ← elt sp 0
  let (res, rdx) ← mp_int_to_int a
  let rdx := rdx.getD 0
  if res ≠ MP_OK then pure (res, sp)
  else if rdx < 2 ∨ rdx > 36 then pure (MP_RANGE, sp)
  else do
    let sp ← popped { sp with radix := rdx.toNat }
    pure (MP_OK, sp)

/-- imcalc.c:1034-1037 `cf_setbin` -/
def cf_setbin (sp : Calc) : M (Int × Calc) := pure (MP_OK, { sp with radix := 0 })

/-- imcalc.c:1039-1060 `cf_help`; it writes to the standard error output -/
def cf_help (sp : Calc) : M (Int × Calc) := pure (MP_OK, sp)

/-- imcalc.c:1062-1071 `cf_store` -/
def cf_store (sp : Calc) : M (Int × Calc) := do
  let (tok, sp) ← nextTok sp
  if tok ≠ .symbol then pure (MP_INPUT, sp)
  else do
    let name ← cstr sp.ibuf
    let a ← elt sp 0
    let (res, sp) ← mem_insert sp name a
    if res ≠ MP_OK then pure (res, sp)
    else stack_pop sp

/-- imcalc.c:1119-1131 `cf_qrecall` -/
def cf_qrecall (sp : Calc) : M (Int × Calc) := do
  let val ← mp_int_alloc
  let name ← cstr sp.ibuf
  let res ← mem_recall sp name val
  if res ≠ MP_OK then do
    mp_int_free val
    pure (res, sp)
  else stack_push sp val

/-- imcalc.c:1073-1086 `cf_recall`; from line 1079 on it is `cf_qrecall` -/
def cf_recall (sp : Calc) : M (Int × Calc) := do
  let (tok, sp) ← nextTok sp
  if tok ≠ .symbol then pure (MP_INPUT, sp)
  else cf_qrecall sp

/-- imcalc.c:1088 `cf_cmem` -/
def cf_cmem (sp : Calc) : M (Int × Calc) := mem_clear sp

/-- The loop of imcalc.c:1106-1114 -/
def pmemLoop (radix max_len : Nat) : List (Bytes × Id) → M Bytes
  | [] => pure []
  | e :: s => do
    let t ← print_value radix e.2
    let rest ← pmemLoop radix max_len s
    pure (e.1 ++ [58] ++ List.replicate (max_len - e.1.length) 32 ++ t ++ rest)

/-- imcalc.c:1090-1117 `cf_pmem` -/
def cf_pmem (sp : Calc) : M (Int × Calc) := do
  let max_len := sp.mem.foldl (fun n e => if e.1.length > n then e.1.length else n) 0
  -- <memory empty>
  let t ← cif (sp.mem.length = 0) (pure [60, 109, 101, 109, 111, 114, 121, 32, 101, 109, 112, 116, 121, 62, 10])
    (pmemLoop sp.radix (max_len + 1) sp.mem)
  pure (MP_OK, { sp with out := sp.out ++ t })

/-! ### The program -/

/-- imcalc.c:121-126 `calcop_t`, without the description -/
structure CalcOp where
  name : Bytes
  stack_size : Nat
  handler : Calc → M (Int × Calc)

/-- imcalc.c:128-182 `g_ops`, without the end marker -/
def g_ops : List CalcOp := [
  ⟨[97, 98, 115], 1, cf_abs⟩,
  ⟨[110, 101, 103], 1, cf_neg⟩,
  ⟨[43], 2, cf_add⟩,
  ⟨[97, 100, 100], 2, cf_add⟩,
  ⟨[45], 2, cf_sub⟩,
  ⟨[115, 117, 98], 2, cf_sub⟩,
  ⟨[42], 2, cf_mul⟩,
  ⟨[109, 117, 108], 2, cf_mul⟩,
  ⟨[47], 2, cf_divmod⟩,
  ⟨[47, 47], 2, cf_div⟩,
  ⟨[100, 105, 118], 2, cf_div⟩,
  ⟨[37], 2, cf_mod⟩,
  ⟨[109, 111, 100], 2, cf_mod⟩,
  ⟨[94], 2, cf_expt⟩,
  ⟨[101, 120, 112, 116], 2, cf_expt⟩,
  ⟨[94, 94], 3, cf_exptmod⟩,
  ⟨[101, 109, 111, 100], 3, cf_exptmod⟩,
  ⟨[115, 113, 114], 1, cf_square⟩,
  ⟨[105, 110, 118], 2, cf_invmod⟩,
  ⟨[103, 99, 100], 2, cf_gcd⟩,
  ⟨[120, 103, 99, 100], 2, cf_xgcd⟩,
  ⟨[115, 113, 114, 116], 1, cf_sqrt⟩,
  ⟨[114, 111, 111, 116], 2, cf_root⟩,
  ⟨[60], 2, cf_cmplt⟩,
  ⟨[62], 2, cf_cmpgt⟩,
  ⟨[60, 61], 2, cf_cmple⟩,
  ⟨[62, 61], 2, cf_cmpge⟩,
  ⟨[61], 2, cf_cmpeq⟩,
  ⟨[60, 62], 2, cf_cmpne⟩,
  ⟨[105, 110, 99], 1, cf_inc⟩,
  ⟨[100, 101, 99], 1, cf_dec⟩,
  ⟨[33], 1, cf_fact⟩,
  ⟨[102, 97, 99, 116], 1, cf_fact⟩,
  ⟨[46], 1, cf_pprint⟩,
  ⟨[59], 1, cf_print⟩,
  ⟨[63], 0, cf_pstack⟩,
  ⟨[99, 108, 115], 0, cf_clstk⟩,
  ⟨[36], 1, cf_pop⟩,
  ⟨[100, 114, 111, 112], 1, cf_pop⟩,
  ⟨[100, 117, 112], 1, cf_dup⟩,
  ⟨[99, 111, 112, 121], 2, cf_copy⟩,
  ⟨[115, 119, 97, 112], 2, cf_swap⟩,
  ⟨[114, 111, 116], 3, cf_rot⟩,
  ⟨[112, 105, 99, 107], 2, cf_pick⟩,
  ⟨[62, 62], 1, cf_store⟩,
  ⟨[60, 60], 0, cf_recall⟩,
  ⟨[99, 108, 109], 0, cf_cmem⟩,
  ⟨[63, 63], 0, cf_pmem⟩,
  ⟨[111, 117, 116], 1, cf_setr⟩,
  ⟨[98, 105, 110], 0, cf_setbin⟩,
  ⟨[104, 101, 108, 112], 0, cf_help⟩]

/-- imcalc.c:371-387 `find_command`; the end marker of the table is imcalc.c:187 -/
def find_command (sp : Calc) : M (Option CalcOp) := do
  let name ← cstr sp.ibuf
  match g_ops.find? fun op => caseEq name op.name with
  | some op => pure (some op)
  | none =>
    if sp.mem.any fun e => e.1 = name then pure (some ⟨[], 0, cf_qrecall⟩)
    else pure none

/-- imcalc.c:420-460 `run_file` from line 425 on; the first argument is fuel, the last one the value of `res` -/
def runLoop : Nat → Calc → Int → M (Int × Calc)
  | 0, _, _ => fail .diverge
  | n + 1, sp, res => do
    let (next, sp) ← nextTok sp
    match next with
    | .eof => pure (res, sp)
    | .number => do
      let (res, value) ← read_number sp.ibuf
      match value with
      | none => runLoop n sp res
      | some z => do
        let (res, sp) ← stack_push sp z
        if res ≠ MP_OK then pure (res, sp)
        else runLoop n sp res
    | .symbol => do
      let op ← find_command sp
      match op with
      | none => runLoop n sp res
      | some op =>
        if sp.elts.length < op.stack_size then runLoop n sp res
        else do
          let (res, sp) ← op.handler sp
          runLoop n sp res
    | .error => pure (MP_BADARG, sp)

/-- imcalc.c:420-460 `run_file`; every token takes a character of the input at least -/
def run_file (inp : Bytes) (sp : Calc) : M (Int × Calc) := runLoop (inp.length + 1) { sp with inp := inp } MP_OK

/-- imcalc.c:462-498 `state_init` with `n_elts = 1`; and `g_output_radix` (imcalc.c:204) -/
def state_init : M Calc := do
  request 2
  request 2
  request 2
  let ibuf ← mallocB BUFFER_SIZE
  pure ⟨[], 1, [], 1, ibuf, BUFFER_SIZE, [], 10, []⟩

/-- imcalc.c:500-542 `state_clear` -/
def state_clear (sp : Calc) : M Unit := do
  clearAll sp.elts.reverse
  freeAll (sp.mem.map Prod.snd)

/-- The loop of imcalc.c:260-270 over the names of files; `files` are the contents of those that can be
opened, `first` is `argv[optind]` and `stdin` what has not been read of the standard input.  The results are
`errs`, or nothing if the program ends at line 266, and the state. -/
def filesLoop (files : Bytes → Option Bytes) (first : Bytes) : List Bytes → Bytes → Calc → Nat → M (Option Nat × Calc)
  | [], _, sp, errs => pure (some errs, sp)
  | arg :: args, stdin, sp, errs =>
    if arg = [45] then do
      let (res, sp) ← run_file stdin sp
      filesLoop files first args sp.inp sp (if res ≠ MP_OK then errs + 1 else errs)
    else
      match files first with
      | none => pure (none, sp)
      | some inp => do
        let (res, sp) ← run_file inp sp
        filesLoop files first args stdin sp (if res ≠ MP_OK then errs + 1 else errs)

/-- imcalc.c:207-279 `main`, without options; `args` are the names of files, if any.  The results are the status
and the output. -/
def imcalcMain (files : Bytes → Option Bytes) (args : List Bytes) (stdin : Bytes) : M (Nat × Bytes) := do
  let sp ← state_init
  match args with
  | first :: _ => do
    let (errs, sp) ← filesLoop files first args stdin sp 0
    match errs with
    | none => pure (1, sp.out)
    | some errs => do
      state_clear sp
      pure (if errs > 0 then 1 else 0, sp.out)
  | [] => do
    let (res, sp) ← run_file stdin sp
    state_clear sp
    pure (if res = MP_OK then 0 else 1, sp.out)

end Imath
