import Verif.SpecRead
import Verif.SpecExptmod
import Mathlib.Data.Int.GCD
import Mathlib.Data.Nat.Factorial.Basic

/-!
# A reference calculator

What the program `examples/imcalc.c` is compared with: a calculator in reverse Polish notation as a function
from text to text, on integers.  The commands and what they do to the stack are documented in the program
itself (the table of commands, imcalc.c:128-188).  Where the program deviates from that, the deviation is pointed
out here.  Nothing here refers to the model, except the numbers of results and faults.
-/

namespace Imath

/-- The commands. -/
inductive Cmd where
  | abs | neg | add | sub | mul | divmod | div | mod | expt | emod | sqr | inv | gcd | xgcd | sqrt | root | lt | gt | le | ge | eq | ne | inc | dec | fact | show | peek | list | cls | drop | dup | copy | swap | rot | pick | store | recall | clm | vars | out | bin | help
deriving DecidableEq

/-- The number of operands and the names of a command. -/
def Cmd.info : Cmd → Nat × List (List Nat)
  | .abs => (1, [[97, 98, 115]]) -- `abs`
  | .neg => (1, [[110, 101, 103]]) -- `neg`
  | .add => (2, [[43], [97, 100, 100]]) -- `+` or `add`
  | .sub => (2, [[45], [115, 117, 98]]) -- `-` or `sub`
  | .mul => (2, [[42], [109, 117, 108]]) -- `*` or `mul`
  | .divmod => (2, [[47]]) -- `/`
  | .div => (2, [[47, 47], [100, 105, 118]]) -- `//` or `div`
  | .mod => (2, [[37], [109, 111, 100]]) -- `%` or `mod`
  | .expt => (2, [[94], [101, 120, 112, 116]]) -- `^` or `expt`
  | .emod => (3, [[94, 94], [101, 109, 111, 100]]) -- `^^` or `emod`
  | .sqr => (1, [[115, 113, 114]]) -- `sqr`
  | .inv => (2, [[105, 110, 118]]) -- `inv`
  | .gcd => (2, [[103, 99, 100]]) -- `gcd`
  | .xgcd => (2, [[120, 103, 99, 100]]) -- `xgcd`
  | .sqrt => (1, [[115, 113, 114, 116]]) -- `sqrt`
  | .root => (2, [[114, 111, 111, 116]]) -- `root`
  | .lt => (2, [[60]]) -- `<`
  | .gt => (2, [[62]]) -- `>`
  | .le => (2, [[60, 61]]) -- `<=`
  | .ge => (2, [[62, 61]]) -- `>=`
  | .eq => (2, [[61]]) -- `=`
  | .ne => (2, [[60, 62]]) -- `<>`
  | .inc => (1, [[105, 110, 99]]) -- `inc`
  | .dec => (1, [[100, 101, 99]]) -- `dec`
  | .fact => (1, [[33], [102, 97, 99, 116]]) -- `!` or `fact`
  | .show => (1, [[46]]) -- `.`
  | .peek => (1, [[59]]) -- `;`
  | .list => (0, [[63]]) -- `?`
  | .cls => (0, [[99, 108, 115]]) -- `cls`
  | .drop => (1, [[36], [100, 114, 111, 112]]) -- `$` or `drop`
  | .dup => (1, [[100, 117, 112]]) -- `dup`
  | .copy => (2, [[99, 111, 112, 121]]) -- `copy`
  | .swap => (2, [[115, 119, 97, 112]]) -- `swap`
  | .rot => (3, [[114, 111, 116]]) -- `rot`
  | .pick => (2, [[112, 105, 99, 107]]) -- `pick`
  | .store => (1, [[62, 62]]) -- `>>`
  | .recall => (0, [[60, 60]]) -- `<<`
  | .clm => (0, [[99, 108, 109]]) -- `clm`
  | .vars => (0, [[63, 63]]) -- `??`
  | .out => (1, [[111, 117, 116]]) -- `out`
  | .bin => (0, [[98, 105, 110]]) -- `bin`
  | .help => (0, [[104, 101, 108, 112]]) -- `help`

def Cmd.all : List Cmd := [.abs, .neg, .add, .sub, .mul, .divmod, .div, .mod, .expt, .emod, .sqr, .inv, .gcd, .xgcd, .sqrt, .root, .lt, .gt, .le, .ge, .eq, .ne, .inc, .dec, .fact, .show, .peek, .list, .cls, .drop, .dup, .copy, .swap, .rot, .pick, .store, .recall, .clm, .vars, .out, .bin, .help]

/-- The calculator: the stack, its top first; the variables with their names, in the order of their creation;
the radix for output, or 0 for the bytes of two's complement. -/
structure Calculator where
  stack : List Int
  vars : List (List Nat × Int)
  radix : Nat
deriving DecidableEq

/-! ### Tokens -/

inductive Tok where
  /-- an integer -/
  | num (s : List Nat)
  /-- the name of a command or a variable -/
  | sym (s : List Nat)
  /-- more than 16383 characters -/
  | long
deriving DecidableEq

/-- `0`-`9` -/
def isDec (c : Nat) : Bool := 48 ≤ c ∧ c ≤ 57

/-- Printing characters other than the space, letters and digits. -/
def isPunct (c : Nat) : Bool := (33 ≤ c ∧ c ≤ 47) ∨ (58 ≤ c ∧ c ≤ 64) ∨ (91 ≤ c ∧ c ≤ 96) ∨ (123 ≤ c ∧ c ≤ 126)

/-- A number begins with a digit, with `#`, or with `-` and a digit. -/
def startsNum (c : Nat) (s : List Nat) : Bool := isDec c ∨ c = 35 ∨ (c = 45 ∧ s.head?.any isDec)

/-- Whether the token ends before `c`: at white space, a number also at punctuation except `-`, a name
also at a digit. -/
def endsTok (n : Bool) (c : Nat) : Bool := IsSpace c ∨ if n then isPunct c ∧ c ≠ 45 else isDec c

/-- The first token of a text, and the rest of the text. -/
def nextTok1 (s : List Nat) : Option (Tok × List Nat) :=
  match trim s with
  | [] => none
  | c :: t =>
    let n := startsNum c t
    let w := t.takeWhile fun c => !endsTok n c
    if w.length < 16383 then some (if n then .num (c :: w) else .sym (c :: w), t.drop w.length)
    else some (.long, t.drop 16383)

/-- All tokens; the first argument limits their number. -/
def tokensN : Nat → List Nat → List Tok
  | 0, _ => []
  | n + 1, s =>
    match nextTok1 s with
    | none => []
    | some (t, s) => t :: tokensN n s

/-- The tokens of a text. -/
def tokens (s : List Nat) : List Tok := tokensN s.length s

/-- The value of a number: decimal, or in the radix that is given by `#b`, `#o`, `#d` or `#x`.  Otherwise, a
result code. -/
def numVal (s : List Nat) : Except Int Int :=
  let read := fun r t =>
    let p := scanInt r (t ++ [0])
    if endCode p.2 = MP_OK then .ok p.1 else .error (endCode p.2)
  match s with
  | [35] => .error MP_BADARG
  | 35 :: c :: t =>
    if c = 98 ∨ c = 66 then read 2 t
    else if c = 111 ∨ c = 79 then read 8 t
    else if c = 100 ∨ c = 68 then read 10 t
    else if c = 120 ∨ c = 88 then read 16 t
    else .error MP_BADARG
  | s => read 10 s

/-- A name ends with its first 0. -/
def cut (s : List Nat) : List Nat := s.takeWhile fun c => c ≠ 0

/-- A letter in lower case. -/
def lower (c : Nat) : Nat := if 65 ≤ c ∧ c ≤ 90 then c + 32 else c

/-- The command with this name; letters may be in either case. -/
def command (s : List Nat) : Option Cmd := Cmd.all.find? fun c => c.info.2.any fun n => n = s.map lower

/-! ### Output -/

/-- The bytes of the two's complement representation of `v`, as many as there are needed for a clear sign bit. -/
def twosBytes (v : Int) : List Nat :=
  (List.range (binLen v)).map fun i => ((v / 256 ^ (binLen v - 1 - i)) % 256).toNat

/-- Two hexadecimal digits. -/
def hex2 (x : Nat) : List Nat := [x / 16, x % 16].map fun d => if d < 10 then 48 + d else 87 + d

/-- The line for a value. -/
def line (radix : Nat) (v : Int) : List Nat :=
  (if radix = 0 then List.intercalate [46] ((twosBytes v).map hex2) else numeral radix v) ++ [10]

/-- What the reference leaves open, as it depends on how the library computes: `bez x y` are the coefficients
that `mp_int_egcd` finds for `x` and `y`, and `room r v` is the result of `mp_int_string_len`. -/
structure Lib where
  bez : Int → Int → Int × Int
  room : Nat → Int → Int

/-- The program finds room for the text of the value: it reserves as many characters as `mp_int_string_len`
says, and one is needed for the end of the text. -/
def Fits (L : Lib) (radix : Nat) (v : Int) : Prop := radix = 0 ∨ ((numeral radix v).length : Int) < L.room radix v

instance (L : Lib) (radix : Nat) (v : Int) : Decidable (Fits L radix v) := by unfold Fits; infer_instance

/-- What is known of these: the coefficients are those of the greatest common divisor of the magnitudes; and
there is room at least for the text of the value, and also for its end, except in some radices for values from 13^5458
on.  Values have fewer than 2147483585 bits. -/
structure Lib.Sound (L : Lib) : Prop where
  bez : ∀ x y : Int, x ≠ 0 → y ≠ 0 → (Int.gcd x y : Int) = (L.bez x y).1 * |x| + (L.bez x y).2 * |y|
  room : ∀ r v, 2 ≤ r → r ≤ 36 → Nat.size v.natAbs ≤ 2147483584 → ((numeral r v).length : Int) ≤ L.room r v
  fits : ∀ r v, 2 ≤ r → r ≤ 36 → Nat.size v.natAbs ≤ 2147483584 →
    (r ∈ [2, 3, 4, 9, 10, 12, 15, 16, 18, 21, 24, 26, 27, 28, 31, 32, 35, 36] ∨ |v| < 13 ^ 5458) → Fits L r v

/-- A number in two characters at least. -/
def width2 (n : Nat) : List Nat := (if n < 10 then [32] else []) ++ numeralN 10 n

/-- The stack, numbered from the top. -/
def stackText (radix : Nat) (s : List Int) : List Nat :=
  if s = [] then "<stack empty>\n".toList.map Char.toNat
  else (s.zipIdx.map fun p => width2 p.2 ++ [58, 32] ++ line radix p.1).flatten

/-- The variables; the values are aligned. -/
def varsText (radix : Nat) (vs : List (List Nat × Int)) : List Nat :=
  if vs = [] then "<memory empty>\n".toList.map Char.toNat
  else
    let w := (vs.map fun p => p.1.length).foldr max 0
    (vs.map fun p => p.1 ++ [58] ++ List.replicate (w + 1 - p.1.length) 32 ++ line radix p.2).flatten

/-! ### Commands -/

/-- What a command does. -/
inductive Act where
  /-- the result code, the calculator afterwards, and what is written -/
  | ok (code : Int) (A : Calculator) (txt : List Nat)
  /-- the program ends with this fault -/
  | crash (f : Fault)

/-- The value of a variable. -/
def getVar (n : List Nat) (vs : List (List Nat × Int)) : Option Int := (vs.find? fun p => p.1 = n).map Prod.snd

/-- Set a variable. -/
def setVar (n : List Nat) (v : Int) : List (List Nat × Int) → List (List Nat × Int)
  | [] => [(n, v)]
  | p :: vs => if p.1 = n then (n, v) :: vs else p :: setVar n v vs

/-- The integer part of the root of `n`. -/
def floorRoot (b n : Nat) : Nat := Nat.findGreatest (fun r => r ^ b ≤ n) n

/-- The remainder: for a positive modulus it lies between 0 and the modulus.  For a negative one it is
negative or zero, or the positive remainder of the division that truncates. -/
def remOf (x y : Int) : Int := if 0 < y then x % y else if x.tmod y < 0 then x.tmod y + y else x.tmod y

/-- The inverse of `x` modulo `y`; modulo 1 the inverse of a negative number is 1. -/
def invOf (x y : Int) : Int := if y = 1 ∧ x < 0 then 1 else Int.gcdA x y % y

/-- The operand `n` as a `long`: the most negative one leads to undefined behaviour, larger ones are refused. -/
def small (A : Calculator) (n : Int) (k : Act) : Act :=
  if n = -2 ^ 63 then .crash .ub
  else if n < -2 ^ 63 ∨ 2 ^ 63 ≤ n then .ok MP_RANGE A []
  else k

/-- What a command does.  A value for which there is no room is written beyond the end of an array. -/
def Cmd.act (L : Lib) (c : Cmd) (A : Calculator) : Act :=
  let fine := fun s => Act.ok MP_OK { A with stack := s } []
  let fault := fun e => Act.ok e A []
  let truth := fun (p : Prop) (_ : Decidable p) s => Act.ok MP_OK { A with stack := (if p then 1 else 0) :: s } []
  match c, A.stack with
  | .abs, x :: s => fine (|x| :: s)
  | .neg, x :: s => fine (-x :: s)
  | .add, y :: x :: s => fine ((x + y) :: s)
  | .sub, y :: x :: s => fine ((x - y) :: s)
  | .mul, y :: x :: s => fine (x * y :: s)
  -- the quotient is truncated: the remainder may be negative
  | .divmod, y :: x :: s => if y = 0 then fault MP_UNDEF else fine (x.tmod y :: x.tdiv y :: s)
  | .div, y :: x :: s => if y = 0 then fault MP_UNDEF else fine (x.tdiv y :: s)
  | .mod, y :: x :: s => if y = 0 then fault MP_UNDEF else fine (remOf x y :: s)
  -- a negative exponent is removed from the stack; otherwise its lower 32 bits are used
  | .expt, y :: x :: s => small A y
      (if y < 0 then .ok MP_RANGE { A with stack := x :: s } [] else fine (x ^ (y % 2 ^ 32).toNat :: s))
  | .emod, d :: y :: x :: s =>
      if d = 0 then fault MP_UNDEF
      else if y < 0 then fault MP_RANGE
      -- a negative modulus is not refused, but the result is not a remainder
      else if d < 0 then fine (negResult x y.toNat d :: s)
      else if y = 0 ∧ d = 1 then fine (1 :: s)
      else fine (x ^ y.toNat % d :: s)
  | .sqr, x :: s => fine (x * x :: s)
  -- the modulus is removed from the stack in any case
  | .inv, y :: x :: s =>
      if x = 0 ∨ y ≤ 0 then .ok MP_RANGE { A with stack := x :: s } []
      else if Int.gcd x y ≠ 1 then .ok MP_UNDEF { A with stack := x :: s } []
      else fine (invOf x y :: s)
  | .gcd, y :: x :: s => if x = 0 ∧ y = 0 then fault MP_UNDEF else fine (Int.gcd x y :: s)
  | .xgcd, y :: x :: s =>
      if x = 0 ∧ y = 0 then fault MP_UNDEF
      else if x = 0 then fine (1 :: 0 :: |y| :: s)
      else if y = 0 then fine (0 :: 1 :: |x| :: s)
      else fine ((L.bez x y).2 :: (L.bez x y).1 :: Int.gcd x y :: s)
  | .sqrt, x :: s => if x < 0 then fault MP_UNDEF else fine (floorRoot 2 x.toNat :: s)
  -- the exponent is removed from the stack also if there is no root; its lower 32 bits are used
  | .root, y :: x :: s => small A y
      (if y ≤ 0 then .crash .assert
      else if x < 0 ∧ y % 2 = 0 then .ok MP_UNDEF { A with stack := x :: s } []
      else if y % 2 ^ 32 = 0 then if x = 0 then .ok MP_UNDEF { A with stack := x :: s } [] else fine (x :: s)
      else fine (x.sign * floorRoot (y % 2 ^ 32).toNat x.natAbs :: s))
  | .lt, y :: x :: s => truth (x < y) inferInstance s
  | .gt, y :: x :: s => truth (x > y) inferInstance s
  | .le, y :: x :: s => truth (x ≤ y) inferInstance s
  | .ge, y :: x :: s => truth (x ≥ y) inferInstance s
  | .eq, y :: x :: s => truth (x = y) inferInstance s
  | .ne, y :: x :: s => truth (x ≠ y) inferInstance s
  | .inc, x :: s => fine ((x + 1) :: s)
  | .dec, x :: s => fine ((x - 1) :: s)
  | .fact, x :: s => if x < 0 then fault MP_UNDEF else fine (x.toNat.factorial :: s)
  | .show, x :: s => if Fits L A.radix x then .ok MP_OK { A with stack := s } (line A.radix x) else .crash .ub
  | .peek, x :: _ => if Fits L A.radix x then .ok MP_OK A (line A.radix x) else .crash .ub
  | .list, s => if ∀ x ∈ s, Fits L A.radix x then .ok MP_OK A (stackText A.radix s) else .crash .ub
  | .cls, _ => fine []
  | .drop, _ :: s => fine s
  | .dup, x :: s => fine (x :: x :: s)
  | .copy, n :: s => small A n
      (if n < 1 ∨ s.length < n then fault MP_RANGE else fine (s.take n.toNat ++ s))
  | .swap, y :: x :: s => fine (x :: y :: s)
  | .rot, z :: y :: x :: s => fine (x :: z :: y :: s)
  | .pick, n :: s => small A n
      (if n < 0 ∨ s.length ≤ n then fault MP_RANGE else fine (s.getD n.toNat 0 :: s))
  | .clm, _ => .ok MP_OK { A with vars := [] } []
  | .vars, _ => if ∀ p ∈ A.vars, Fits L A.radix p.2 then .ok MP_OK A (varsText A.radix A.vars) else .crash .ub
  | .out, r :: s => small A r
      (if r < 2 ∨ 36 < r then fault MP_RANGE else .ok MP_OK { A with stack := s, radix := r.toNat } [])
  | .bin, _ => .ok MP_OK { A with radix := 0 } []
  | .help, _ => .ok MP_OK A []
  -- does not occur: a command with too few operands is not performed, and `>>` and `<<` are below
  | _, _ => fault MP_UNDEF

/-- Push the value of a variable. -/
def recallVar (A : Calculator) (n : List Nat) : Int × Calculator :=
  match getVar n A.vars with
  | some v => (MP_OK, { A with stack := v :: A.stack })
  | none => (MP_UNDEF, A)

/-- The result code for a token that is not a name, after `>>` or `<<`. -/
def BAD_INPUT : Int := -7

/-- `>>` or `<<` and the token that follows. -/
def withName (c : Cmd) (A : Calculator) : Tok → Int × Calculator
  | .sym n =>
    if c = .store then (MP_OK, { A with stack := A.stack.tail, vars := setVar (cut n) (A.stack.headD 0) A.vars })
    else recallVar A (cut n)
  | _ => (BAD_INPUT, A)

/-! ### Sessions -/

/-- How a session ends: with the last result code, what has been written, the calculator, and the tokens that have
not been read; or with a fault. -/
inductive Outcome where
  | done (code : Int) (txt : List Nat) (A : Calculator) (left : List Tok)
  | crash (f : Fault)

/-- Text that was written before. -/
def Outcome.after (txt : List Nat) : Outcome → Outcome
  | .done c t A left => .done c (txt ++ t) A left
  | .crash f => .crash f

/-- A session; `code` is the result code of the last command that was performed.  Commands that are not known or
have too few operands are ignored. -/
def session (L : Lib) (A : Calculator) (code : Int) : List Tok → Outcome
  | [] => .done code [] A []
  | .long :: ts => .done MP_BADARG [] A ts
  | .num s :: ts =>
    match numVal s with
    | .ok v => session L { A with stack := v :: A.stack } MP_OK ts
    | .error e => session L A e ts
  | .sym s :: ts =>
    match command (cut s) with
    | none =>
      if (getVar (cut s) A.vars).isSome then
        let r := recallVar A (cut s)
        session L r.2 r.1 ts
      else session L A code ts
    | some c =>
      if A.stack.length < c.info.1 then session L A code ts
      else if c = .store ∨ c = .recall then
        match ts with
        | [] => .done BAD_INPUT [] A []
        | t :: ts =>
          let r := withName c A t
          session L r.2 r.1 ts
      else
        match c.act L A with
        | .ok code A txt => (session L A code ts).after txt
        | .crash f => .crash f

/-- The characters of a string. -/
def chars (s : String) : List Nat := s.toList.map Char.toNat

/-- The calculator at the start. -/
def Calculator.start : Calculator := ⟨[], [], 10⟩

/-- Where a session reads from: the standard input, a file with a text, or a file that cannot be opened. -/
inductive Source where
  | stdin
  | text (s : List Nat)
  | missing

/-- Several inputs one after the other; `std` are the tokens of the standard input that have not been read.  The code is
the exit status: it counts the inputs at whose end the last result code is not `MP_OK`; `errs` are those before.  A file
that cannot be opened ends the program. -/
def sessions (L : Lib) (A : Calculator) (errs : Nat) (std : List Tok) : List Source → Outcome
  | [] => .done (if errs > 0 then 1 else 0) [] A std
  | .missing :: _ => .done 1 [] A std
  | .stdin :: ss =>
    match session L A MP_OK std with
    | .done c txt A left => (sessions L A (if c = MP_OK then errs else errs + 1) left ss).after txt
    | .crash f => .crash f
  | .text s :: ss =>
    match session L A MP_OK (tokens s) with
    | .done c txt A _ => (sessions L A (if c = MP_OK then errs else errs + 1) std ss).after txt
    | .crash f => .crash f

/-- The inputs for the arguments of the program: without arguments it is the standard input; the argument `-`
stands for the standard input, and every other argument for the file that is named by the FIRST argument. -/
def inputs (files : List Nat → Option (List Nat)) (args : List (List Nat)) : List Source :=
  match args with
  | [] => [.stdin]
  | first :: _ => args.map fun a => if a = [45] then .stdin else match files first with
    | none => .missing
    | some s => .text s

/-! ### Expressions -/

/-- Expressions over the integers. -/
inductive Expr where
  | lit (x : Int)
  | neg (a : Expr) | abs (a : Expr) | sqr (a : Expr) | fact (a : Expr)
  | add (a b : Expr) | sub (a b : Expr) | mul (a b : Expr) | quo (a b : Expr) | rem (a b : Expr) | gcd (a b : Expr) | pow (a b : Expr)

/-- The value of an expression.  Division rounds towards zero, and remainders are for positive divisors. -/
def Expr.value : Expr → Option Int
  | .lit x => some x
  | .neg a => do pure (-(← a.value))
  | .abs a => do pure |← a.value|
  | .sqr a => do pure ((← a.value) ^ 2)
  | .fact a => do
    let x ← a.value
    if x < 0 then none else some x.toNat.factorial
  | .add a b => do pure ((← a.value) + (← b.value))
  | .sub a b => do pure ((← a.value) - (← b.value))
  | .mul a b => do pure ((← a.value) * (← b.value))
  | .quo a b => do
    let x ← a.value
    let y ← b.value
    if y = 0 then none else some (x.tdiv y)
  | .rem a b => do
    let x ← a.value
    let y ← b.value
    if y ≤ 0 then none else some (x % y)
  | .gcd a b => do
    let x ← a.value
    let y ← b.value
    if x = 0 ∧ y = 0 then none else some (Int.gcd x y)
  | .pow a b => do
    let x ← a.value
    let y ← b.value
    if y < 0 ∨ 2 ^ 32 ≤ y then none else some (x ^ y.toNat)

/-- The expression in reverse Polish notation. -/
def Expr.text : Expr → List Nat
  | .lit x => numeral 10 x ++ [32]
  | .neg a => a.text ++ [110, 101, 103, 32] -- `neg`
  | .abs a => a.text ++ [97, 98, 115, 32] -- `abs`
  | .sqr a => a.text ++ [115, 113, 114, 32] -- `sqr`
  | .fact a => a.text ++ [33, 32] -- `!`
  | .add a b => a.text ++ b.text ++ [43, 32] -- `+`
  | .sub a b => a.text ++ b.text ++ [45, 32] -- `-`
  | .mul a b => a.text ++ b.text ++ [42, 32] -- `*`
  | .quo a b => a.text ++ b.text ++ [47, 47, 32] -- `//`
  | .rem a b => a.text ++ b.text ++ [37, 32] -- `%`
  | .gcd a b => a.text ++ b.text ++ [103, 99, 100, 32] -- `gcd`
  | .pow a b => a.text ++ b.text ++ [94, 32] -- `^`

/-- All integers in the expression have fewer than 16383 characters. -/
def Expr.short : Expr → Prop
  | .lit x => (numeral 10 x).length < 16383
  | .neg a | .abs a | .sqr a | .fact a => a.short
  | .add a b | .sub a b | .mul a b | .quo a b | .rem a b | .gcd a b | .pow a b => a.short ∧ b.short

end Imath
