import Verif.Model.Digits

/-!
# The integer API of imath.c: arithmetic

Parameters which the C code requires to be non-NULL by an assertion are plain `Id`s; parameters which
may be NULL are `Option Id`.  `mp_small` arguments are `Int`s (the caller keeps them in range).
-/

namespace Imath

/-- Conversion of an `mp_small` to `mp_size` or `unsigned int`. -/
def intU32 (v : Int) : Nat := (v % 4294967296).toNat

/-- imath.c:368-378 `mp_int_init` -/
def mp_int_init (z : Id) : M Int := do
  wr (singlePtr z) 0
  setDigits z (some (singlePtr z))
  setAlloc z 1
  setUsed z 1
  setSign z false
  pure MP_OK

/-- imath.c:388-408 `mp_int_init_size` -/
def mp_int_init_size (z : Id) (prec : Nat) : M Int := do
  let dp := (← getMem).defPrec
  if prec = 1 then mp_int_init z
  else do
    let prec := if prec = 0 then dp else s_round_prec prec
    let p ← s_alloc prec
    setDigits z (some p)
    wr p 0
    setUsed z 1
    setAlloc z prec
    setSign z false
    pure MP_OK

/-- imath.c:410-427 `mp_int_init_copy` -/
def mp_int_init_copy (z old : Id) : M Int := do
  let uold ← MP_USED old
  let res ← cif (uold = 1) (mp_int_init z) do
    let target := MAX uold (← getMem).defPrec
    mp_int_init_size z target
  if res ≠ MP_OK then pure res
  else do
    setUsed z uold
    setSign z (← MP_SIGN old)
    COPY (← MP_DIGITS old) (← MP_DIGITS z) uold
    pure MP_OK

/-- imath.c:461-469 `mp_int_clear` -/
def mp_int_clear (z : Id) : M Unit := do
  match (← getI z).digits with
  | none => pure ()
  | some p => do
    cwhen (p ≠ singlePtr z) (s_free p)
    setDigits z none

/-- imath.c:478-496 `mp_int_copy` -/
def mp_int_copy (a c : Id) : M Int := do
  if a ≠ c then do
    let ua ← MP_USED a
    if (← s_pad c ua) then do
      let da ← MP_DIGITS a
      let dc ← MP_DIGITS c
      COPY da dc ua
      setUsed c ua
      setSign c (← MP_SIGN a)
      pure MP_OK
    else pure MP_MEMORY
  else pure MP_OK

/-- imath.c:429-435 `mp_int_init_value` -/
def mp_int_init_value (z : Id) (value : Int) : M Int := withFake value fun v => mp_int_init_copy z v
/-- imath.c:437-443 `mp_int_init_uvalue` -/
def mp_int_init_uvalue (z : Id) (value : Nat) : M Int := withUFake value fun v => mp_int_init_copy z v
/-- imath.c:445-451 `mp_int_set_value` -/
def mp_int_set_value (z : Id) (value : Int) : M Int := withFake value fun v => mp_int_copy v z
/-- imath.c:453-459 `mp_int_set_uvalue` -/
def mp_int_set_uvalue (z : Id) (value : Nat) : M Int := withUFake value fun v => mp_int_copy v z

/-- imath.c:498-508 `mp_int_swap` (structure assignment copies the `single` member as well) -/
def mp_int_swap (a c : Id) : M Unit := do
  if a ≠ c then do
    let tmp ← getI a
    let tmpSingle ← rd (singlePtr a)
    let C ← getI c
    let cSingle ← rd (singlePtr c)
    setI a fun _ => C
    wr (singlePtr a) cSingle
    setI c fun _ => tmp
    wr (singlePtr c) tmpSingle
    cwhen ((← getI a).digits = some (singlePtr c)) (setDigits a (some (singlePtr a)))
    cwhen ((← getI c).digits = some (singlePtr a)) (setDigits c (some (singlePtr c)))
  else pure ()

/-- imath.c:518-526 `mp_int_abs` -/
def mp_int_abs (a c : Id) : M Int := do
  let res ← mp_int_copy a c
  if res ≠ MP_OK then pure res
  else do
    setSign c false
    pure MP_OK

/-- imath.c:528-537 `mp_int_neg` -/
def mp_int_neg (a c : Id) : M Int := do
  let res ← mp_int_copy a c
  if res ≠ MP_OK then pure res
  else do
    cwhen ((← CMPZ c) ≠ 0) do setSign c (!(← MP_SIGN a))
    pure MP_OK

/-- The addition of magnitudes shared by `mp_int_add` (imath.c:547-562) and `mp_int_sub`
(imath.c:613-628); the result has the sign of `a`. -/
def addMag (a b c : Id) (ua ub max : Nat) : M Int := do
  if (← s_pad c max) then do
    let carry ← s_uadd (← MP_DIGITS a) (← MP_DIGITS b) (← MP_DIGITS c) ua ub
    if carry ≠ 0 then do
      if (← s_pad c (u32 (max + 1))) then do
        wr ((← MP_DIGITS c).add max) carry
        setUsed c (u32 (max + 1))
        setSign c (← MP_SIGN a)
        pure MP_OK
      else pure MP_MEMORY
    else do
      setUsed c max
      setSign c (← MP_SIGN a)
      pure MP_OK
  else pure MP_MEMORY

/-- The subtraction of magnitudes in `mp_int_add`, imath.c:582-590 -/
def addSub (x y c : Id) : M Int := do
  if (← s_pad c (← MP_USED x)) then do
    s_usub (← MP_DIGITS x) (← MP_DIGITS y) (← MP_DIGITS c) (← MP_USED x) (← MP_USED y)
    setUsed c (← MP_USED x)
    CLAMP c
    setSign c (← MP_SIGN x)
    pure MP_OK
  else pure MP_MEMORY

/-- imath.c:539-594 `mp_int_add` -/
def mp_int_add (a b c : Id) : M Int := do
  let ua ← MP_USED a
  let ub ← MP_USED b
  let max := MAX ua ub
  if (← MP_SIGN a) = (← MP_SIGN b) then addMag a b c ua ub max
  else do
    let cmp ← s_ucmp a b
    if cmp = 0 then do
      mp_int_zero c
      pure MP_OK
    else if cmp < 0 then addSub b a c
    else addSub a b c

/-- imath.c:596-603 `mp_int_add_value` -/
def mp_int_add_value (a : Id) (value : Int) (c : Id) : M Int := withFake value fun v => mp_int_add a v c

/-- The subtraction of magnitudes in `mp_int_sub`, imath.c:647-651 -/
def subSub (x y c : Id) (osign : Bool) : M Int := do
  s_usub (← MP_DIGITS x) (← MP_DIGITS y) (← MP_DIGITS c) (← MP_USED x) (← MP_USED y)
  setUsed c (← MP_USED x)
  CLAMP c
  setSign c osign
  pure MP_OK

/-- imath.c:605-656 `mp_int_sub` -/
def mp_int_sub (a b c : Id) : M Int := do
  let ua ← MP_USED a
  let ub ← MP_USED b
  let max := MAX ua ub
  if (← MP_SIGN a) ≠ (← MP_SIGN b) then addMag a b c ua ub max
  else if (← s_pad c max) then do
    let cmp ← s_ucmp a b
    let na ← MP_SIGN a
    if cmp ≥ 0 then
      subSub a b c (if na ∧ cmp ≠ 0 then true else false)
    else
      subSub b a c (if na ∧ cmp ≠ 0 then false else true)
  else pure MP_MEMORY

/-- imath.c:658-665 `mp_int_sub_value` -/
def mp_int_sub_value (a : Id) (value : Int) (c : Id) : M Int := withFake value fun v => mp_int_sub a v c

/-- imath.c:1004-1014 `mp_int_compare_zero` -/
def mp_int_compare_zero (z : Id) : M Int := do
  if (← MP_USED z) = 1 ∧ (← rd (← MP_DIGITS z)) = 0 then pure 0
  else if (← MP_SIGN z) then pure (-1) else pure 1

/-- The choice of the output buffer in `mp_int_mul` (imath.c:685-697) and `mp_int_sqr`
(imath.c:746-756): a new block if the output is also an input. -/
def outBuf (aliased : Bool) (c : Id) (osize : Nat) : M (Ptr × Nat) := do
  if aliased then do
    let p := MAX (s_round_prec osize) (← getMem).defPrec
    let out ← s_alloc p
    pure (out, p)
  else do
    let _ ← s_pad c osize
    let out ← MP_DIGITS c
    pure (out, 0)

/-- The installation of the result, imath.c:702-712 and imath.c:763-771. -/
def installOut (c : Id) (out : Ptr) (p osize : Nat) (osign : Bool) : M Int := do
  let dc ← MP_DIGITS c
  cwhen (out ≠ dc) do
    cwhen (dc ≠ singlePtr c) (s_free dc)
    setDigits c (some out)
    setAlloc c p
  setUsed c osize
  CLAMP c
  setSign c osign
  pure MP_OK

/-- imath.c:667-715 `mp_int_mul` -/
def mp_int_mul (a b c : Id) : M Int := do
  let za ← mp_int_compare_zero a
  let zb ← cif (za = 0) (pure 0) (mp_int_compare_zero b)
  if zb = 0 then do
    mp_int_zero c
    pure MP_OK
  else do
    let osign := if (← MP_SIGN a) = (← MP_SIGN b) then false else true
    let ua ← MP_USED a
    let ub ← MP_USED b
    let osize := u32 (4 * (u32 (MAX ua ub + 1) / 2))
    let (out, p) ← outBuf (c = a ∨ c = b) c osize
    ZERO out osize
    let ok ← s_kmul (← MP_DIGITS a) (← MP_DIGITS b) out ua ub
    if ok = 0 then pure MP_MEMORY
    else installOut c out p osize osign

/-- imath.c:717-724 `mp_int_mul_value` -/
def mp_int_mul_value (a : Id) (value : Int) (c : Id) : M Int := withFake value fun v => mp_int_mul a v c

/-- imath.c:726-737 `mp_int_mul_pow2` -/
def mp_int_mul_pow2 (a : Id) (p2 : Int) (c : Id) : M Int := do
  cassert (p2 ≥ 0)
  let res ← mp_int_copy a c
  if res ≠ MP_OK then pure res
  else if (← s_qmul c (intU32 p2)) then pure MP_OK
  else pure MP_MEMORY

/-- imath.c:739-774 `mp_int_sqr` -/
def mp_int_sqr (a c : Id) : M Int := do
  let ua ← MP_USED a
  let osize := u32 (4 * (u32 (ua + 1) / 2))
  let (out, p) ← outBuf (a = c) c osize
  ZERO out osize
  let _ ← s_ksqr (← MP_DIGITS a) out (← MP_USED a)
  installOut c out p osize false

/-- One `TEMP(i)` of `DECLARE_TEMP` ... `CLEANUP_TEMP` (imath.c:136-149).  Several temporaries are
nested, so they are cleared in the opposite order; clearing only touches the object itself. -/
def withTemp {α : Type} (k : Id → M α) : M α := do
  let t ← declInt .tmp
  let _ ← mp_int_init t
  let r ← k t
  mp_int_clear t
  dropInt t
  pure r

/-- imath.c:170-174 `REQUIRE` -/
def REQUIRE (e : M Int) (k : M Int) : M Int := do
  let r ← e
  if r ≠ MP_OK then pure r else k

/-! ### Division -/

/-- The multiplication `t = qhat * v` with adjustment of `used`, imath.c:2600-2602 etc. -/
def knuthMul (v t : Id) (qhat n : Nat) : M Unit := do
  s_dbmul (← MP_DIGITS v) (u32 qhat) (← MP_DIGITS t) (u32 (n + 1))
  setUsed t (u32 (n + 1))
  CLAMP t

/-- `s_ucmp(TEMP(1), &r)` where `r` is given by its digits and `used` (imath.c:1784-1794) -/
def ucmpRaw (t : Id) (rd_ : Ptr) (ru : Nat) : M Int := do
  let ua ← MP_USED t
  if ua > ru then pure 1
  else if ru > ua then pure (-1)
  else s_cdig (← MP_DIGITS t) rd_ ua

/-- The determination of a quotient digit, imath.c:2569-2619; `r` is `r.digits`.  Only the members
`digits` and `used` of the local `mpz_t r` are read, so it is represented by these. -/
def knuthDigit (v t : Id) (r : Ptr) (n : Nat) : M Nat := do
  let hi ← rd (r.add n)
  let lo ← rd (r.add (n - 1))
  let pfx := u64 (u64 (hi <<< 16) <<< 16) ||| lo
  let vn ← rd ((← MP_DIGITS v).add (n - 1))
  if vn = 0 then fail .ub
  else do
    let qhat := pfx / vn
    let qhat := if qhat > 4294967295 then 4294967295 else qhat
    knuthMul v t qhat n
    let ru ← clampLoop r (n + 1)
    if (← ucmpRaw t r ru) > 0 then do
      let qhat := sub64 qhat 1
      knuthMul v t qhat n
      if (← ucmpRaw t r ru) > 0 then do
        cassert (qhat > 0)
        let qhat := sub64 qhat 1
        knuthMul v t qhat n
        cassert ((← ucmpRaw t r ru) ≤ 0)
        pure qhat
      else do
        cassert ((← ucmpRaw t r ru) ≤ 0)
        pure qhat
    else pure qhat

/-- The main loop of `s_udiv_knuth`, imath.c:2567-2647; the count is `j + 1` -/
def knuthLoop (v q t : Id) (du : Ptr) (n : Nat) : Nat → M Unit
  | 0 => pure ()
  | j + 1 => do
    let r := du.add j
    let qhat ← knuthDigit v t r n
    s_usub r (← MP_DIGITS t) r (n + 1) (← MP_USED t)
    wr ((← MP_DIGITS q).add j) (u32 qhat)
    ZERO (← MP_DIGITS t) (← MP_ALLOC t)
    knuthLoop v q t du n j

/-- imath.c:2502-2673 `s_udiv_knuth` -/
def s_udiv_knuth (u v : Id) : M Int := do
  setSign u false
  setSign v false
  if (← MP_USED v) = 1 then do
    let d ← rd (← MP_DIGITS v)
    let rem ← s_ddiv u d
    let _ ← mp_int_set_value v rem
    pure MP_OK
  else do
    let n ← MP_USED v
    let m := sub32 (← MP_USED u) n
    cassert (n > 1)
    let k ← s_norm u v
    cwhen (k = 0 ∨ (← MP_USED u) ≠ u32 (m + n + 1)) do
      let _ ← s_pad u (u32 (m + n + 1))
      wr ((← MP_DIGITS u).add (u32 (m + n))) 0
      setUsed u (u32 (m + n + 1))
    let _ ← s_pad v (u32 (n + 1))
    wr ((← MP_DIGITS v).add n) 0
    withTemp fun q => withTemp fun t =>
      REQUIRE (GROW q (u32 (m + 1))) <|
      REQUIRE (GROW t (u32 (n + 1))) do
        let du ← MP_DIGITS u
        ZERO (← MP_DIGITS t) (← MP_ALLOC t)
        knuthLoop v q t du n (m + 1)
        setUsed q (u32 (m + 1))
        CLAMP q
        CLAMP u
        cwhen (k ≠ 0) (s_qdiv u k)
        let _ ← mp_int_copy u v
        let _ ← mp_int_copy q u
        pure MP_OK

/-- `if (z) f(z)` -/
def optDo (z : Option Id) (f : Id → M Unit) : M Unit :=
  match z with
  | some z => f z
  | none => pure ()

/-- `if (z) res = f(z)` where `res` is `MP_OK` before -/
def optRes (z : Option Id) (f : Id → M Int) : M Int :=
  match z with
  | some z => f z
  | none => pure MP_OK

/-- `if (z) REQUIRE(f(z))` -/
def optRequire (z : Option Id) (f : Id → M Int) (k : M Int) : M Int :=
  match z with
  | some z => REQUIRE (f z) k
  | none => k

/-- `z->sign = n; if (CMPZ(z) == 0) z->sign = MP_ZPOS;` imath.c:847-848, 851-852 -/
def fixSign (n : Bool) (z : Id) : M Unit := do
  setSign z n
  cwhen ((← CMPZ z) = 0) (setSign z false)

/-- imath.c:844-857: signs and final copies of `mp_int_div` -/
def divFinish (sa sb : Bool) (q r qout rout : Option Id) : M Int := do
  optDo rout (fixSign sa)
  optDo qout (fixSign (if sa = sb then false else true))
  optRequire q (fun q => match qout with | some x => mp_int_copy x q | none => fail .ub) <|
    optRequire r (fun r => match rout with | some x => mp_int_copy x r | none => fail .ub) <|
      pure MP_OK

/-- imath.c:818-829: the result `o` itself if it is present and is not `x`, else the temporary `t` -/
def divOut (o : Option Id) (x t : Id) : Id :=
  match o with
  | some z => if x ≠ z then z else t
  | none => t

/-- imath.c:776-859 `mp_int_div` -/
def mp_int_div (a b : Id) (q r : Option Id) : M Int := do
  cassert (q ≠ r)
  let sa ← MP_SIGN a
  let sb ← MP_SIGN b
  if (← CMPZ b) = 0 then pure MP_UNDEF
  else do
    let cmp ← s_ucmp a b
    if cmp < 0 then do
      let res ← optRes r fun r => mp_int_copy a r
      if res ≠ MP_OK then pure res
      else do
        optDo q mp_int_zero
        pure MP_OK
    else if cmp = 0 then do
      optDo r mp_int_zero
      optDo q fun q => do
        mp_int_zero q
        wr (← MP_DIGITS q) 1
        cwhen (sa ≠ sb) (setSign q true)
      pure MP_OK
    else
      withTemp fun t0 => withTemp fun t1 => do
        let lg ← s_isp2 b
        if lg < 0 then do
          let qout := divOut q b t0
          let rout := divOut r a t1
          REQUIRE (mp_int_copy a qout) <|
            REQUIRE (mp_int_copy b rout) <|
              REQUIRE (s_udiv_knuth qout rout) <|
                divFinish sa sb q r (some qout) (some rout)
        else
          optRequire q (fun q => mp_int_copy a q) <|
            optRequire r (fun r => mp_int_copy a r) do
              optDo q fun q => s_qdiv q (intU32 lg)
              optDo r fun r => s_qmod r (intU32 lg)
              divFinish sa sb q r q r

/-- imath.c:861-872 `mp_int_mod` -/
def mp_int_mod (a m c : Id) : M Int :=
  withTemp fun t0 => do
    let out := if m = c then t0 else c
    REQUIRE (mp_int_div a m none (some out)) do
      if (← CMPZ out) < 0 then REQUIRE (mp_int_add out m c) (pure MP_OK)
      else REQUIRE (mp_int_copy out c) (pure MP_OK)

/-- imath.c:888-901 `mp_int_div_pow2` -/
def mp_int_div_pow2 (a : Id) (p2 : Int) (q r : Option Id) : M Int := do
  cassert (p2 ≥ 0)
  cassert (q ≠ r)
  let res ← optRes q fun q => do
    let res ← mp_int_copy a q
    cwhen (res = MP_OK) (s_qdiv q (intU32 p2))
    pure res
  if res = MP_OK then
    optRes r fun r => do
      let res ← mp_int_copy a r
      cwhen (res = MP_OK) (s_qmod r (intU32 p2))
      pure res
  else pure res

/-! ### Comparison, conversion to machine integers -/

/-- imath.c:977-996 `mp_int_compare` -/
def mp_int_compare (a b : Id) : M Int := do
  let sa ← MP_SIGN a
  if sa = (← MP_SIGN b) then do
    let cmp ← s_ucmp a b
    if sa then pure (-cmp) else pure cmp
  else if sa then pure (-1) else pure 1

/-- imath.c:998-1002 `mp_int_compare_unsigned` -/
def mp_int_compare_unsigned (a b : Id) : M Int := s_ucmp a b

/-- imath.c:1016-1027 `mp_int_compare_value` -/
def mp_int_compare_value (z : Id) (value : Int) : M Int := do
  let vsign : Bool := value < 0
  if vsign = (← MP_SIGN z) then do
    let cmp ← s_vcmp z value
    if vsign then pure (-cmp) else pure cmp
  else if value < 0 then pure 1 else pure (-1)

/-- imath.c:1029-1037 `mp_int_compare_uvalue` -/
def mp_int_compare_uvalue (z : Id) (uv : Nat) : M Int := do
  if (← MP_SIGN z) then pure (-1) else s_uvcmp z uv

/-- A left shift by 16 of a nonnegative signed 64-bit value; undefined when the result does not fit. -/
def shl16S (uv : Nat) : M Nat := if uv * 65536 < 9223372036854775808 then pure (uv * 65536) else fail .ub

/-- Loop of `mp_int_to_int`, imath.c:1408-1412; the count is `uz` -/
def toIntLoop (dz : Ptr) : Nat → Nat → M Nat
  | 0, uv => pure uv
  | n + 1, uv => do
    let uv ← shl16S uv
    let uv ← shl16S uv
    toIntLoop dz n (uv ||| (← rd (dz.add n)))

/-- imath.c:1395-1417 `mp_int_to_int`; the second component is what is stored in `*out` -/
def mp_int_to_int (z : Id) : M (Int × Option Int) := do
  let sz ← MP_SIGN z
  let c1 ← cif (sz = false) (mp_int_compare_value z SMALL_MAX) (pure 0)
  if c1 > 0 then pure (MP_RANGE, none)
  else if (← mp_int_compare_value z SMALL_MIN) < 0 then pure (MP_RANGE, none)
  else do
    let uz ← MP_USED z
    let uv ← toIntLoop (← MP_DIGITS z) uz 0
    pure (MP_OK, some (if sz then -(uv : Int) else uv))

/-- Loop of `mp_int_to_uint`, imath.c:1432-1436 -/
def toUintLoop (dz : Ptr) : Nat → Nat → M Nat
  | 0, uv => pure uv
  | n + 1, uv => do
    toUintLoop dz n (u64 (u64 (uv <<< 16) <<< 16) ||| (← rd (dz.add n)))

/-- imath.c:1419-1441 `mp_int_to_uint` -/
def mp_int_to_uint (z : Id) : M (Int × Option Nat) := do
  if (← MP_SIGN z) then pure (MP_RANGE, none)
  else if (← mp_int_compare_uvalue z USMALL_MAX) > 0 then pure (MP_RANGE, none)
  else do
    let uz ← MP_USED z
    let uv ← toUintLoop (← MP_DIGITS z) uz 0
    pure (MP_OK, some uv)

/-- imath.c:874-886 `mp_int_div_value`; the second component is what is stored in `*r` (when the
caller passes a non-NULL `r`) -/
def mp_int_div_value (a : Id) (value : Int) (q : Option Id) : M (Int × Option Int) :=
  withFake value fun v => withTemp fun t0 => do
    let res ← mp_int_div a v q (some t0)
    if res ≠ MP_OK then pure (res, none)
    else do
      let (_, r) ← mp_int_to_int t0
      pure (MP_OK, r)

/-- imath.c:1329-1336 `mp_int_divisible_value` -/
def mp_int_divisible_value (a : Id) (v : Int) : M Bool := do
  let (res, r) ← mp_int_div_value a v none
  if res ≠ MP_OK then pure false
  else pure (r.getD 0 = 0)

/-! ### Exponentiation -/

/-- Loop of `mp_int_expt`, imath.c:911-921; first argument fuel -/
def exptLoop (t c : Id) : Nat → Nat → M Int
  | 0, _ => fail .diverge
  | f + 1, v =>
    if v ≠ 0 then
      let tail : M Int :=
        let v := v >>> 1
        if v = 0 then pure MP_OK
        else REQUIRE (mp_int_sqr t t) (exptLoop t c f v)
      if v &&& 1 ≠ 0 then REQUIRE (mp_int_mul c t c) tail else tail
    else pure MP_OK

/-- imath.c:903-925 `mp_int_expt` -/
def mp_int_expt (a : Id) (b : Int) (c : Id) : M Int :=
  if b < 0 then pure MP_RANGE
  else withTemp fun t =>
    REQUIRE (mp_int_copy a t) do
      let _ ← mp_int_set_value c 1
      exptLoop t c 33 (intU32 b)

/-- imath.c:927-949 `mp_int_expt_value` -/
def mp_int_expt_value (a : Int) (b : Int) (c : Id) : M Int :=
  if b < 0 then pure MP_RANGE
  else withTemp fun t =>
    REQUIRE (mp_int_set_value t a) do
      let _ ← mp_int_set_value c 1
      exptLoop t c 33 (intU32 b)

/-- Inner loop of `mp_int_expt_full`, imath.c:962-970; the count is `32 - jx`; `last` is
`ix + 1 == MP_USED(b)`, evaluated anew each time -/
def exptFullInner (b t c : Id) (ix : Nat) (k : M Int) : Nat → Nat → M Int
  | 0, _ => k
  | n + 1, d =>
    let tail : M Int := do
      let d := d >>> 1
      if d = 0 ∧ ix + 1 = (← MP_USED b) then k
      else REQUIRE (mp_int_sqr t t) (exptFullInner b t c ix k n d)
    if d &&& 1 ≠ 0 then REQUIRE (mp_int_mul c t c) tail else tail

/-- Outer loop of `mp_int_expt_full`, imath.c:959-971; first argument fuel.  (In C the `break` of the
inner loop continues the outer loop, whose condition then fails.) -/
def exptFullOuter (b t c : Id) : Nat → Nat → M Int
  | 0, _ => fail .diverge
  | f + 1, ix => do
    if ix < (← MP_USED b) then do
      let d ← rd ((← MP_DIGITS b).add ix)
      exptFullInner b t c ix (exptFullOuter b t c f (ix + 1)) 32 d
    else pure MP_OK

/-- imath.c:951-975 `mp_int_expt_full` -/
def mp_int_expt_full (a b c : Id) : M Int := do
  if (← MP_SIGN b) then pure MP_RANGE
  else withTemp fun t =>
    REQUIRE (mp_int_copy a t) do
      let _ ← mp_int_set_value c 1
      exptFullOuter b t c ((← MP_USED b) + 1) 0

/-! ### Greatest common divisor -/

/-- imath.h:108 `mp_int_is_odd` -/
def mp_int_is_odd (z : Id) : M Bool := do
  let d ← rd (← MP_DIGITS z)
  pure (d &&& 1 ≠ 0)

/-- imath.h:111 `mp_int_is_even` -/
def mp_int_is_even (z : Id) : M Bool := do
  let d ← rd (← MP_DIGITS z)
  pure (d &&& 1 = 0)

/-- Loop of `mp_int_gcd`, imath.c:1187-1199; first argument fuel -/
def gcdLoop (t0 t1 t2 : Id) (k : M Int) : Nat → M Int
  | 0 => fail .diverge
  | f + 1 => do
    s_qdiv t2 (intU32 (← s_dp2k t2))
    let rest : M Int :=
      REQUIRE (mp_int_sub t0 t1 t2) do
        if (← CMPZ t2) = 0 then k else gcdLoop t0 t1 t2 k f
    if (← CMPZ t2) > 0 then REQUIRE (mp_int_copy t2 t0) rest
    else REQUIRE (mp_int_neg t2 t1) rest

/-- imath.c:1152-1207 `mp_int_gcd` -/
def mp_int_gcd (a b c : Id) : M Int := do
  let ca ← CMPZ a
  let cb ← CMPZ b
  if ca = 0 ∧ cb = 0 then pure MP_UNDEF
  else if ca = 0 then mp_int_abs b c
  else if cb = 0 then mp_int_abs a c
  else do
    let fuel := 32 * ((← MP_USED a) + (← MP_USED b)) + 2
    withTemp fun t0 => withTemp fun t1 => withTemp fun t2 =>
      REQUIRE (mp_int_copy a t0) <|
      REQUIRE (mp_int_copy b t1) do
        setSign t0 false
        setSign t1 false
        let div2_u ← s_dp2k t0
        let div2_v ← s_dp2k t1
        let k := MIN div2_u div2_v
        s_qdiv t0 (intU32 k)
        s_qdiv t1 (intU32 k)
        let odd ← mp_int_is_odd t0
        REQUIRE (if odd then mp_int_neg t1 t2 else mp_int_copy t0 t2) <|
          gcdLoop t0 t1 t2
            (REQUIRE (mp_int_abs t0 c) do
              if (← s_qmul c (intU32 k)) then pure MP_OK else pure MP_MEMORY)
            fuel

/-- The halving loops of `mp_int_egcd`, imath.c:1256-1266 (`u`, `x`, `y` = TEMP(4), TEMP(0), TEMP(1))
and imath.c:1268-1278 (TEMP(5), TEMP(2), TEMP(3)); `ou`, `ov` = TEMP(6), TEMP(7); first argument fuel -/
def egcdHalve (u x y ou ov : Id) (k : M Int) : Nat → M Int
  | 0 => fail .diverge
  | f + 1 => do
    if (← mp_int_is_even u) then do
      s_qdiv u 1
      let tail : M Int := do
        s_qdiv x 1
        s_qdiv y 1
        egcdHalve u x y ou ov k f
      let ox ← mp_int_is_odd x
      let oy ← cif (ox = true) (pure true) (mp_int_is_odd y)
      if oy then
        REQUIRE (mp_int_add x ov x) <|
        REQUIRE (mp_int_sub y ou y) tail
      else tail
    else k

/-- Main loop of `mp_int_egcd`, imath.c:1255-1303; `fin` is imath.c:1290-1300 -/
def egcdLoop (A B C D u v ou ov : Id) (fin : M Int) (fuel : Nat) : Nat → M Int
  | 0 => fail .diverge
  | f + 1 =>
    egcdHalve u A B ou ov
      (egcdHalve v C D ou ov
        (do
          let rest : M Int := do
            if (← CMPZ u) = 0 then fin else egcdLoop A B C D u v ou ov fin fuel f
          if (← mp_int_compare u v) ≥ 0 then
            REQUIRE (mp_int_sub u v u) <|
            REQUIRE (mp_int_sub A C A) <|
            REQUIRE (mp_int_sub B D B) rest
          else
            REQUIRE (mp_int_sub v u v) <|
            REQUIRE (mp_int_sub C A C) <|
            REQUIRE (mp_int_sub D B D) rest)
        fuel)
      fuel

/-- A call of a function that asserts that this argument is not NULL. -/
def notNull {α : Type} (z : Option Id) (f : Id → M α) : M α :=
  match z with
  | some z => f z
  | none => fail .assert

/-- imath.c:1213-1308 `mp_int_egcd`; in the cases where one operand is zero, `mp_int_zero(x)` and
`mp_int_set_value(y, 1)` assert that their argument is not NULL -/
def mp_int_egcd (a b c : Id) (x y : Option Id) : M Int := do
  cassert (x ≠ none ∨ y ≠ none)
  let ca ← CMPZ a
  let cb ← CMPZ b
  if ca = 0 ∧ cb = 0 then pure MP_UNDEF
  else if ca = 0 then do
    let res ← mp_int_abs b c
    if res ≠ MP_OK then pure res
    else do
      notNull x mp_int_zero
      let _ ← notNull y fun y => mp_int_set_value y 1
      pure MP_OK
  else if cb = 0 then do
    let res ← mp_int_abs a c
    if res ≠ MP_OK then pure res
    else do
      let _ ← notNull x fun x => mp_int_set_value x 1
      notNull y mp_int_zero
      pure MP_OK
  else do
    let fuel := 32 * ((← MP_USED a) + (← MP_USED b)) + 2
    withTemp fun A => withTemp fun B => withTemp fun C => withTemp fun D =>
    withTemp fun u => withTemp fun v => withTemp fun ou => withTemp fun ov =>
      REQUIRE (mp_int_set_value A 1) <|
      REQUIRE (mp_int_set_value D 1) <|
      REQUIRE (mp_int_copy a u) <|
      REQUIRE (mp_int_copy b v) do
        setSign u false
        setSign v false
        let div2_u ← s_dp2k u
        let div2_v ← s_dp2k v
        let k := MIN div2_u div2_v
        s_qdiv u (intU32 k)
        s_qdiv v (intU32 k)
        REQUIRE (mp_int_copy u ou) <|
          REQUIRE (mp_int_copy v ov) <|
            egcdLoop A B C D u v ou ov
              (optRequire x (fun x => mp_int_copy C x) <|
                optRequire y (fun y => mp_int_copy D y) do
                  if (← s_qmul v (intU32 k)) then REQUIRE (mp_int_copy v c) (pure MP_OK)
                  else pure MP_MEMORY)
              fuel fuel

/-- imath.c:1120-1149 `mp_int_invmod` -/
def mp_int_invmod (a m c : Id) : M Int := do
  let ca ← CMPZ a
  let cm ← cif (ca = 0) (pure 0) (CMPZ m)
  if ca = 0 ∨ cm ≤ 0 then pure MP_RANGE
  else
    withTemp fun t0 => withTemp fun t1 =>
      REQUIRE (mp_int_egcd a m t0 (some t1) none) do
        if (← mp_int_compare_value t0 1) ≠ 0 then pure MP_UNDEF
        else
          REQUIRE (mp_int_mod t1 m t1) do
            if (← MP_SIGN a) then REQUIRE (mp_int_sub m t1 c) (pure MP_OK)
            else REQUIRE (mp_int_copy t1 c) (pure MP_OK)

/-- imath.c:1310-1327 `mp_int_lcm` -/
def mp_int_lcm (a b c : Id) : M Int :=
  withTemp fun t0 =>
    REQUIRE (mp_int_gcd a b t0) <|
    REQUIRE (mp_int_div a t0 (some t0) none) <|
    REQUIRE (mp_int_mul t0 b t0) <|
    REQUIRE (mp_int_copy t0 c) (pure MP_OK)

/-- imath.c:1338-1342 `mp_int_is_pow2` -/
def mp_int_is_pow2 (z : Id) : M Int := s_isp2 z

/-- Loop of `mp_int_count_bits`, imath.c:1572-1575; first argument fuel -/
def countBitsLoop : Nat → Nat → Nat → M Nat
  | 0, _, _ => fail .diverge
  | f + 1, d, nbits => if d ≠ 0 then countBitsLoop f (d >>> 1) (u32 (nbits + 1)) else pure nbits

/-- imath.c:1562-1578 `mp_int_count_bits` -/
def mp_int_count_bits (z : Id) : M Int := do
  let uz ← MP_USED z
  let dz ← MP_DIGITS z
  let d0 ← rd dz
  if uz = 1 ∧ d0 = 0 then pure 1
  else do
    let d ← rd (dz.add (sub32 uz 1))
    let nbits ← countBitsLoop 33 d (u32 (sub32 uz 1 * 32))
    pure (toInt32 nbits)

/-! ### Tuning parameters -/

/-- imath.c:200-203 `mp_int_default_precision` -/
def mp_int_default_precision (size : Nat) : M Unit := do
  cassert (size > 0)
  let m ← getMem
  setMem { m with defPrec := size }

/-- imath.c:208-211 `mp_int_multiply_threshold`; `sizeof(mp_word)` is 8 -/
def mp_int_multiply_threshold (thresh : Nat) : M Unit := do
  cassert (thresh ≥ 8)
  let m ← getMem
  setMem { m with mulThr := thresh }

/-! ### Roots -/

/-- Loop of `mp_int_root`, imath.c:1370-1386; last argument fuel -/
def rootLoop (b : Int) (t0 t1 t2 t3 t4 : Id) (k : M Int) : Nat → M Int
  | 0 => fail .diverge
  | f + 1 =>
    REQUIRE (mp_int_expt t1 b t2) do
      if (← mp_int_compare_unsigned t2 t0) ≤ 0 then k
      else
        REQUIRE (mp_int_sub t2 t0 t2) <|
        REQUIRE (mp_int_expt t1 (b - 1) t3) <|
        REQUIRE (mp_int_mul_value t3 b t3) <|
        REQUIRE (mp_int_div t2 t3 (some t4) none) <|
        REQUIRE (mp_int_sub t1 t4 t4) do
          let tail : M Int := REQUIRE (mp_int_copy t4 t1) (rootLoop b t0 t1 t2 t3 t4 k f)
          if (← mp_int_compare_unsigned t1 t4) = 0 then
            REQUIRE (mp_int_sub_value t4 1 t4) tail
          else tail

/-- imath.c:1348-1393 `mp_int_root` -/
def mp_int_root (a : Id) (b : Int) (c : Id) : M Int := do
  cassert (b > 0)
  if b = 1 then mp_int_copy a c
  else do
    let flips ← MP_SIGN a
    if flips ∧ b % 2 = 0 then pure MP_UNDEF
    else do
      let fuel := 𝔹 ^ (← MP_USED a) + 1
      withTemp fun t0 => withTemp fun t1 => withTemp fun t2 => withTemp fun t3 => withTemp fun t4 =>
        REQUIRE (mp_int_copy a t0) <|
        REQUIRE (mp_int_copy a t1) do
          setSign t0 false
          setSign t1 false
          rootLoop b t0 t1 t2 t3 t4
            (REQUIRE (mp_int_copy t1 c) do
              if flips then do
                let _ ← mp_int_neg c c
                pure MP_OK
              else pure MP_OK)
            fuel

/-! ### Modular exponentiation -/

/-- imath.c:2364-2371 `s_brmu` -/
def s_brmu (z m : Id) : M Int := do
  let um := u32 ((← MP_USED m) * 2)
  if (← s_pad z um) then do
    let _ ← s_2expt z (u32 (32 * um))
    mp_int_div z m (some z) none
  else pure MP_MEMORY

/-- imath.c:2373-2412 `s_reduce` -/
def s_reduce (x m mu q1 q2 : Id) : M Bool := do
  let um ← MP_USED m
  let umb_p1 := u32 (u32 (um + 1) * 32)
  let umb_m1 := u32 (sub32 um 1 * 32)
  if (← mp_int_copy x q1) ≠ MP_OK then pure false
  else do
    s_qdiv q1 umb_m1
    UMUL q1 mu q2
    s_qdiv q2 umb_p1
    s_qmod x umb_p1
    UMUL q2 m q1
    s_qmod q1 umb_p1
    let _ ← mp_int_sub x q1 x
    let neg ← CMPZ x
    let ok ← cif (neg < 0) (s_qsub x umb_p1) (pure true)
    if ok then do
      if (← mp_int_compare x m) ≥ 0 then do
        let _ ← mp_int_sub x m x
        if (← mp_int_compare x m) ≥ 0 then do
          let _ ← mp_int_sub x m x
          pure true
        else pure true
      else pure true
    else pure false

/-- `UMUL(c, a, TEMP(0)); if (!s_reduce(...)) REQUIRE(MP_MEMORY); mp_int_copy(TEMP(0), c);`
imath.c:2442-2446, 2464-2468 -/
def embarMul (a m mu c t0 t1 t2 : Id) (k : M Int) : M Int := do
  UMUL c a t0
  if (← s_reduce t0 m mu t1 t2) then do
    let _ ← mp_int_copy t0 c
    k
  else pure MP_MEMORY

/-- `USQR(a, TEMP(0)); ...; mp_int_copy(TEMP(0), a);` imath.c:2449-2455, with the assertions of the
low-order loop (`chk`), and imath.c:2474-2478 without -/
def embarSqr (chk : Bool) (a m mu t0 t1 t2 : Id) (k : M Int) : M Int := do
  USQR a t0
  cwhen (chk = true) do cassert (!(← MP_SIGN t0))
  if (← s_reduce t0 m mu t1 t2) then do
    cwhen (chk = true) do cassert (!(← MP_SIGN t0))
    let _ ← mp_int_copy t0 a
    k
  else pure MP_MEMORY

/-- The loop over the bits of a low-order digit, imath.c:2439-2456 -/
def embarBits (a m mu c t0 t1 t2 : Id) (k : M Int) : Nat → Nat → M Int
  | 0, _ => k
  | n + 1, d =>
    let tail := embarSqr true a m mu t0 t1 t2 (embarBits a m mu c t0 t1 t2 k n (d >>> 1))
    if d &&& 1 ≠ 0 then embarMul a m mu c t0 t1 t2 tail else tail

/-- The loop over the low-order digits, imath.c:2436-2459; the count is `dbt - db` -/
def embarDigits (a m mu c t0 t1 t2 : Id) (k : M Int) : Nat → Ptr → M Int
  | 0, _ => k
  | n + 1, db => do
    let d ← rd db
    embarBits a m mu c t0 t1 t2 (embarDigits a m mu c t0 t1 t2 k n (db.add 1)) 32 d

/-- The loop over the highest-order digit, imath.c:2462-2479; first argument fuel -/
def embarTop (a m mu c t0 t1 t2 : Id) : Nat → Nat → M Int
  | 0, _ => fail .diverge
  | f + 1, d =>
    let tail : M Int :=
      let d := d >>> 1
      if d = 0 then pure MP_OK
      else embarSqr false a m mu t0 t1 t2 (embarTop a m mu c t0 t1 t2 f d)
    if d &&& 1 ≠ 0 then embarMul a m mu c t0 t1 t2 tail else tail

/-- imath.c:2416-2480 `s_embar` -/
def s_embar (a b m mu c : Id) : M Int := do
  let umu ← MP_USED mu
  let db ← MP_DIGITS b
  let ub ← MP_USED b
  withTemp fun t0 => withTemp fun t1 => withTemp fun t2 =>
    REQUIRE (GROW t0 (u32 (4 * umu))) <|
    REQUIRE (GROW t1 (u32 (4 * umu))) <|
    REQUIRE (GROW t2 (u32 (4 * umu))) do
      ZERO (← MP_DIGITS t0) (← MP_ALLOC t0)
      ZERO (← MP_DIGITS t1) (← MP_ALLOC t1)
      ZERO (← MP_DIGITS t2) (← MP_ALLOC t2)
      let _ ← mp_int_set_value c 1
      embarDigits a m mu c t0 t1 t2
        (do
          let d ← rd (db.add (sub32 ub 1))
          embarTop a m mu c t0 t1 t2 33 d)
        (ub - 1) db

/-- imath.c:1039-1066 `mp_int_exptmod` -/
def mp_int_exptmod (a b m c : Id) : M Int := do
  if (← CMPZ m) = 0 then pure MP_UNDEF
  else if (← CMPZ b) < 0 then pure MP_RANGE
  else do
    let um ← MP_USED m
    withTemp fun t0 => withTemp fun t1 => withTemp fun t2 =>
      REQUIRE (GROW t0 (u32 (2 * um))) <|
      REQUIRE (GROW t1 (u32 (2 * um))) <|
      let s := if c = b ∨ c = m then t2 else c
      REQUIRE (if c = b ∨ c = m then GROW t2 (u32 (2 * um)) else pure MP_OK) <|
      REQUIRE (mp_int_mod a m t0) <|
      REQUIRE (s_brmu t1 m) <|
      REQUIRE (s_embar t0 b m t1 s) <|
      REQUIRE (mp_int_copy s c) (pure MP_OK)

/-- imath.c:1068-1075 `mp_int_exptmod_evalue` -/
def mp_int_exptmod_evalue (a : Id) (value : Int) (m c : Id) : M Int :=
  withFake value fun v => mp_int_exptmod a v m c

/-- imath.c:1077-1084 `mp_int_exptmod_bvalue` -/
def mp_int_exptmod_bvalue (value : Int) (b m c : Id) : M Int :=
  withFake value fun v => mp_int_exptmod v b m c

/-- imath.c:1086-1112 `mp_int_exptmod_known` -/
def mp_int_exptmod_known (a b m mu c : Id) : M Int := do
  if (← CMPZ m) = 0 then pure MP_UNDEF
  else if (← CMPZ b) < 0 then pure MP_RANGE
  else do
    let um ← MP_USED m
    withTemp fun t0 => withTemp fun t1 =>
      REQUIRE (GROW t0 (u32 (2 * um))) <|
      let s := if c = b ∨ c = m then t1 else c
      REQUIRE (if c = b ∨ c = m then GROW t1 (u32 (2 * um)) else pure MP_OK) <|
      REQUIRE (mp_int_mod a m t0) <|
      REQUIRE (s_embar t0 b m mu s) <|
      REQUIRE (mp_int_copy s c) (pure MP_OK)

/-- imath.c:1114-1118 `mp_int_redux_const` -/
def mp_int_redux_const (m c : Id) : M Int := do
  cassert (m ≠ c)
  s_brmu c m

end Imath
