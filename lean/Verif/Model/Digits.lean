import Verif.Model.Mem

/-!
# Digit-level functions of imath.c

Loops which advance pointers are recursive functions on the number of remaining iterations; loops
without an a-priori bound take fuel and fault with `diverge` when it is exhausted.
-/

namespace Imath

/-- imath.c:84 `s_round_prec` -/
def s_round_prec (P : Nat) : Nat := u32 (2 * (u32 (P + 1) / 2))

/-- imath.c:122 `MAX` -/
def MAX (A B : Nat) : Nat := if B > A then B else A

/-- imath.c:121 `MIN` -/
def MIN (A B : Int) : Int := if B < A then B else A

def fillZero : Nat → Ptr → M Unit
  | 0, _ => pure ()
  | n + 1, p => do wr p 0; fillZero n (p.add 1)

/-- imath.c:87-91 `ZERO` (memset of `S * sizeof(mp_digit)` bytes, computed in `mp_size`) -/
def ZERO (P : Ptr) (S : Nat) : M Unit := fillZero (u32 (S * 4) / 4) P

def copyLoop : Nat → Ptr → Ptr → M Unit
  | 0, _, _ => pure ()
  | n + 1, p, q => do wr q (← rd p); copyLoop n (p.add 1) (q.add 1)

/-- imath.c:94-99 `COPY` (memcpy, so overlapping regions are undefined behaviour) -/
def COPY (P Q : Ptr) (S : Nat) : M Unit :=
  let n := u32 (S * 4) / 4
  if P.base = Q.base ∧ P.off < Q.off + n ∧ Q.off < P.off + n then fail .ub
  else copyLoop n P Q

/-- The loop of `CLAMP`, imath.c:116; the argument is `uz_`. -/
def clampLoop (p : Ptr) : Nat → M Nat
  | 0 => pure 0
  | 1 => pure 1
  | n + 2 => do
    if (← rd (p.add (n + 1))) = 0 then clampLoop p (n + 1) else pure (n + 2)

/-- imath.c:113-118 `CLAMP` -/
def CLAMP (z : Id) : M Unit := do
  let uz ← MP_USED z
  let dz ← MP_DIGITS z
  let uz ← clampLoop dz uz
  setUsed z uz

/-- imath.c:179-182 `CMPZ` -/
def CMPZ (z : Id) : M Int := do
  let u ← MP_USED z
  let dz ← MP_DIGITS z
  let d ← rd dz
  if u = 1 ∧ d = 0 then pure 0
  else if (← MP_SIGN z) then pure (-1) else pure 1

/-- imath.c:1692-1700 `s_alloc` -/
def s_alloc (num : Nat) : M Ptr := mallocD num
/-- imath.c:1702-1715 `s_realloc` -/
def s_realloc (old : Ptr) (nsize : Nat) : M Ptr := reallocD old nsize
/-- imath.c:1717 `s_free` -/
def s_free (p : Ptr) : M Unit := freeD p

/-- imath.c:1719-1736 `s_pad` -/
def s_pad (z : Id) (min : Nat) : M Bool := do
  if (← MP_ALLOC z) < min then
    let nsize := s_round_prec min
    let dz ← MP_DIGITS z
    if dz = singlePtr z then
      let tmp ← s_alloc nsize
      wr tmp (← rd (singlePtr z))
      setDigits z (some tmp)
      setAlloc z nsize
      pure true
    else
      let tmp ← s_realloc dz nsize
      setDigits z (some tmp)
      setAlloc z nsize
      pure true
  else pure true

/-- imath.c:225-227 `GROW` -/
def GROW (z : Id) (n : Nat) : M Int := do
  if (← s_pad z n) then pure MP_OK else pure MP_MEMORY

/-- The loop of `s_uvpack`, imath.c:1774-1778; first argument fuel, second `ndig`. -/
def uvpackLoop (t : Ptr) : Nat → Nat → Nat → M Nat
  | 0, ndig, uv => if uv ≠ 0 then fail .diverge else pure ndig
  | f + 1, ndig, uv =>
    if uv ≠ 0 then do
      wr (t.add ndig) (u32 uv)
      uvpackLoop t f (ndig + 1) ((uv >>> 16) >>> 16)
    else pure ndig

/-- imath.c:1768-1782 `s_uvpack` -/
def s_uvpack (uv : Nat) (t : Ptr) : M Nat :=
  if uv = 0 then do
    wr t 0
    pure 1
  else uvpackLoop t uv 0 uv

/-- imath.c:1745-1752 `s_ufake` (`MP_VALUE_DIGITS` of an `unsigned long` is 2) -/
def s_ufake (z : Id) (value : Nat) (vbuf : Ptr) : M Unit := do
  let ndig ← s_uvpack value vbuf
  setUsed z ndig
  setAlloc z 2
  setSign z false
  setDigits z (some vbuf)

/-- imath.c:1739-1743 `s_fake`; negating `LONG_MIN` is a signed overflow -/
def s_fake (z : Id) (value : Int) (vbuf : Ptr) : M Unit :=
  if value = SMALL_MIN then fail .ub
  else do
    let uv := (if value < 0 then -value else value).toNat
    s_ufake z uv vbuf
    if value < 0 then setSign z true else pure ()

/-- `mpz_t vtmp; mp_digit vbuf[2]; s_fake(&vtmp, value, vbuf); k(&vtmp)`, the common frame of the
`_value` functions, e.g. imath.c:596-603. -/
def withFake {α : Type} (value : Int) (k : Id → M α) : M α := do
  let z ← declInt .fake
  let vbuf ← declArr 2
  s_fake z value vbuf
  let r ← k z
  dropArr vbuf
  dropInt z
  pure r

/-- As `withFake` for unsigned values, e.g. imath.c:437-443. -/
def withUFake {α : Type} (value : Nat) (k : Id → M α) : M α := do
  let z ← declInt .fake
  let vbuf ← declArr 2
  s_ufake z value vbuf
  let r ← k z
  dropArr vbuf
  dropInt z
  pure r

/-- imath.c:1754-1766 `s_cdig` -/
def s_cdig (da db : Ptr) : Nat → M Int
  | 0 => pure 0
  | n + 1 => do
    let x ← rd (da.add n)
    let y ← rd (db.add n)
    if x > y then pure 1
    else if x < y then pure (-1)
    else s_cdig da db n

/-- imath.c:1784-1794 `s_ucmp` -/
def s_ucmp (a b : Id) : M Int := do
  let ua ← MP_USED a
  let ub ← MP_USED b
  if ua > ub then pure 1
  else if ub > ua then pure (-1)
  else s_cdig (← MP_DIGITS a) (← MP_DIGITS b) ua

/-- imath.c:1801-1807 `s_uvcmp` -/
def s_uvcmp (a : Id) (uv : Nat) : M Int := withUFake uv fun vtmp => s_ucmp a vtmp

/-- imath.c:1796-1799 `s_vcmp` -/
def s_vcmp (a : Id) (v : Int) : M Int :=
  s_uvcmp a (if v < 0 then sub64 0 (v % 18446744073709551616).toNat else v.toNat)

/-- First loop of `s_uadd`, imath.c:1821-1825 -/
def uaddLoop1 : Nat → Ptr → Ptr → Ptr → Nat → M Nat
  | 0, _, _, _, w => pure w
  | n + 1, da, db, dc, w => do
    let x ← rd da
    let y ← rd db
    let w := u64 (w + x + y)
    wr dc (u32 w)
    uaddLoop1 n (da.add 1) (db.add 1) (dc.add 1) (w >>> 32)

/-- Second loop of `s_uadd`, imath.c:1828-1833 -/
def uaddLoop2 : Nat → Ptr → Ptr → Nat → M Nat
  | 0, _, _, w => pure w
  | n + 1, da, dc, w => do
    let x ← rd da
    let w := u64 (w + x)
    wr dc (u32 w)
    uaddLoop2 n (da.add 1) (dc.add 1) (w >>> 32)

/-- `s_uadd` after the exchange, imath.c:1820-1836 -/
def uaddMain (da db dc : Ptr) (size_a size_b : Nat) : M Nat := do
  let w ← uaddLoop1 size_b da db dc 0
  let w ← uaddLoop2 (size_a - size_b) (da.add size_b) (dc.add size_b) w
  pure (u32 w)

/-- imath.c:1809-1837 `s_uadd` -/
def s_uadd (da db dc : Ptr) (size_a size_b : Nat) : M Nat :=
  if size_b > size_a then uaddMain db da dc size_b size_a
  else uaddMain da db dc size_a size_b

/-- First loop of `s_usub`, imath.c:1848-1855 -/
def usubLoop1 : Nat → Ptr → Ptr → Ptr → Nat → M Nat
  | 0, _, _, _, w => pure w
  | n + 1, da, db, dc, w => do
    let x ← rd da
    let y ← rd db
    let w := sub64 (sub64 (u64 (4294967295 + 1 + x)) w) y
    wr dc (u32 w)
    usubLoop1 n (da.add 1) (db.add 1) (dc.add 1) (if w >>> 32 = 0 then 1 else 0)

/-- Second loop of `s_usub`, imath.c:1858-1865 -/
def usubLoop2 : Nat → Ptr → Ptr → Nat → M Nat
  | 0, _, _, w => pure w
  | n + 1, da, dc, w => do
    let x ← rd da
    let w := sub64 (u64 (4294967295 + 1 + x)) w
    wr dc (u32 w)
    usubLoop2 n (da.add 1) (dc.add 1) (if w >>> 32 = 0 then 1 else 0)

/-- imath.c:1839-1869 `s_usub` -/
def s_usub (da db dc : Ptr) (size_a size_b : Nat) : M Unit := do
  cassert (size_a ≥ size_b)
  let w ← usubLoop1 size_b da db dc 0
  let w ← usubLoop2 (size_a - size_b) (da.add size_b) (dc.add size_b) w
  cassert (w = 0)

/-- Inner loop of `s_umul`, imath.c:1962-1967 -/
def umulInner (da : Ptr) : Nat → Ptr → Ptr → Nat → M Nat
  | 0, _, _, w => pure w
  | n + 1, dbt, dct, w => do
    let x ← rd da
    let y ← rd dbt
    let c ← rd dct
    let w := u64 (u64 (u64 (x * y) + w) + c)
    wr dct (u32 w)
    umulInner da n (dbt.add 1) (dct.add 1) (w >>> 32)

/-- Outer loop of `s_umul`, imath.c:1955-1970 -/
def umulOuter (db : Ptr) (size_b : Nat) : Nat → Ptr → Ptr → M Unit
  | 0, _, _ => pure ()
  | n + 1, da, dc => do
    let x ← rd da
    if x = 0 then umulOuter db size_b n (da.add 1) (dc.add 1)
    else do
      let w ← umulInner da size_b db dc 0
      wr (dc.add size_b) (u32 w)
      umulOuter db size_b n (da.add 1) (dc.add 1)

/-- imath.c:1950-1971 `s_umul` -/
def s_umul (da db dc : Ptr) (size_a size_b : Nat) : M Unit :=
  umulOuter db size_b size_a da dc

/-- `s_kmul` after the exchange, imath.c:1884-1947; `rec` is the recursive call -/
def kmulBody (rec : Ptr → Ptr → Ptr → Nat → Nat → M Int)
    (da db dc : Ptr) (size_a size_b : Nat) : M Int := do
  let thr := (← getMem).mulThr
  let bot_size := u32 (size_a + 1) / 2
  if thr ≠ 0 ∧ size_a ≥ thr ∧ size_b > bot_size then do
    let a_top := da.add bot_size
    let b_top := db.add bot_size
    let at_size := sub32 size_a bot_size
    let bt_size := sub32 size_b bot_size
    let buf_size := u32 (2 * bot_size)
    let t1 ← s_alloc (u32 (4 * buf_size))
    let t2 := t1.add buf_size
    let t3 := t2.add buf_size
    ZERO t1 (u32 (4 * buf_size))
    let carry ← s_uadd da a_top t1 bot_size at_size
    wr (t1.add bot_size) carry
    let carry ← s_uadd db b_top t2 bot_size bt_size
    wr (t2.add bot_size) carry
    let _ ← rec t1 t2 t3 (u32 (bot_size + 1)) (u32 (bot_size + 1))
    ZERO t1 buf_size
    ZERO t2 buf_size
    let _ ← rec da db t1 bot_size bot_size
    let _ ← rec a_top b_top t2 at_size bt_size
    s_usub t3 t1 t3 (u32 (buf_size + 2)) buf_size
    s_usub t3 t2 t3 (u32 (buf_size + 2)) buf_size
    COPY t1 dc buf_size
    let carry ← s_uadd t3 (dc.add bot_size) (dc.add bot_size) (u32 (buf_size + 1)) buf_size
    cassert (carry = 0)
    let carry ← s_uadd t2 (dc.add (u32 (2 * bot_size))) (dc.add (u32 (2 * bot_size))) buf_size buf_size
    cassert (carry = 0)
    s_free t1
    pure 1
  else do
    s_umul da db dc size_a size_b
    pure 1

/-- `s_kmul` with fuel for the recursion -/
def kmulF : Nat → Ptr → Ptr → Ptr → Nat → Nat → M Int
  | 0, _, _, _, _, _ => fail .diverge
  | f + 1, da, db, dc, size_a, size_b =>
    if size_b > size_a then kmulBody (kmulF f) db da dc size_b size_a
    else kmulBody (kmulF f) da db dc size_a size_b

/-- imath.c:1871-1948 `s_kmul` -/
def s_kmul (da db dc : Ptr) (size_a size_b : Nat) : M Int :=
  kmulF (size_a + size_b + 1) da db dc size_a size_b

/-- imath.c:188-190 `HIGH_BIT_SET` -/
def HIGH_BIT_SET (w : Nat) : Bool := w >>> 63 ≠ 0

/-- imath.c:193-195 `ADD_WILL_OVERFLOW` -/
def ADD_WILL_OVERFLOW (w v : Nat) : Bool := sub64 18446744073709551615 v < w

/-- Inner loop of `s_usqr`, imath.c:2037-2060 -/
def usqrInner (da : Ptr) : Nat → Ptr → Ptr → Nat → M Nat
  | 0, _, _, w => pure w
  | n + 1, dat, dct, w => do
    let x ← rd da
    let y ← rd dat
    let t := u64 (x * y)
    let c ← rd dct
    let u := u64 (w + c)
    let ov := if HIGH_BIT_SET t then 1 else 0
    let w := u64 (t + t)
    let ov := if ADD_WILL_OVERFLOW w u then 1 else ov
    let w := u64 (w + u)
    wr dct (u32 w)
    let w := w >>> 32
    let w := if ov ≠ 0 then u64 (u64 (w + 4294967295) + 1) else w
    usqrInner da n (dat.add 1) (dct.add 1) w

/-- The carry loop of `s_usqr`, imath.c:2064-2068; first argument fuel, `w` before the shift -/
def usqrCarry : Nat → Ptr → Nat → M Nat
  | 0, _, w => if w >>> 32 ≠ 0 then fail .diverge else pure (w >>> 32)
  | f + 1, dct, w =>
    if w >>> 32 ≠ 0 then do
      let c ← rd (dct.add 1)
      let w := u64 ((w >>> 32) + c)
      wr (dct.add 1) (u32 w)
      usqrCarry f (dct.add 1) w
    else pure (w >>> 32)

/-- Outer loop of `s_usqr`, imath.c:2027-2070; the count is `size_a - i` -/
def usqrOuter : Nat → Ptr → Ptr → M Unit
  | 0, _, _ => pure ()
  | n + 1, da, dc => do
    let x ← rd da
    if x = 0 then usqrOuter n (da.add 1) (dc.add 2)
    else do
      let c ← rd dc
      let w := u64 (u64 (x * x) + c)
      wr dc (u32 w)
      let w ← usqrInner da n (da.add 1) (dc.add 1) (w >>> 32)
      let dct := dc.add (1 + n)
      let c ← rd dct
      let w := u64 (w + c)
      wr dct (u32 w)
      let w ← usqrCarry (n + 1) dct w
      cassert (w = 0)
      usqrOuter n (da.add 1) (dc.add 2)

/-- imath.c:2023-2071 `s_usqr` -/
def s_usqr (da dc : Ptr) (size_a : Nat) : M Unit := usqrOuter size_a da dc

/-- The doubling loop of `s_ksqr`, imath.c:1996-2001 -/
def dblLoop : Nat → Ptr → Nat → M Nat
  | 0, _, save => pure save
  | n + 1, t, save => do
    let w ← rd t
    let w := u64 (w <<< 1) ||| save
    wr t (u32 w)
    dblLoop n (t.add 1) (w >>> 32)

/-- `s_ksqr` with fuel for the recursion, imath.c:1973-2021 -/
def ksqrF : Nat → Ptr → Ptr → Nat → M Int
  | 0, _, _, _ => fail .diverge
  | f + 1, da, dc, size_a => do
    let thr := (← getMem).mulThr
    if thr ≠ 0 ∧ size_a > thr then do
      let bot_size := u32 (size_a + 1) / 2
      let a_top := da.add bot_size
      let at_size := sub32 size_a bot_size
      let buf_size := u32 (2 * bot_size)
      let t1 ← s_alloc (u32 (4 * buf_size))
      let t2 := t1.add buf_size
      let t3 := t2.add buf_size
      ZERO t1 (u32 (4 * buf_size))
      let _ ← ksqrF f da t1 bot_size
      let _ ← ksqrF f a_top t2 at_size
      let _ ← s_kmul da a_top t3 bot_size at_size
      let top := u32 (bot_size + at_size)
      let save ← dblLoop top t3 0
      wr (t3.add top) (u32 save)
      COPY t1 dc (u32 (2 * bot_size))
      let carry ← s_uadd t3 (dc.add bot_size) (dc.add bot_size) (u32 (buf_size + 1)) buf_size
      cassert (carry = 0)
      let carry ← s_uadd t2 (dc.add (u32 (2 * bot_size))) (dc.add (u32 (2 * bot_size))) buf_size buf_size
      cassert (carry = 0)
      s_free t1
      pure 1
    else do
      s_usqr da dc size_a
      pure 1

/-- imath.c:1973-2021 `s_ksqr` -/
def s_ksqr (da dc : Ptr) (size_a : Nat) : M Int := ksqrF (size_a + 1) da dc size_a

/-- imath.c:348-356 `UMUL` -/
def UMUL (X Y Z : Id) : M Unit := do
  let ua ← MP_USED X
  let ub ← MP_USED Y
  let o := u32 (ua + ub)
  ZERO (← MP_DIGITS Z) o
  let _ ← s_kmul (← MP_DIGITS X) (← MP_DIGITS Y) (← MP_DIGITS Z) ua ub
  setUsed Z o
  CLAMP Z

/-- imath.c:359-366 `USQR` -/
def USQR (X Z : Id) : M Unit := do
  let ua ← MP_USED X
  let o := u32 (ua + ua)
  ZERO (← MP_DIGITS Z) o
  let _ ← s_ksqr (← MP_DIGITS X) (← MP_DIGITS Z) ua
  setUsed Z o
  CLAMP Z

/-- Carry loop of `s_dadd`, imath.c:2082-2087 -/
def daddLoop : Nat → Ptr → Nat → M Nat
  | 0, _, w => pure w
  | n + 1, da, w => do
    let x ← rd da
    let w := u64 (x + w)
    wr da (u32 w)
    daddLoop n (da.add 1) (w >>> 32)

/-- imath.c:2073-2093 `s_dadd` -/
def s_dadd (a : Id) (b : Nat) : M Unit := do
  let da ← MP_DIGITS a
  let ua ← MP_USED a
  let x ← rd da
  let w := u64 (x + b)
  wr da (u32 w)
  let ua' := sub32 ua 1
  let w ← daddLoop ua' (da.add 1) (w >>> 32)
  if w ≠ 0 then do
    wr (da.add (1 + ua')) (u32 w)
    setUsed a (u32 (ua + 1))
  else pure ()

/-- Loop of `s_dmul` (imath.c:2100-2105) and of `s_dbmul` (imath.c:2116-2122) -/
def dmulLoop (b : Nat) : Nat → Ptr → Ptr → Nat → M Nat
  | 0, _, _, w => pure w
  | n + 1, da, dc, w => do
    let x ← rd da
    let w := u64 (u64 (x * b) + w)
    wr dc (u32 w)
    dmulLoop b n (da.add 1) (dc.add 1) (w >>> 32)

/-- imath.c:2095-2111 `s_dmul` -/
def s_dmul (a : Id) (b : Nat) : M Unit := do
  let da ← MP_DIGITS a
  let ua ← MP_USED a
  let w ← dmulLoop b ua da da 0
  if w ≠ 0 then do
    wr (da.add ua) (u32 w)
    setUsed a (u32 (ua + 1))
  else pure ()

/-- imath.c:2113-2125 `s_dbmul` -/
def s_dbmul (da : Ptr) (b : Nat) (dc : Ptr) (size_a : Nat) : M Unit := do
  let w ← dmulLoop b size_a da dc 0
  if w ≠ 0 then wr (dc.add size_a) (u32 w) else pure ()

/-- Loop of `s_ddiv`, imath.c:2132-2143; the count is `ua` -/
def ddivLoop (da : Ptr) (b : Nat) : Nat → Nat → M Nat
  | 0, w => pure w
  | n + 1, w => do
    let x ← rd (da.add n)
    let w := u64 (w <<< 32) ||| x
    if w ≥ b then
      if b = 0 then fail .ub
      else do
        wr (da.add n) (u32 (w / b))
        ddivLoop da b n (w % b)
    else do
      wr (da.add n) 0
      ddivLoop da b n w

/-- imath.c:2127-2147 `s_ddiv` -/
def s_ddiv (a : Id) (b : Nat) : M Nat := do
  let ua ← MP_USED a
  let da ← MP_DIGITS a
  let w ← ddivLoop da b ua 0
  CLAMP a
  pure (u32 w)

/-- imath.c:510-516 `mp_int_zero` -/
def mp_int_zero (z : Id) : M Unit := do
  wr (← MP_DIGITS z) 0
  setUsed z 1
  setSign z false

/-- Digit-moving loop of `s_qdiv`, imath.c:2165-2167 (a forward copy onto lower addresses) -/
def moveDown : Nat → Ptr → Ptr → M Unit
  | 0, _, _ => pure ()
  | n + 1, src, to => do
    wr to (← rd src)
    moveDown n (src.add 1) (to.add 1)

/-- Bit-shifting loop of `s_qdiv`, imath.c:2179-2184; the count is `uz` -/
def shrLoop (dz : Ptr) (nbits up : Nat) : Nat → Nat → M Unit
  | 0, _ => pure ()
  | n + 1, d => do
    let save ← rd (dz.add n)
    wr (dz.add n) ((save >>> nbits) ||| u32 (d <<< up))
    shrLoop dz nbits up n save

/-- First half of `s_qdiv` (whole digits), imath.c:2153-2170; `false` when the function returned -/
def qdivDigits (z : Id) (ndig : Nat) : M Bool := do
  let uz ← MP_USED z
  if ndig ≠ 0 then
    if ndig ≥ uz then do
      mp_int_zero z
      pure false
    else do
      let to ← MP_DIGITS z
      moveDown (uz - ndig) (to.add ndig) to
      setUsed z (uz - ndig)
      pure true
  else pure true

/-- Second half of `s_qdiv` (remaining bits), imath.c:2172-2187 -/
def qdivBits (z : Id) (nbits : Nat) : M Unit :=
  if nbits ≠ 0 then do
    let uz ← MP_USED z
    shrLoop (← MP_DIGITS z) nbits (32 - nbits) uz 0
    CLAMP z
  else pure ()

/-- imath.c:2149-2190 `s_qdiv` -/
def s_qdiv (z : Id) (p2 : Nat) : M Unit := do
  let more ← qdivDigits z (p2 / 32)
  if more then do
    qdivBits z (p2 % 32)
    if (← MP_USED z) = 1 ∧ (← rd (← MP_DIGITS z)) = 0 then setSign z false else pure ()
  else pure ()

/-- imath.c:2192-2202 `s_qmod` -/
def s_qmod (z : Id) (p2 : Nat) : M Unit := do
  let start := u32 (p2 / 32 + 1)
  let rest := p2 % 32
  let uz ← MP_USED z
  let mask := sub32 (u32 (1 <<< rest)) 1
  if start ≤ uz then do
    setUsed z start
    let dz ← MP_DIGITS z
    let d ← rd (dz.add (start - 1))
    wr (dz.add (start - 1)) (d &&& mask)
    CLAMP z
  else pure ()

/-- Digit-moving loop of `s_qmul`, imath.c:2234 (from the top down); the count is `uz` -/
def moveUp (dz : Ptr) (need : Nat) : Nat → M Unit
  | 0 => pure ()
  | n + 1 => do
    wr (dz.add (n + need)) (← rd (dz.add n))
    moveUp dz need n

/-- Bit-shifting loop of `s_qmul`, imath.c:2242-2247 -/
def shlLoop (rest : Nat) : Nat → Ptr → Nat → M Nat
  | 0, _, d => pure d
  | n + 1, src, d => do
    let save ← rd src
    wr src (u32 (save <<< rest) ||| (d >>> (32 - rest)))
    shlLoop rest n (src.add 1) save

/-- Computation of `extra` in `s_qmul`, imath.c:2217-2222 -/
def qmulExtra (z : Id) (rest : Nat) : M Nat :=
  if rest ≠ 0 then do
    let uz ← MP_USED z
    let dz ← MP_DIGITS z
    let d ← rd (dz.add (sub32 uz 1))
    if d >>> (32 - rest) ≠ 0 then pure 1 else pure 0
  else pure 0

/-- Whole-digit part of `s_qmul`, imath.c:2229-2238; returns the new `uz` -/
def qmulDigits (z : Id) (uz need : Nat) : M Nat :=
  if need > 0 then do
    moveUp (← MP_DIGITS z) need uz
    ZERO (← MP_DIGITS z) need
    pure (u32 (uz + need))
  else pure uz

/-- Bit part of `s_qmul`, imath.c:2240-2253; returns the new `uz` -/
def qmulBits (z : Id) (uz need rest extra : Nat) : M Nat :=
  if rest ≠ 0 then do
    let dz ← MP_DIGITS z
    let d ← shlLoop rest (uz - need) (dz.add need) 0
    let d := d >>> (32 - rest)
    if d ≠ 0 then do
      wr (dz.add (need + (uz - need))) d
      pure (u32 (uz + extra))
    else pure uz
  else pure uz

/-- imath.c:2204-2259 `s_qmul` -/
def s_qmul (z : Id) (p2 : Nat) : M Bool := do
  if p2 = 0 then pure true
  else do
    let uz ← MP_USED z
    let need := p2 / 32
    let rest := p2 % 32
    let extra ← qmulExtra z rest
    if (← s_pad z (u32 (uz + need + extra))) then do
      let uz ← qmulDigits z uz need
      let uz ← qmulBits z uz need rest extra
      setUsed z uz
      CLAMP z
      pure true
    else pure false

/-- Loop of `s_qsub`, imath.c:2271-2276 -/
def qsubLoop : Nat → Ptr → Nat → M Nat
  | 0, _, w => pure w
  | n + 1, zp, w => do
    let x ← rd zp
    let w := sub64 (sub64 (u64 (4294967295 + 1)) w) x
    wr zp (u32 w)
    qsubLoop n (zp.add 1) (if w >>> 32 ≠ 0 then 0 else 1)

/-- imath.c:2264-2287 `s_qsub` -/
def s_qsub (z : Id) (p2 : Nat) : M Bool := do
  let hi := u32 (1 <<< (p2 % 32))
  let tdig := p2 / 32
  if (← s_pad z (u32 (tdig + 1))) then do
    let dz ← MP_DIGITS z
    let w ← qsubLoop tdig dz 0
    let x ← rd (dz.add tdig)
    let w := sub64 (sub64 (u64 (4294967295 + 1 + hi)) w) x
    wr (dz.add tdig) (u32 w)
    cassert (w >>> 32 ≠ 0)
    setSign z false
    CLAMP z
    pure true
  else pure false

/-- First loop of `s_dp2k`, imath.c:2295-2298; first argument fuel; returns `(k, *dp)` -/
def dp2kLoop1 : Nat → Ptr → Nat → M (Nat × Nat)
  | 0, _, _ => fail .diverge
  | f + 1, dp, k => do
    let d ← rd dp
    if d = 0 then dp2kLoop1 f (dp.add 1) (k + 32) else pure (k, d)

/-- Second loop of `s_dp2k`, imath.c:2301-2304; first argument fuel -/
def dp2kLoop2 : Nat → Nat → Nat → M Nat
  | 0, _, _ => fail .diverge
  | f + 1, d, k => if d &&& 1 = 0 then dp2kLoop2 f (d >>> 1) (k + 1) else pure k

/-- imath.c:2289-2307 `s_dp2k` -/
def s_dp2k (z : Id) : M Int := do
  let dp ← MP_DIGITS z
  let u ← MP_USED z
  let d ← rd dp
  if u = 1 ∧ d = 0 then pure 1
  else do
    let (k, d) ← dp2kLoop1 (u + 1) dp 0
    let k ← dp2kLoop2 33 d k
    pure (toInt32 k)

/-- First loop of `s_isp2`, imath.c:2313-2317; `none` for `return -1`; the count is `uz - 1` -/
def isp2Loop1 : Nat → Ptr → Nat → M (Option Nat)
  | 0, _, k => pure (some k)
  | n + 1, dz, k => do
    let d ← rd dz
    if d ≠ 0 then pure none else isp2Loop1 n (dz.add 1) (u32 (k + 32))

/-- Second loop of `s_isp2`, imath.c:2320-2324; first argument fuel -/
def isp2Loop2 : Nat → Nat → Nat → M Int
  | 0, _, _ => fail .diverge
  | f + 1, d, k =>
    if d > 1 then
      if d &&& 1 ≠ 0 then pure (-1) else isp2Loop2 f (d >>> 1) (u32 (k + 1))
    else pure (toInt32 k)

/-- imath.c:2309-2327 `s_isp2` -/
def s_isp2 (z : Id) : M Int := do
  let uz ← MP_USED z
  let dz ← MP_DIGITS z
  match (← isp2Loop1 (uz - 1) dz 0) with
  | none => pure (-1)
  | some k => do
    let d ← rd (dz.add (uz - 1))
    isp2Loop2 33 d k

/-- imath.c:2329-2344 `s_2expt` for `k >= 0` -/
def s_2expt (z : Id) (k : Nat) : M Bool := do
  let ndig := u32 ((k + 32) / 32)
  let rest := k % 32
  if (← s_pad z ndig) then do
    let dz ← MP_DIGITS z
    ZERO dz ndig
    wr (dz.add (sub32 ndig 1)) (u32 (1 <<< rest))
    setUsed z ndig
    pure true
  else pure false

/-- Loop of `s_norm`, imath.c:2350-2353; first argument fuel -/
def normLoop : Nat → Nat → Nat → M Nat
  | 0, _, _ => fail .diverge
  | f + 1, d, k => if d < 2147483648 then normLoop f (u32 (d <<< 1)) (k + 1) else pure k

/-- imath.c:2346-2362 `s_norm` -/
def s_norm (a b : Id) : M Nat := do
  let db ← MP_DIGITS b
  let ub ← MP_USED b
  let d ← rd (db.add (sub32 ub 1))
  let k ← normLoop 33 d 0
  if k ≠ 0 then do
    let _ ← s_qmul a k
    let _ ← s_qmul b k
    pure k
  else pure k

end Imath
