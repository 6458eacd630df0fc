import Verif.Model.Rat

/-!
# Model of `rsamath.c`
-/

namespace Imath

/-- The elements of `src` are stored from `s[h]` on; outside of the array this is undefined. -/
def bwrite (s : Bytes) (h : Nat) (src : Bytes) : M Bytes := fun _ m =>
  if h + src.length ≤ s.length then .ok (s.take h ++ src ++ s.drop (h + src.length)) m else .fault .ub

/-- `memmove(s + d, s + h, n)` within one array, from the C library.  A negative `n` is converted to a
`size_t` that exceeds every array. -/
def bmove (s : Bytes) (d h : Nat) (n : Int) : M Bytes :=
  if 0 ≤ n ∧ h + n ≤ s.length then bwrite s d ((s.drop h).take n.toNat) else fail .ub

/-- `memset(s + h, 0, n)`, from the C library. -/
def bzero (s : Bytes) (h : Nat) (n : Int) : M Bytes :=
  if 0 ≤ n then bwrite s h (List.replicate n.toNat 0) else fail .ub

/-- rsamath.c:36-47 `rsa_i2osp` -/
def rsa_i2osp (z : Id) (out : Bytes) (len : Int) : M (Int × Bytes) := do
  let excess ← mp_int_binary_len z
  if excess < len then pure (MP_RANGE, out)
  else do
    let out ← bzero out 0 len
    let excess ← cint (excess - len)
    let p ← atOff excess.toNat out fun s => mp_int_to_binary z s len
    pure (MP_OK, p.2)

/-- rsamath.c:50-52 `rsa_os2ip` -/
def rsa_os2ip (z : Id) (inp : Bytes) (len : Int) : M (Int × Bytes) := mp_int_read_binary z inp len

/-- rsamath.c:139-146 `s_rsa_transform` -/
def s_rsa_transform (msg exp mod out : Id) : M Int := do
  let k ← mp_int_compare_zero msg
  let bad ← cif (k < 0) (pure true) (do let k ← mp_int_compare msg mod; pure (decide (k ≥ 0)))
  if bad then pure MP_RANGE else mp_int_exptmod msg exp mod out

/-- rsamath.c:55-57 `rsa_rsaep` -/
def rsa_rsaep (msg exp mod cipher : Id) : M Int := s_rsa_transform msg exp mod cipher

/-- rsamath.c:60-62 `rsa_rsadp` -/
def rsa_rsadp (cipher exp mod msg : Id) : M Int := s_rsa_transform cipher exp mod msg

/-- rsamath.c:65-67 `rsa_rsasp` -/
def rsa_rsasp (msg exp mod signature : Id) : M Int := s_rsa_transform msg exp mod signature

/-- rsamath.c:70-72 `rsa_rsavp` -/
def rsa_rsavp (signature exp mod msg : Id) : M Int := s_rsa_transform signature exp mod msg

/-- rsamath.c:76-85 `rsa_max_message_len` -/
def rsa_max_message_len (mod : Id) : M Int := do
  let num_bits ← mp_int_count_bits mod
  let num_bytes := num_bits.tdiv 8
  if num_bytes < 11 then pure 0 else pure (num_bytes - 11)

/-- rsamath.c:87-112 `rsa_pkcs1v15_encode`.  The function `filler` is replaced by the bytes it stores
when called with a length; that it stores as many as it is told is not built in. -/
def rsa_pkcs1v15_encode (buf : Bytes) (msg_len buf_len tag : Int) (filler : Int → Bytes) : M (Int × Bytes) := do
  let room ← cint (buf_len - 11)
  if msg_len > room then pure (MP_RANGE, buf)
  else do
    let msg_start ← cint (buf_len - msg_len)
    let pad_len ← cint (msg_start - 3)
    let buf ← bmove buf msg_start.toNat 0 msg_len
    let buf ← bset buf 0 0
    let buf ← bset buf 1 (tag % 256).toNat
    let buf ← bwrite buf 2 (filler pad_len)
    let buf ← bset buf (msg_start - 1).toNat 0
    pure (MP_OK, buf)

/-- `while (buf[i++] != '\0') ++pad_len;` rsamath.c:123; the arguments are fuel, `i` and `pad_len` -/
def padLoop (buf : Bytes) : Nat → Int → Int → M (Int × Int)
  | 0, _, _ => fail .diverge
  | f + 1, i, pad_len => do
    let x ← bget buf i.toNat
    let i ← cint (i + 1)
    if x ≠ 0 then padLoop buf f i (pad_len + 1) else pure (i, pad_len)

/-- rsamath.c:114-137 `rsa_pkcs1v15_decode`; the third result is what is stored in `*msg_len` -/
def rsa_pkcs1v15_decode (buf : Bytes) (buf_len tag : Int) : M (Int × Bytes × Option Int) := do
  let bad ← cif (buf_len < 11) (pure true) (do
    let x ← bget buf 0
    cif (x ≠ 0) (pure true) (do
      let y ← bget buf 1
      pure (decide (y ≠ (tag % 256).toNat))))
  if bad then pure (MP_UNDEF, buf, none)
  else do
    let p ← padLoop buf (buf.length + 1) 2 0
    let data_start := p.1
    let data_len ← cint (buf_len - data_start)
    let buf ← bmove buf 0 data_start.toNat data_len
    let n ← cint (p.2 + 3)
    let buf ← bzero buf data_len.toNat n
    pure (MP_OK, buf, some data_len)

end Imath
