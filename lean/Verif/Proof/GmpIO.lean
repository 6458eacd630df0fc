import Verif.Proof.Gmp
import Verif.Proof.ConvBin2

/-! # The GMP-compatible interface: import and export -/

namespace Imath

variable {env : Env} {E : Fault → Prop} {m : Mem} {s : Id → Option Cell} {σ : Id → Option Int}
  {z c : Id} {v w : Int} {order endian : Int} {size count : Nat}

/-! ### Positions of bytes -/

/-- Start of the `i`-th word in order of significance -/
def wbase (order : Int) (size count : Nat) (i : Nat) : Int := (if order = 1 then (count : Int) - 1 - i else i) * size

/-- Position of the `j`-th byte within a word -/
def boff (endian : Int) (size : Nat) (j : Nat) : Int := if endian = 1 then (size : Int) - 1 - j else j

theorem bytePos_eq {i j : Nat} (hi : i < count) (hj : j < size) :
    (bytePos order endian size count (i * size + j) : Int) = wbase order size count i + boff endian size j := by
  have h1 : (i * size + j) / size = i := by
    rw [Nat.mul_comm, Nat.mul_add_div (by omega), Nat.div_eq_of_lt hj, Nat.add_zero]
  have h2 : (i * size + j) % size = j := by rw [Nat.mul_comm, Nat.mul_add_mod, Nat.mod_eq_of_lt hj]
  unfold bytePos wbase boff
  rw [h1, h2]
  push_cast
  congr 1
  · congr 1
    split <;> omega
  · split <;> omega

theorem bytePos_lt {k : Nat} (hk : k < count * size) : bytePos order endian size count k < count * size := by
  have hs : 0 < size := by rcases Nat.eq_zero_or_pos size with rfl | h <;> [simp at hk; exact h]
  have h1 : k / size < count := (Nat.div_lt_iff_lt_mul hs).2 hk
  have h2 := Nat.mod_lt k hs
  unfold bytePos
  have hw : (if order = 1 then count - 1 - k / size else k / size) + 1 ≤ count := by
    generalize k / size = q at *; split <;> omega
  have hb : (if endian = 1 then size - 1 - k % size else k % size) < size := by split <;> omega
  have := Nat.mul_le_mul_right size hw
  rw [Nat.add_mul] at this
  omega

theorem bytePos_inj {k l : Nat} (hk : k < count * size) (hl : l < count * size)
    (h : bytePos order endian size count k = bytePos order endian size count l) : k = l := by
  have hs : 0 < size := by rcases Nat.eq_zero_or_pos size with rfl | h <;> [simp at hk; exact h]
  have h1 : k / size < count := (Nat.div_lt_iff_lt_mul hs).2 hk
  have h2 := Nat.mod_lt k hs
  have h3 : l / size < count := (Nat.div_lt_iff_lt_mul hs).2 hl
  have h4 := Nat.mod_lt l hs
  unfold bytePos at h
  have hb : (if endian = 1 then size - 1 - k % size else k % size) < size := by split <;> omega
  have hb' : (if endian = 1 then size - 1 - l % size else l % size) < size := by split <;> omega
  have e1 : (if order = 1 then count - 1 - k / size else k / size) = if order = 1 then count - 1 - l / size else l / size := by
    have := congrArg (· / size) h
    simp only [Nat.mul_comm _ size, Nat.mul_add_div hs, Nat.div_eq_of_lt hb, Nat.div_eq_of_lt hb', Nat.add_zero] at this
    exact this
  have e2 : (if endian = 1 then size - 1 - k % size else k % size) = if endian = 1 then size - 1 - l % size else l % size := by
    rw [e1] at h; omega
  have e3 : k / size = l / size := by
    generalize k / size = q at *; generalize l / size = r at *; split at e1 <;> omega
  have e4 : k % size = l % size := by split at e2 <;> omega
  rw [← Nat.div_add_mod k size, e3, e4, Nat.div_add_mod]

theorem wordOffset_cases (hs : size < 2 ^ 62) (hs0 : 1 ≤ size) : wordOffset 1 1 size = 0 ∧ wordOffset 1 (-1) size = -2 * size ∧
    wordOffset (-1) 1 size = 2 * size ∧ wordOffset (-1) (-1) size = 0 := by
  have h : sub64 0 size = 18446744073709551616 - size := by unfold sub64 u64; omega
  refine ⟨?_, ?_, ?_, ?_⟩ <;> unfold wordOffset toInt64 u64 <;> rw [h] <;> simp <;> split <;> omega

theorem wordOffset_eq (ho : order = 1 ∨ order = -1) (he : endian = 1 ∨ endian = -1) (hs : size < 2 ^ 62) (hs0 : 1 ≤ size) (i : Nat) :
    wbase order size count i + boff endian size size + wordOffset order endian size =
      wbase order size count (i + 1) + boff endian size 0 := by
  obtain ⟨h1, h2, h3, h4⟩ := wordOffset_cases hs hs0
  unfold wbase boff
  have h11 : (1 : Int) = 1 := rfl
  have h10 : ¬ (-1 : Int) = 1 := by norm_num
  rcases ho with rfl | rfl <;> rcases he with rfl | rfl <;> simp only [h1, h2, h3, h4, if_pos h11, if_neg h10] <;> push_cast <;> ring

theorem boff_succ (he : endian = 1 ∨ endian = -1) (j : Nat) : boff endian size j - endian = boff endian size (j + 1) := by
  unfold boff
  rcases he with rfl | rfl
  · rw [if_pos rfl, if_pos rfl]; push_cast; ring
  · rw [if_neg (by norm_num), if_neg (by norm_num)]; push_cast; ring

theorem start_eq {W : Nat} (ho : order = 1 ∨ order = -1) (he : endian = 1 ∨ endian = -1) (hW : 1 ≤ W) (hs : 1 ≤ size) :
    ((if order ≥ 0 then (W - 1) * size else 0 : Nat) : Int) + ((if endian ≥ 0 then size - 1 else 0 : Nat) : Int) =
      wbase order size W 0 + boff endian size 0 := by
  unfold wbase boff
  have e1 : ((if order ≥ 0 then (W - 1) * size else 0 : Nat) : Int) = (if order = 1 then (W : Int) - 1 - (0 : Nat) else (0 : Nat)) * size := by
    rcases ho with rfl | rfl
    · rw [if_pos (by norm_num), if_pos rfl]; push_cast [hW]; ring
    · rw [if_neg (by norm_num), if_neg (by norm_num)]; simp
  have e2 : ((if endian ≥ 0 then size - 1 else 0 : Nat) : Int) = if endian = 1 then (size : Int) - 1 - (0 : Nat) else (0 : Nat) := by
    rcases he with rfl | rfl
    · rw [if_pos (by norm_num), if_pos rfl]; push_cast [hs]; ring
    · rw [if_neg (by norm_num), if_neg (by norm_num)]
  rw [e1, e2]

/-! ### Bytes of a number -/

theorem byte_of_digit (x r : Nat) {b : Nat} (hb : b < 4) :
    (x + 𝔹 * r) / 256 ^ b % 256 = x / 256 ^ b % 256 := by
  rcases (by omega : b = 0 ∨ b = 1 ∨ b = 2 ∨ b = 3) with rfl | rfl | rfl | rfl <;> norm_num <;> omega

theorem val_byte {xs : List Nat} (hd : Dig xs) {t : Nat} (ht : t / 4 < xs.length) :
    val xs / 256 ^ t % 256 = xs[t / 4] / 256 ^ (t % 4) % 256 := by
  have h1 : val xs = val (xs.take (t / 4)) + 𝔹 ^ (t / 4) * (xs[t / 4] + 𝔹 * val (xs.drop (t / 4 + 1))) := by
    conv => lhs; rw [← List.take_append_drop (t / 4) xs, val_append, List.drop_eq_getElem_cons ht, val_cons]
    rw [List.length_take, Nat.min_eq_left (by omega)]
  have h2 : 256 ^ t = 𝔹 ^ (t / 4) * 256 ^ (t % 4) := by
    rw [show 𝔹 = 256 ^ 4 by norm_num, ← Nat.pow_mul, ← Nat.pow_add, Nat.div_add_mod]
  have h3 : val (xs.take (t / 4)) < 𝔹 ^ (t / 4) := by
    have := val_lt (hd.take (t / 4))
    rwa [List.length_take, Nat.min_eq_left (by omega)] at this
  rw [h2, ← Nat.div_div_eq_div_mul, h1, Nat.add_mul_div_left _ _ (by positivity), Nat.div_eq_of_lt h3, Nat.zero_add]
  exact byte_of_digit _ _ (Nat.mod_lt _ (by norm_num))

/-! ### Export -/

theorem wp_bgetI {l : Bytes} {i : Int} {x : Nat} {Q : Nat → Mem → Prop} (h0 : 0 ≤ i) (h : l[i.toNat]? = some x) (hQ : Q x m) :
    wp env E (bgetI l i) Q m := by
  unfold bgetI; rw [if_pos h0]; exact wp_bget h hQ

theorem wp_bsetI {l : Bytes} {i : Int} {x : Nat} {Q : Bytes → Mem → Prop} (h0 : 0 ≤ i) (h : i.toNat < l.length)
    (hQ : Q (l.set i.toNat x) m) : wp env E (bsetI l i x) Q m := by
  unfold bsetI; rw [if_pos h0]; exact wp_bset h hQ

/-- All bytes before the `j`-th of the `i`-th word have been written. -/
structure ExpInv (order endian : Int) (size count : Nat) (buf0 : Bytes) (V used i j : Nat) (s : Exp) : Prop where
  len : s.buf.length = buf0.length
  bytes : ∀ k < i * size + j, s.buf[bytePos order endian size count k]? = some (V / 256 ^ k % 256)
  rest : ∀ p, count * size ≤ p → s.buf[p]? = buf0[p]?
  src : used ≤ i * size + j ∨ ∃ q ≤ 4, s.bits = 32 - 8 * q ∧ 4 * s.src + q = i * size + j
  dst : s.dst = wbase order size count i + boff endian size j

variable {buf0 : Bytes} {V used i j : Nat} {e : Exp}

theorem ExpInv.idx (h : ExpInv order endian size count buf0 V used i j e) (hi : i < count) (hj : j < size)
    (hfit : count * size ≤ buf0.length) :
    0 ≤ e.dst ∧ e.dst.toNat = bytePos order endian size count (i * size + j) ∧ e.dst.toNat < e.buf.length := by
  have h1 := bytePos_eq (order := order) (endian := endian) hi hj
  have h2 := h.dst
  have hk : i * size + j < count * size := by
    have := Nat.mul_le_mul_right size (show i + 1 ≤ count by omega)
    rw [Nat.add_mul] at this; omega
  have h3 := bytePos_lt (order := order) (endian := endian) hk
  have h4 := h.len
  rw [← h1] at h2
  rw [h2, Int.toNat_natCast]
  exact ⟨by omega, rfl, by omega⟩

theorem ExpInv.step (h : ExpInv order endian size count buf0 V used i j e) (he : endian = 1 ∨ endian = -1) (hi : i < count)
    (hj : j < size) (hfit : count * size ≤ buf0.length) {x src bits : Nat} (hx : x = V / 256 ^ (i * size + j) % 256)
    (hsrc : used ≤ i * size + (j + 1) ∨ ∃ q ≤ 4, bits = 32 - 8 * q ∧ 4 * src + q = i * size + (j + 1)) :
    ExpInv order endian size count buf0 V used i (j + 1) ⟨e.buf.set e.dst.toNat x, e.dst - endian, src, bits⟩ := by
  obtain ⟨h0, h1, h2⟩ := h.idx hi hj hfit
  have hk : i * size + j < count * size := by
    have := Nat.mul_le_mul_right size (show i + 1 ≤ count by omega)
    rw [Nat.add_mul] at this; omega
  refine ⟨by simp [h.len], ?_, ?_, hsrc, ?_⟩
  · intro k hk'
    show (e.buf.set e.dst.toNat x)[_]? = _
    by_cases hkt : k = i * size + j
    · rw [hkt, ← h1, List.getElem?_set_self h2, hx]
    · rw [List.getElem?_set_ne]
      · exact h.bytes k (by omega)
      · rw [h1]
        intro hh
        exact hkt (bytePos_inj hk (by omega) hh).symm
  · intro p hp
    show (e.buf.set e.dst.toNat x)[p]? = _
    rw [List.getElem?_set_ne, h.rest p hp]
    rw [h1]
    have := bytePos_lt (order := order) (endian := endian) hk
    omega
  · show e.dst - endian = _
    rw [h.dst, Int.add_sub_assoc, boff_succ he]

theorem expLoop1_spec {p : Ptr} {xs : List Nat} {Q : Nat × Exp → Mem → Prop} (hx : At m p xs) (hd : Dig xs)
    (hV : V = val xs) (hu : used ≤ 4 * xs.length) (he : endian = 1 ∨ endian = -1) (hi : i < count)
    (hfit : count * size ≤ buf0.length) (hbig : count * size < 18446744073709551616) {n : Nat} (hn : j + n = size)
    (h : ExpInv order endian size count buf0 V used i j e)
    (hQ : ∀ j' e', ExpInv order endian size count buf0 V used i j' e' → j' ≤ size → (j' = size ∨ used ≤ i * size + j') →
      Q (j', e') m) : wp env E (expLoop1 p endian size used i n j e) Q m := by
  induction n generalizing j e with
  | zero => exact hQ _ _ h (by omega) (.inl (by omega))
  | succ n ih =>
    unfold expLoop1
    have hk : i * size + j < count * size := by
      have := Nat.mul_le_mul_right size (show i + 1 ≤ count by omega)
      rw [Nat.add_mul] at this; omega
    have hmod : u64 (i * size + j) = i * size + j := Nat.mod_eq_of_lt (by omega)
    rw [hmod]
    by_cases hlt : i * size + j < used
    · refine wp_if_pos hlt ?_
      obtain ⟨h0, h1, h2⟩ := h.idx hi (by omega) hfit
      obtain ⟨q, hq, hb, hs⟩ : ∃ q ≤ 4, e.bits = 32 - 8 * q ∧ 4 * e.src + q = i * size + j := by
        rcases h.src with h | h
        · omega
        · exact h
      have hsrc : (if e.bits = 0 then e.src + 1 else e.src) = (i * size + j) / 4 := by split <;> omega
      have hbit : (if e.bits = 0 then 32 else e.bits) = 32 - 8 * ((i * size + j) % 4) := by split <;> omega
      have h4 : (i * size + j) / 4 < xs.length := by omega
      simp only [hsrc, hbit]
      refine wp_bind (wp_rd (hx.get h4) ?_)
      refine wp_bind (wp_bsetI h0 h2 ?_)
      refine ih (by omega) (h.step he hi (by omega) hfit ?_ ?_)
      · rw [hV, val_byte hd h4, Nat.shiftRight_eq_div_pow, show (255 : Nat) = 2 ^ 8 - 1 from rfl, Nat.and_two_pow_sub_one_eq_mod]
        rw [show 32 - (32 - 8 * ((i * size + j) % 4)) = 8 * ((i * size + j) % 4) by omega, Nat.pow_mul]
      · refine .inr ⟨(i * size + j) % 4 + 1, by omega, by omega, by omega⟩
    · exact wp_if_neg hlt (wp_pure (hQ _ _ h (by omega) (.inr (by omega))))

theorem expLoop2_spec {Q : Exp → Mem → Prop} (hV : V < 256 ^ used) (he : endian = 1 ∨ endian = -1) (hi : i < count)
    (hfit : count * size ≤ buf0.length) {n : Nat} (hn : j + n = size) (hu : j = size ∨ used ≤ i * size + j)
    (h : ExpInv order endian size count buf0 V used i j e)
    (hQ : ∀ e', ExpInv order endian size count buf0 V used i size e' → Q e' m) : wp env E (expLoop2 endian n e) Q m := by
  induction n generalizing j e with
  | zero =>
    have hj : j = size := by omega
    rw [hj] at h; exact hQ _ h
  | succ n ih =>
    unfold expLoop2
    have hu : used ≤ i * size + j := by omega
    obtain ⟨h0, h1, h2⟩ := h.idx hi (by omega) hfit
    refine wp_bind (wp_bsetI h0 h2 ?_)
    refine ih (j := j + 1) (by omega) (.inr (by omega)) (h.step he hi (by omega) hfit ?_ (.inl (by omega)))
    rw [Nat.div_eq_of_lt (Nat.lt_of_lt_of_le hV (Nat.pow_le_pow_right (by norm_num) hu))]

theorem expLoop_spec {p : Ptr} {xs : List Nat} {Q : Exp → Mem → Prop} (hx : At m p xs) (hd : Dig xs)
    (hV : V = val xs) (hu : used ≤ 4 * xs.length) (hVu : V < 256 ^ used) (ho : order = 1 ∨ order = -1) (he : endian = 1 ∨ endian = -1)
    (hs : size < 2 ^ 62) (hs0 : 1 ≤ size)
    (hfit : count * size ≤ buf0.length) (hbig : count * size < 18446744073709551616) {n : Nat} (hn : i + n = count)
    (h : ExpInv order endian size count buf0 V used i 0 e)
    (hQ : ∀ e', ExpInv order endian size count buf0 V used count 0 e' → Q e' m) :
    wp env E (expLoop p endian size used (wordOffset order endian size) n i e) Q m := by
  induction n generalizing i e with
  | zero =>
    have hj : i = count := by omega
    rw [hj] at h; exact hQ _ h
  | succ n ih =>
    unfold expLoop
    refine wp_bind (expLoop1_spec hx hd hV hu he (by omega) hfit hbig (by omega) h fun j' e' h1 h2 h3 => ?_)
    refine wp_bind (expLoop2_spec hVu he (by omega) hfit (by omega) h3 h1 fun e2 h4 => ?_)
    refine ih (by omega) ⟨h4.len, ?_, h4.rest, ?_, ?_⟩
    · have := h4.bytes
      intro k hk; exact this k (by rw [Nat.add_mul] at hk; omega)
    · have := h4.src
      rw [show (i + 1) * size + 0 = i * size + size by ring]
      exact this
    · show e2.dst + _ = _
      rw [h4.dst, wordOffset_eq ho he hs hs0]

theorem length_take_used {C : Cell} (hn : Norm C) : (C.buf.take C.used).length = C.used := by
  rw [List.length_take, Nat.min_eq_left hn.le]

theorem size_bounds {n : Nat} : n < 256 ^ ((Nat.size n + 7) / 8) := by
  have h := Nat.lt_size_self n
  refine Nat.lt_of_lt_of_le h ?_
  rw [show (256 : Nat) = 2 ^ 8 from rfl, ← Nat.pow_mul]
  exact Nat.pow_le_pow_right (by norm_num) (by omega)

/-- The number of words written by `impz_export` -/
def expWords (size n : Nat) : Nat := ((Nat.size n + 7) / 8 + (size - 1)) / size

theorem wp_mallocBytes {Q : Bytes → Mem → Prop} {n : Nat} (hQ : ∀ l : Bytes, l.length = n → Q l m) :
    wp env E (mallocBytes n) Q m := by
  unfold wp mallocBytes
  exact hQ _ (by simp)

theorem impz_export_spec {Q : Option Bytes × Nat → Mem → Prop} {rop : Option Bytes} (h : R2 m σ) (hz : σ z = some v) (hv : v ≠ 0)
    (ho : order = 1 ∨ order = -1) (he : endian = 1 ∨ endian = 0 ∨ endian = -1) (hs : size < 2 ^ 62) (hs0 : 1 ≤ size)
    (hfit : ∀ buf, rop = some buf → expWords size v.natAbs * size ≤ buf.length)
    (hQ : ∀ buf, Encodes order endian size (expWords size v.natAbs) buf v.natAbs →
      (∀ b, rop = some b → buf.length = b.length ∧ ∀ p, expWords size v.natAbs * size ≤ p → buf[p]? = b[p]?) →
      (rop = none → buf.length = expWords size v.natAbs * size) → Q (some buf, expWords size v.natAbs) m) :
    wp env E (impz_export rop order size endian 0 z) Q m := by
  obtain ⟨s, r, g⟩ := h
  obtain ⟨C, hC, gC⟩ := g.get hz
  unfold impz_export
  refine wp_bind (wp_cassert rfl (wp_bind (wp_cassert (decide_eq_true he) (wp_bind (wp_cassert (decide_eq_true ho) ?_)))))
  refine wp_bind (mp_int_compare_zero_spec ⟨s, r, g⟩ hz ?_)
  refine wp_if_neg (by simpa using hv) (wp_bind (mp_int_unsigned_len_spec ⟨s, r, g⟩ hz ?_))
  have hpos : 0 < Nat.size v.natAbs := Nat.size_pos.2 (by omega)
  generalize hN : v.natAbs = N at *
  have hNm : N = C.mag := by rw [← hN, gC.natAbs]
  have hlen := length_take_used gC.norm
  have hul : C.used ≤ MAXD := Nat.le_trans gC.norm.le (r.okl hC).2
  have hsz : Nat.size N ≤ 32 * C.used := by
    rw [Nat.size_le, hNm, Cell.mag]
    have := val_lt ((r.okd hC).take C.used)
    rwa [hlen, show 𝔹 = 2 ^ 32 from rfl, ← Nat.pow_mul] at this
  rw [Nat.max_eq_right (by omega)]
  have hbytes := size_bounds (n := N)
  unfold expWords at *
  generalize hU : (Nat.size N + 7) / 8 = U at *
  have hused : ((U : Int) % 18446744073709551616).toNat = U := by omega
  rw [hused]
  refine wp_bind (wp_cwhen (fun h => by omega) fun _ => ?_)
  have e1 : u64 (U + sub64 size 1) = U + (size - 1) := by unfold u64 sub64 u64; omega
  rw [e1]
  generalize hW : (U + (size - 1)) / size = W at *
  have hW1 : W * size ≤ U + (size - 1) := by rw [← hW]; exact Nat.div_mul_le_self _ _
  have hW2 : U ≤ W * size := by
    have := Nat.lt_mul_div_succ (U + (size - 1)) (show 0 < size by omega)
    rw [hW, Nat.mul_add, Nat.mul_comm] at this
    omega
  have hW0 : 1 ≤ W := by
    rcases Nat.eq_zero_or_pos W with rfl | h
    · omega
    · exact h
  have e2 : u64 (size * W) = W * size := by unfold u64; rw [Nat.mul_comm]; omega
  have e3 : sub64 (W * size) U = W * size - U := by unfold sub64 u64; omega
  have e4 : u64 (sub64 W 1 * size) = (W - 1) * size := by
    have hh : W < 18446744073709551616 := by
      have := Nat.mul_le_mul_left W hs0; omega
    have : sub64 W 1 = W - 1 := by unfold sub64 u64; omega
    have h2 : (W - 1) * size ≤ W * size := Nat.mul_le_mul_right _ (by omega)
    rw [this]; unfold u64; omega
  dsimp only
  rw [e2, e3, e4]
  refine wp_bind (wp_cassert (decide_eq_true (by omega)) (wp_bind (wp_cassert (decide_eq_true (by omega)) ?_)))
  have he' : (if endian = 0 then HOST_ENDIAN else endian) = 1 ∨ (if endian = 0 then HOST_ENDIAN else endian) = -1 := by
    unfold HOST_ENDIAN; split <;> omega
  have hee : ((if endian = 0 then HOST_ENDIAN else endian) = 1) = (endian = 1) := by
    unfold HOST_ENDIAN; split <;> simp_all
  have hbp : ∀ k, bytePos order (if endian = 0 then HOST_ENDIAN else endian) size W k = bytePos order endian size W k := by
    intro k; unfold bytePos; simp only [hee]
  have key : ∀ buf0 : Bytes, W * size ≤ buf0.length → (∀ buf, Encodes order endian size W buf N → buf.length = buf0.length →
      (∀ p, W * size ≤ p → buf[p]? = buf0[p]?) → Q (some buf, W) m) → wp env E (do
        let digits ← MP_DIGITS z
        let s ← expLoop digits (if endian = 0 then HOST_ENDIAN else endian) size U
          (wordOffset order (if endian = 0 then HOST_ENDIAN else endian) size) W 0
            ⟨buf0, ((if order ≥ 0 then (W - 1) * size else 0 : Nat) : Int) + ((if (if endian = 0 then HOST_ENDIAN else endian) ≥ 0 then size - 1 else 0 : Nat) : Int), 0, 32⟩
        pure (some s.buf, W)) Q m := by
    intro buf0 hf hQ'
    refine wp_bind (wp_DIGITS r hC ?_)
    refine wp_bind (expLoop_spec (buf0 := buf0) (V := N) ((r.at hC).take C.used) ((r.okd hC).take _) hNm (by omega) hbytes ho he' hs hs0
      hf (by omega) (by omega) ⟨rfl, by simp, fun _ _ => rfl, .inr ⟨0, by omega, rfl, by simp⟩, ?_⟩ fun e' h1 => ?_)
    · exact start_eq ho he' hW0 hs0
    · refine wp_pure (hQ' _ ⟨?_, fun k hk => ?_⟩ h1.len h1.rest)
      · exact Nat.lt_of_lt_of_le hbytes (Nat.pow_le_pow_right (by norm_num) hW2)
      · rw [← hbp]; exact h1.bytes k (by omega)
  cases rop with
  | none =>
    refine wp_bind (wp_mallocBytes fun l hl => ?_)
    have hl' : l.length = W * size := by rw [hl]; unfold u64; omega
    exact key l (by omega) fun buf h1 h2 h3 => hQ buf h1 (by simp) (by intro; omega)
  | some b =>
    refine wp_bind (wp_pure ?_)
    refine key b (hfit b rfl) fun buf h1 h2 h3 => hQ buf h1 ?_ (by simp)
    intro b' hb; cases hb; exact ⟨h2, h3⟩

/-! ### Import -/

/-- The value of the `n` least significant bytes -/
def lowVal (b : Nat → Nat) (n : Nat) : Nat := Nat.ofDigits 256 ((List.range n).map b)

theorem lowVal_succ (b : Nat → Nat) (n : Nat) : lowVal b (n + 1) = lowVal b n + b n * 256 ^ n := by
  unfold lowVal
  rw [List.range_succ, List.map_append, Nat.ofDigits_append]
  simp [Nat.ofDigits_singleton]
  ring

theorem lowVal_lt {b : Nat → Nat} {n : Nat} (hb : ∀ k < n, b k < 256) : lowVal b n < 256 ^ n := by
  induction n with
  | zero => simp [lowVal]
  | succ n ih =>
    rw [lowVal_succ, Nat.pow_succ]
    have := ih fun k hk => hb k (by omega)
    have := hb n (by omega)
    nlinarith [Nat.mul_le_mul_right (256 ^ n) (show b n ≤ 255 by omega)]

theorem lowVal_eq {b : Nat → Nat} {V n : Nat} (h : ∀ k < n, b k = V / 256 ^ k % 256) : lowVal b n = V % 256 ^ n := by
  induction n with
  | zero => simp [lowVal, Nat.mod_one]
  | succ n ih =>
    rw [lowVal_succ, ih fun k hk => h k (by omega), h n (by omega), Nat.pow_succ, Nat.mod_mul]
    ring

theorem val_splice1 {X : List Nat} {i n x : Nat} (hi : i < n) (hn : n ≤ X.length) :
    val ((spliceL X i [x]).take n) + 𝔹 ^ i * X[i] = val (X.take n) + 𝔹 ^ i * x := by
  have h1 : spliceL X i [x] = X.take i ++ [x] ++ X.drop (i + 1) := spliceL_eq (by simp; omega)
  have h2 : X.take n = X.take i ++ X[i] :: (X.take n).drop (i + 1) := by
    conv => lhs; rw [← List.take_append_drop i (X.take n), List.take_take, Nat.min_eq_left (by omega),
      List.drop_eq_getElem_cons (by rw [List.length_take]; omega)]
    rw [List.getElem_take]
  have h3 : (spliceL X i [x]).take n = X.take i ++ x :: (X.take n).drop (i + 1) := by
    rw [h1, List.append_assoc, List.take_append, List.take_of_length_le (by rw [List.length_take]; omega), List.length_take,
      Nat.min_eq_left (by omega)]
    congr 1
    rw [show n - i = (n - i - 1) + 1 by omega, List.singleton_append, List.take_succ_cons, List.drop_take]
    congr 2
  have h4 : (X.take i).length = i := by rw [List.length_take]; omega
  rw [h3]
  conv => rhs; rw [h2]
  rw [val_append, val_append, val_cons, val_cons, h4]
  ring

variable {C : Cell} {X : List Nat} {nd : Nat}

theorem zeroLoop_spec {Q : Unit → Mem → Prop} {n i : Nat} (h : Rep m (upd s z (some { C with buf := X }))) (hn : i + n ≤ X.length)
    (h0 : val (X.take i) = 0)
    (hQ : ∀ m' Y, Rep m' (upd s z (some { C with buf := Y })) → Y.length = X.length → val (Y.take (i + n)) = 0 → Q () m') :
    wp env E (zeroLoop C.ptr n i) Q m := by
  induction n generalizing i m X with
  | zero => exact hQ m X h rfl h0
  | succ n ih =>
    unfold zeroLoop
    refine wp_bind (wp_wrz (C := { C with buf := X }) h (upd_self _ _ _) (show i < X.length by omega) (by norm_num) fun m' h' => ?_)
    rw [upd_upd] at h'
    refine ih h' (by simp; omega) ?_ fun m2 Y hY hl hv => ?_
    · show val ((spliceL X i [0]).take (i + [0].length)) = 0
      rw [take_spliceL' (by simp; omega), val_append, h0]; simp
    · refine hQ m2 Y hY (by simpa using hl) ?_
      rwa [show i + (n + 1) = i + 1 + n by omega]

theorem impLoop1_spec {op : Bytes} {Q : Int × Nat × Nat → Mem → Prop} {b : Nat → Nat}
    (he : endian = 1 ∨ endian = -1) (hb : ∀ k < count * size, b k < 256)
    (hop : ∀ k < count * size, op[bytePos order endian size count k]? = some (b k)) (hnd : count * size ≤ 4 * nd)
    {i : Nat} (hi : i < count) {n j : Nat} (hn : j + n = size) {src : Int} {dst q : Nat} (hsrc : src = wbase order size count i + boff endian size j)
    (hq : q ≤ 4) (hdst : 4 * dst + q = i * size + j) (h : Rep m (upd s z (some { C with buf := X }))) (hX : nd ≤ X.length)
    (hv : val (X.take nd) = lowVal b (i * size + j))
    (hQ : ∀ m' Y dst' q', Rep m' (upd s z (some { C with buf := Y })) → Y.length = X.length → q' ≤ 4 → 4 * dst' + q' = i * size + size →
      val (Y.take nd) = lowVal b (i * size + size) → Q (wbase order size count i + boff endian size size, dst', 8 * q') m') :
    wp env E (impLoop1 op C.ptr endian n src dst (8 * q)) Q m := by
  induction n generalizing j m X src dst q with
  | zero =>
    have hj : j = size := by omega
    rw [hj] at hsrc hdst hv
    rw [hsrc]
    exact hQ m X dst q h rfl hq hdst hv
  | succ n ih =>
    unfold impLoop1
    have hk : i * size + j < count * size := by
      have := Nat.mul_le_mul_right size (show i + 1 ≤ count by omega)
      rw [Nat.add_mul] at this; omega
    have hdst' : (if 8 * q = 32 then dst + 1 else dst) = (i * size + j) / 4 := by split <;> omega
    have hbit : (if 8 * q = 32 then 0 else 8 * q) = 8 * ((i * size + j) % 4) := by split <;> omega
    simp only [hdst', hbit]
    have hpos := bytePos_eq (order := order) (endian := endian) hi (show j < size by omega)
    have hbt := hb _ hk
    have hvl := lowVal_lt (b := b) (n := i * size + j) fun k h => hb k (by omega)
    have hsucc := lowVal_succ b (i * size + j)
    have hsh : i * size + (j + 1) = i * size + j + 1 := by omega
    rw [← hsrc] at hpos
    refine wp_bind (wp_bgetI (x := b (i * size + j)) (by omega) (by rw [← hpos, Int.toNat_natCast]; exact hop _ hk) ?_)
    generalize htt : i * size + j = t at *
    have ha : t / 4 < nd := by omega
    have hrd : X[t / 4]? = some X[t / 4] := List.getElem?_eq_getElem (by omega)
    refine wp_bind (wp_rdz (C := { C with buf := X }) h (upd_self _ _ _) hrd ?_)
    have hdig : Dig X := h.okd (C := { C with buf := X }) (upd_self _ _ _)
    have h256 : 256 ^ t = 𝔹 ^ (t / 4) * 256 ^ (t % 4) := by
      rw [show 𝔹 = 256 ^ 4 by norm_num, ← Nat.pow_mul, ← Nat.pow_add, Nat.div_add_mod]
    have hd : X[t / 4] < 2 ^ (8 * (t % 4)) := by
      have h1 := (val_digit (hdig.take nd) (i := t / 4) (by rw [List.length_take]; omega)).symm
      rw [List.getElem_take, hv] at h1
      rw [h1]
      refine Nat.lt_of_le_of_lt (Nat.mod_le _ _) ?_
      rw [Nat.div_lt_iff_lt_mul (by positivity), Nat.pow_mul, Nat.mul_comm, show 2 ^ 8 = 256 from rfl, ← h256]
      exact hvl
    have hbs : b t <<< (8 * (t % 4)) < 𝔹 := by
      rw [Nat.shiftLeft_eq]
      rcases (by omega : t % 4 = 0 ∨ t % 4 = 1 ∨ t % 4 = 2 ∨ t % 4 = 3) with h | h | h | h <;> rw [h] <;> norm_num <;> omega
    have hor : X[t / 4] ||| u32 (b t <<< (8 * (t % 4))) = X[t / 4] + b t * 256 ^ (t % 4) := by
      rw [show u32 (b t <<< (8 * (t % 4))) = b t <<< (8 * (t % 4)) from Nat.mod_eq_of_lt hbs, Nat.or_comm,
        ← Nat.shiftLeft_add_eq_or_of_lt hd, Nat.shiftLeft_eq, Nat.pow_mul]
      ring
    have hlt : X[t / 4] + b t * 256 ^ (t % 4) < 𝔹 := by
      rw [Nat.shiftLeft_eq] at hbs
      rcases (by omega : t % 4 = 0 ∨ t % 4 = 1 ∨ t % 4 = 2 ∨ t % 4 = 3) with h | h | h | h <;> rw [h] at hd ⊢ <;> norm_num at hd ⊢ <;> omega
    rw [hor]
    refine wp_bind (wp_wrz (C := { C with buf := X }) h (upd_self _ _ _) (show t / 4 < X.length by omega) hlt fun m' h' => ?_)
    rw [upd_upd] at h'
    have hsp := val_splice1 (X := X) (i := t / 4) (n := nd) (x := X[t / 4] + b t * 256 ^ (t % 4)) ha hX
    rw [show 8 * (t % 4) + 8 = 8 * (t % 4 + 1) by ring]
    refine ih (j := j + 1) (by omega) (by rw [hsrc, Int.add_sub_assoc, boff_succ he]) (by omega) (by omega) h' (by simpa using hX) ?_ ?_
    · show val ((spliceL X (t / 4) _).take nd) = _
      rw [hsh, hsucc, ← hv, h256]
      rw [Nat.mul_add] at hsp
      nlinarith
    · intro m2 Y dst' q' h1 h2 h3 h4 h5
      exact hQ m2 Y dst' q' h1 (by simpa using h2) h3 h4 h5

theorem impLoop_spec {op : Bytes} {Q : Unit → Mem → Prop} {b : Nat → Nat} (ho : order = 1 ∨ order = -1)
    (he : endian = 1 ∨ endian = -1) (hs : size < 2 ^ 62) (hs0 : 1 ≤ size) (hb : ∀ k < count * size, b k < 256)
    (hop : ∀ k < count * size, op[bytePos order endian size count k]? = some (b k)) (hnd : count * size ≤ 4 * nd)
    {n i : Nat} (hn : i + n = count) {src : Int} {dst q : Nat} (hsrc : src = wbase order size count i + boff endian size 0)
    (hq : q ≤ 4) (hdst : 4 * dst + q = i * size) (h : Rep m (upd s z (some { C with buf := X }))) (hX : nd ≤ X.length)
    (hv : val (X.take nd) = lowVal b (i * size))
    (hQ : ∀ m' Y, Rep m' (upd s z (some { C with buf := Y })) → Y.length = X.length →
      val (Y.take nd) = lowVal b (count * size) → Q () m') :
    wp env E (impLoop op C.ptr endian size (wordOffset order endian size) n src dst (8 * q)) Q m := by
  induction n generalizing i m X src dst q with
  | zero =>
    have hj : i = count := by omega
    rw [hj] at hv
    exact hQ m X h rfl hv
  | succ n ih =>
    unfold impLoop
    refine wp_bind (impLoop1_spec he hb hop hnd (show i < count by omega) (Nat.zero_add _) hsrc hq hdst h hX hv
      fun m1 Y dst' q' h1 h2 h3 h4 h5 => ?_)
    have e1 : (i + 1) * size = i * size + size := by ring
    refine ih (i := i + 1) (by omega) (wordOffset_eq ho he hs hs0 i) h3 (by rw [e1]; exact h4) h1 (by omega) (by rw [e1]; exact h5) ?_
    intro m2 Z h6 h7 h8
    exact hQ m2 Z h6 (by omega) h8

theorem impClamp_spec {p : Ptr} {xs : List Nat} {n : Nat} {Q : Nat → Mem → Prop}
    (hx : At m p xs) (hn : n ≤ xs.length) (h : Q (clampLen xs n) m) : wp env E (impClamp p n) Q m := by
  have e : ∀ n, impClamp p n = clampLoop p n := by
    intro n
    induction n with
    | zero => rfl
    | succ n ih =>
      cases n with
      | zero => rfl
      | succ n => unfold impClamp clampLoop; rw [ih]
  rw [e]
  exact clampLoop_spec hx hn h

theorem impz_import_spec {Q : Unit → Mem → Prop} {op : Bytes} (hE : Ref env E) (h : R2 m σ) (hc : σ c = some w) (hown : c.own = true)
    (ho : order = 1 ∨ order = -1) (he : endian = 1 ∨ endian = 0 ∨ endian = -1) (hs0 : 1 ≤ size) (hc0 : 1 ≤ count)
    (hmax : count * size ≤ 2 ^ 34 - 8)
    (hop : ∀ k < count * size, ∃ x < 256, op[bytePos order endian size count k]? = some x)
    (hQ : ∀ m', R2 m' (upd σ c (some (arrVal order endian size count op : Int))) → Q () m') :
    wp env E (impz_import c count order size endian 0 (some op)) Q m := by
  have hsz : size ≤ 2 ^ 34 - 8 := Nat.le_trans (Nat.le_mul_of_pos_left _ (by omega)) hmax
  have he' : (if endian = 0 then HOST_ENDIAN else endian) = 1 ∨ (if endian = 0 then HOST_ENDIAN else endian) = -1 := by
    unfold HOST_ENDIAN; split <;> omega
  have hee : ((if endian = 0 then HOST_ENDIAN else endian) = 1) = (endian = 1) := by
    unfold HOST_ENDIAN; split <;> simp_all
  have hbp : ∀ k, bytePos order (if endian = 0 then HOST_ENDIAN else endian) size count k = bytePos order endian size count k := by
    intro k; unfold bytePos; simp only [hee]
  have e1 : u64 (count * size) = count * size := by unfold u64; omega
  have e2 : u64 (count * size + 3) = count * size + 3 := by unfold u64; omega
  have e3 : u32 ((count * size + 3) / 4) = (count * size + 3) / 4 := by unfold u32; omega
  have hle : (count - 1) * size ≤ count * size := Nat.mul_le_mul_right _ (by omega)
  have hge : 1 ≤ count * size := Nat.mul_pos (by omega) (by omega)
  have e4 : u64 ((count - 1) * size) = (count - 1) * size := by unfold u64; omega
  have e5 : sub64 size 1 = size - 1 := by unfold sub64 u64; omega
  have hst := start_eq (size := size) ho he' hc0 hs0
  unfold impz_import
  show wp env E (if count = 0 then _ else _) Q m
  refine wp_if_neg (by omega) ?_
  refine wp_bind (wp_cassert rfl (wp_bind (wp_cassert (decide_eq_true he) (wp_bind (wp_cassert (decide_eq_true ho) ?_)))))
  dsimp only
  rw [e1, e2, e3, e4, e5]
  generalize (if endian = 0 then HOST_ENDIAN else endian) = e at *
  generalize hND : (count * size + 3) / 4 = nd at *
  obtain ⟨s, r, g⟩ := h
  refine withUnchk_rep r fun t m1 hst1 hto hd h1 => ?_
  refine mp_int_init_size_rep hE h1 hd hst1 (by omega) fun m2 C h2 gC hlen => ?_
  refine wp_bind (wp_DIGITS h2 (upd_self _ _ _) ?_)
  have hneg : C.neg = false := by
    have h1 := gC.sign
    have h2 := gC.natAbs
    cases hn : C.neg with
    | false => rfl
    | true => exact absurd h2.symm (h1 hn)
  refine wp_bind (zeroLoop_spec (C := C) (X := C.buf) (i := 0) (n := nd) h2 (by omega) (by simp) fun m3 Y h3 hY hY0 => ?_)
  rw [Nat.zero_add] at hY0
  rw [hst]
  have hb : ∀ k < count * size, op.getD (bytePos order endian size count k) 0 < 256 := by
    intro k hk; obtain ⟨x, hx, hx'⟩ := hop k hk; rw [List.getD_eq_getElem?_getD, hx']; exact hx
  refine wp_bind (impLoop_spec (q := 0) (b := fun k => op.getD (bytePos order endian size count k) 0) ho he' (by omega) hs0 hb
    (fun k hk => ?_) (show count * size ≤ 4 * nd by omega) (Nat.zero_add _) rfl (by omega) (by simp) h3 (by omega)
    (by rw [hY0]; simp [lowVal]) fun m4 Z h4 hZ hv => ?_)
  · obtain ⟨x, hx, hx'⟩ := hop k hk
    rw [hbp, hx', List.getD_eq_getElem?_getD, hx', Option.getD_some]
  · refine wp_bind (wp_setUsed h4 (upd_self _ _ _) fun m5 h5 => ?_)
    rw [upd_upd] at h5
    refine wp_bind (impClamp_spec (h5.at (C := { C with buf := Z, used := nd }) (upd_self _ _ _)) (show nd ≤ Z.length by omega) ?_)
    refine wp_bind (wp_setUsed h5 (upd_self _ _ _) fun m6 h6 => ?_)
    rw [upd_upd] at h6
    have gD : Good { C with buf := Z, used := clampLen Z nd } (arrVal order endian size count op : Int) := by
      refine ⟨⟨clampLen_pos _ _ (by omega), Nat.le_trans (clampLen_le _ _) (by show nd ≤ Z.length; omega), clampLen_top⟩, ?_, ?_⟩
      · intro hh; rw [show C.neg = true from hh] at hneg; simp at hneg
      · show _ = sval C.neg (val (Z.take (clampLen Z nd)))
        rw [hneg, val_take_clampLen _ _ (by omega), hv]
        rfl
    have hct : c ≠ t := by
      rintro rfl
      obtain ⟨D, hD, -⟩ := g.get hc
      rw [hD] at hst1; simp at hst1
    refine wp_bind (mp_int_copy_spec hE ⟨_, h6, g.upd gD⟩ (upd_self _ _ _) (show upd σ t _ c = some w by rw [upd_ne _ _ hct]; exact hc) hown
      fun m7 h7 => wp_pure ?_)
    obtain ⟨s7, r7, g7⟩ := h7
    obtain ⟨D, hD, -⟩ := g7.get (z := t) (v := (arrVal order endian size count op : Int)) (by rw [upd_ne _ _ (Ne.symm hct), upd_self])
    refine ⟨s7, D, r7, hD, fun m8 h8 => hQ m8 ?_⟩
    have h9 : R2 m8 _ := ⟨_, h8, g7.upd_none⟩
    rwa [upd_tmp _ (g.none_iff.1 hst1) (Ne.symm hct)] at h9

end Imath
