import Verif.Proof.Overrun
import Verif.Props.Basic
import Verif.Proof.Rsa
import Verif.Proof.ConvProps
import Verif.Concrete
import Verif.SpecConv
import Mathlib.Tactic.NormNum.Prime

/-!
# Properties C44 - C46: RSA primitives, PKCS#1 v1.5 padding, octet strings
-/

namespace Imath

variable {env : Env} {m : Mem} {ρ : Nat → Option Int} {a b c d n o : Nat} {x y v w : Int}

/-! ### C44 -/

/-- The RSA primitives (all four are the same function) raise to a power modulo `v`. -/
theorem C44_transform (h : State m ρ) (ha : ρ a = some x) (hb : ρ b = some y) (hn : ρ n = some v) (hc : ρ c = some w)
    (hx : 0 ≤ x) (hv : x < v) (hy : 0 ≤ y) (h1 : v ≠ 1) :
    Runs env (rsa_rsaep (.var a) (.var b) (.var n) (.var c)) m fun r m' => r = MP_OK ∧ State m' (put ρ c (x ^ y.toNat % v)) ∧
      rsa_rsaep = rsa_rsadp ∧ rsa_rsaep = rsa_rsasp ∧ rsa_rsaep = rsa_rsavp := by
  refine .of_wp (s_rsa_transform_spec (ref_refused env) h.r2 ha hb hn hc rfl (fun h => by omega) (fun _ _ h => by omega)
    fun _ _ _ m' h' => ⟨rfl, ?_, rfl, rfl, rfl⟩)
  rw [if_neg (by omega), upd_lift] at h'
  exact h'.state

/-- Messages outside of the range `0 .. v - 1` are refused, as are all messages for a modulus that is
not positive. -/
theorem C44_range (h : State m ρ) (ha : ρ a = some x) (hb : ρ b = some y) (hn : ρ n = some v) (hc : ρ c = some w)
    (hx : x < 0 ∨ v ≤ x) :
    Runs env (rsa_rsaep (.var a) (.var b) (.var n) (.var c)) m fun r m' => r = MP_RANGE ∧ m' = m :=
  .of_wp (s_rsa_transform_spec (ref_refused env) h.r2 ha hb hn hc rfl (fun _ => ⟨rfl, rfl⟩) (fun _ _ _ => ⟨rfl, rfl⟩)
    fun h1 h2 => by omega)

/-- Decryption inverts encryption: for distinct primes `p`, `q` and exponents with
`e * d = 1` modulo `lcm (p - 1) (q - 1)`.  The ciphertext may be stored in the variable of the message
or that of `e`, and the result in any variable. -/
theorem C44_round_trip {p q e f : Nat} (hp : p.Prime) (hq : q.Prime) (hpq : p ≠ q) (hef : e * f % Nat.lcm (p - 1) (q - 1) = 1 % Nat.lcm (p - 1) (q - 1))
    (h : State m ρ) (ha : ρ a = some x) (hb : ρ b = some (e : Int)) (hd : ρ d = some (f : Int)) (hn : ρ n = some ((p * q : Nat) : Int))
    (hc : ρ c = some w) (ho : ρ o = some y) (hcd : c ≠ d) (hcn : c ≠ n) (hx : 0 ≤ x) (hxn : x < (p * q : Nat)) :
    Runs env (do
      let r ← rsa_rsaep (.var a) (.var b) (.var n) (.var c)
      let s ← rsa_rsadp (.var c) (.var d) (.var n) (.var o)
      pure (r, s)) m fun r m' => r = (MP_OK, MP_OK) ∧ State m' (put (put ρ c (x ^ e % (p * q : Nat))) o x) := by
  have hpp : 1 < p * q := by have := hp.two_le; have := hq.two_le; nlinarith
  refine .of_wp (wp_bind (s_rsa_transform_spec (ref_refused env) h.r2 ha hb hn hc rfl (fun h => by omega) (fun _ _ h => by omega)
    fun _ _ _ m1 h1 => ?_))
  rw [if_neg (by omega), Int.toNat_natCast, upd_lift] at h1
  have hr : 0 ≤ x ^ e % ((p * q : Nat) : Int) := Int.emod_nonneg _ (by omega)
  have hr' : x ^ e % ((p * q : Nat) : Int) < (p * q : Nat) := Int.emod_lt_of_pos _ (by omega)
  obtain ⟨y', ho'⟩ : ∃ y', put ρ c (x ^ e % (p * q : Nat)) o = some y' := by
    unfold put; split
    · exact ⟨_, rfl⟩
    · exact ⟨y, ho⟩
  refine wp_bind (s_rsa_transform_spec (ref_refused env) (x := x ^ e % ((p * q : Nat) : Int)) (y := (f : Int)) (v := ((p * q : Nat) : Int)) (w := y') h1
    (show put ρ c _ c = _ by unfold put; rw [if_pos rfl])
    (show put ρ c _ d = _ by unfold put; rw [if_neg (Ne.symm hcd)]; exact hd)
    (show put ρ c _ n = _ by unfold put; rw [if_neg (Ne.symm hcn)]; exact hn) ho' rfl (fun h => by omega)
    (fun _ _ h => by omega) fun _ _ _ m2 h2 => wp_pure ⟨rfl, ?_⟩)
  rw [if_neg (by omega), Int.toNat_natCast, rsa_inverse hp hq hpq hef hx hxn, upd_lift] at h2
  exact h2.state

/-- The modulus 61 · 53 = 3233 with the exponents 17 and 413; the message is encrypted in place. -/
example : ∃ m, State m (vars [3000, 17, 413, 3233]) ∧ Runs env (do
      let r ← rsa_rsaep (.var 0) (.var 1) (.var 3) (.var 0)
      let s ← rsa_rsadp (.var 0) (.var 2) (.var 3) (.var 0)
      pure (r, s)) m fun r m' => r = (MP_OK, MP_OK) ∧ State m' (put (put (vars [3000, 17, 413, 3233]) 0 (3000 ^ 17 % (61 * 53 : Nat))) 0 3000) :=
  let ⟨m, h⟩ := vars_state (l := [3000, 17, 413, 3233]) (by simp)
  ⟨m, h, C44_round_trip (p := 61) (q := 53) (e := 17) (f := 413) (by norm_num) (by norm_num) (by norm_num) (by norm_num)
    h rfl rfl rfl rfl rfl rfl (by decide) (by decide) (by norm_num) (by norm_num)⟩

example : ∃ m, State m (vars [3000, 17, 413, 3233]) ∧ Runs env (rsa_rsaep (.var 0) (.var 1) (.var 3) (.var 1)) m fun r m' =>
    r = MP_OK ∧ State m' (put (vars [3000, 17, 413, 3233]) 1 (3000 ^ 17 % 3233)) ∧
      rsa_rsaep = rsa_rsadp ∧ rsa_rsaep = rsa_rsasp ∧ rsa_rsaep = rsa_rsavp :=
  let ⟨m, h⟩ := vars_state (l := [3000, 17, 413, 3233]) (by simp)
  ⟨m, h, C44_transform (y := 17) h rfl rfl rfl rfl (by norm_num) (by norm_num) (by norm_num) (by norm_num)⟩

example : ∃ m, State m (vars [3233, 17, 413, 3233]) ∧ Runs env (rsa_rsaep (.var 0) (.var 1) (.var 3) (.var 1)) m fun r m' =>
    r = MP_RANGE ∧ m' = m :=
  let ⟨m, h⟩ := vars_state (l := [3233, 17, 413, 3233]) (by simp)
  ⟨m, h, C44_range (y := 17) h rfl rfl rfl rfl (.inr (by norm_num))⟩

/-! ### C45 -/

/-- Encoding a message that fits: zero, the tag, the padding, zero, the message. -/
theorem C45_encode {msg mid rest : Bytes} {tag : Int} {filler : Int → Bytes} (hf : ∀ k : Int, 0 ≤ k → (filler k).length = k)
    (h1 : 11 ≤ mid.length) (h2 : msg.length + mid.length < 2 ^ 31) :
    Runs env (rsa_pkcs1v15_encode (msg ++ mid ++ rest) msg.length (msg ++ mid).length tag filler) m fun r m' =>
      r = (MP_OK, [0, (tag % 256).toNat] ++ filler (mid.length - 3) ++ [0] ++ msg ++ rest) ∧ m' = m := by
  have e : ((msg ++ mid).length : Int) - msg.length - 3 = mid.length - 3 := by simp
  refine .of_wp (rsa_pkcs1v15_encode_spec rfl rfl (by simp; omega) (by simp; omega) (by rw [e]; exact hf _ (by omega)) ⟨?_, rfl⟩)
  rw [e]; simp

/-- A message that does not fit is refused; nothing is stored. -/
theorem C45_encode_range {buf : Bytes} {msg_len buf_len tag : Int} {filler : Int → Bytes} (h1 : buf_len - 11 < msg_len)
    (h2 : 0 ≤ buf_len) (h3 : buf_len < 2 ^ 31) :
    Runs env (rsa_pkcs1v15_encode buf msg_len buf_len tag filler) m fun r m' => r = (MP_RANGE, buf) ∧ m' = m := by
  unfold rsa_pkcs1v15_encode
  exact .of_wp (wp_bind (wp_cint (by omega) (by omega) (wp_if_pos (by omega) (wp_pure ⟨rfl, rfl⟩))))

/-- Decoding finds the message after the first zero byte, moves it to the front and clears the rest. -/
theorem C45_decode {pad msg rest : Bytes} {tag : Int} (hp : ∀ x ∈ pad, x ≠ 0) (h1 : 8 ≤ pad.length + msg.length)
    (h2 : pad.length + msg.length + 3 < 2 ^ 31) :
    Runs env (rsa_pkcs1v15_decode ([0, (tag % 256).toNat] ++ pad ++ [0] ++ msg ++ rest) (pad.length + msg.length + 3) tag) m fun r m' =>
      r = (MP_OK, msg ++ List.replicate (pad.length + 3) 0 ++ rest, some (msg.length : Int)) ∧ m' = m := by
  have := rsa_pkcs1v15_decode_spec (env := env) (E := Refused env) (m := m) (pad := pad) (msg := msg) (rest := rest) (tag := tag)
    (buf_len := pad.length + msg.length + 3)
    (Q := fun r m' => r = (MP_OK, msg ++ List.replicate (pad.length + 3) 0 ++ rest, some (msg.length : Int)) ∧ m' = m) rfl hp
    (by omega) (by omega) (by omega) ⟨by simp, rfl⟩
  exact .of_wp (by simpa using this)

/-- Decoding inverts encoding, for every message that fits, every tag and every filler that stores as
many non-zero bytes as it is told. -/
theorem C45_round_trip {msg mid rest : Bytes} {tag : Int} {filler : Int → Bytes} (hf : ∀ k : Int, 0 ≤ k → (filler k).length = k)
    (hz : ∀ k, ∀ x ∈ filler k, x ≠ 0) (h1 : 11 ≤ mid.length) (h2 : msg.length + mid.length < 2 ^ 31) :
    Runs env (do
      let p ← rsa_pkcs1v15_encode (msg ++ mid ++ rest) msg.length (msg ++ mid).length tag filler
      let q ← rsa_pkcs1v15_decode p.2 (msg ++ mid).length tag
      pure (p.1, q)) m fun r m' =>
      r = (MP_OK, MP_OK, msg ++ List.replicate mid.length 0 ++ rest, some (msg.length : Int)) ∧ m' = m := by
  have e : ((msg ++ mid).length : Int) - msg.length - 3 = mid.length - 3 := by simp
  have hl := hf (mid.length - 3) (by omega)
  refine .of_wp (wp_bind (rsa_pkcs1v15_encode_spec rfl rfl (by simp; omega) (by simp; omega) (by rw [e]; exact hl) ?_))
  rw [e]
  generalize filler (mid.length - 3) = F, hz (mid.length - 3) = hF at hl
  refine wp_bind (rsa_pkcs1v15_decode_spec rfl hF (by simp; omega) (by simp; omega) (by simp; omega) (wp_pure ⟨?_, rfl⟩))
  rw [show F.length + 3 = mid.length by omega]; simp

/-- Buffers that are too short or that do not start with zero and the tag are refused. -/
theorem C45_malformed_partial {buf : Bytes} {buf_len tag : Int} (hl : buf_len ≤ buf.length)
    (h : buf_len < 11 ∨ buf[0]? ≠ some 0 ∨ buf[1]? ≠ some (tag % 256).toNat) :
    Runs env (rsa_pkcs1v15_decode buf buf_len tag) m fun r m' => r = (MP_UNDEF, buf, none) ∧ m' = m :=
  .of_wp (rsa_pkcs1v15_decode_bad hl h ⟨rfl, rfl⟩)

theorem padLoop_none : ∀ (pad P : Bytes) (f : Nat) (k : Int), (∀ x ∈ pad, x ≠ 0) → pad.length < f →
    (P.length : Int) + pad.length ≤ 2147483647 → Faults env (padLoop (P ++ pad) f P.length k) m .ub := by
  intro pad
  induction pad with
  | nil =>
    intro P f k _ hf _
    obtain ⟨f, rfl⟩ : ∃ f', f = f' + 1 := ⟨f - 1, by simp at hf; omega⟩
    show M.bind _ _ env m = _
    unfold M.bind bget
    simp
  | cons x pad ih =>
    intro P f k hp hf hb
    obtain ⟨f, rfl⟩ : ∃ f', f = f' + 1 := ⟨f - 1, by omega⟩
    simp only [List.length_cons] at hf hb
    refine faults_bind (Q := fun r m' => r = x ∧ m' = m) (wp_bget (by simp) ⟨rfl, rfl⟩) ?_
    intro r m' hr
    rw [hr.1, hr.2]
    have hI : ((P.length : Int) + 1) = ((P ++ [x]).length : Nat) := by simp
    rw [hI]
    refine faults_bind (Q := fun (r : Int) (m'' : Mem) => r = (((P ++ [x]).length : Nat) : Int) ∧ m'' = m) (wp_cint (by omega) (by simp; push_cast at hb; omega) ⟨rfl, rfl⟩) ?_
    rintro _ m' ⟨rfl, rfl⟩
    rw [if_pos (hp x (by simp))]
    have := ih (P ++ [x]) f (k + 1) (fun y hy => hp y (by simp [hy])) (by omega) (by simp; push_cast at hb; omega)
    simpa using this

/-- Not all malformed buffers are refused: if there is no zero byte after the tag, the search for it
(rsamath.c:123) leaves the array. -/
theorem C45_no_separator {pad : Bytes} {tag : Int} (hp : ∀ x ∈ pad, x ≠ 0) (h1 : 9 ≤ pad.length) (h2 : pad.length + 2 < 2 ^ 31) :
    Faults env (rsa_pkcs1v15_decode ([0, (tag % 256).toNat] ++ pad) (pad.length + 2) tag) m .ub := by
  unfold rsa_pkcs1v15_decode
  refine faults_bind (Q := fun r m' => r = false ∧ m' = m) (wp_cif (fun h => by omega) fun _ => ?_) ?_
  · refine wp_bind (wp_bget (x := 0) rfl ?_)
    refine wp_cif (fun h => absurd rfl h) fun _ => ?_
    exact wp_bind (wp_bget (x := (tag % 256).toNat) rfl (wp_pure ⟨by simp, rfl⟩))
  · rintro _ m' ⟨rfl, rfl⟩
    have := padLoop_none (env := env) (m := m') pad [0, (tag % 256).toNat] (List.length ([0, (tag % 256).toNat] ++ pad) + 1) 0 hp (by simp; omega)
      (by simp; omega)
    show M.bind _ _ env m' = _
    unfold M.bind
    have e : padLoop ([0, (tag % 256).toNat] ++ pad) (List.length ([0, (tag % 256).toNat] ++ pad) + 1) 2 0 env m' = .fault .ub := this
    rw [e]

/-- Nor is a padding shorter than the eight bytes that PKCS#1 demands. -/
theorem C45_short_padding : outcome (rsa_pkcs1v15_decode [0, 2, 0, 1, 2, 3, 4, 5, 6, 7, 8] 11 2) [] =
    some ((MP_OK, [1, 2, 3, 4, 5, 6, 7, 8, 0, 0, 0], some 8), []) := by decide +kernel

/-- The maximum length of a message: the number of whole bytes in the modulus less 11, or 0.  (For a
modulus whose number of bits is not a multiple of 8, PKCS#1 admits one byte more.) -/
theorem C45_max_message_len (h : State m ρ) (ha : ρ a = some x) :
    Runs env (rsa_max_message_len (.var a)) m fun r m' => r = ((Nat.size x.natAbs / 8 - 11 : Nat) : Int) ∧ m' = m := by
  unfold rsa_max_message_len
  refine .of_wp (wp_bind (mp_int_count_bits_spec h.r2 ha (fun h0 => ?_) fun h0 => ?_))
  · subst h0; exact wp_if_pos (by decide) (wp_pure ⟨by simp, rfl⟩)
  · have e : ((Nat.size x.natAbs : Nat) : Int).tdiv 8 = ((Nat.size x.natAbs / 8 : Nat) : Int) := by
      rw [Int.tdiv_eq_ediv_of_nonneg (by omega)]; omega
    rw [e]
    exact wp_ite (fun h1 => wp_pure ⟨by omega, rfl⟩) fun h1 => wp_pure ⟨by omega, rfl⟩

example : Runs env (do
      let p ← rsa_pkcs1v15_encode [72, 105, 9, 9, 9, 9, 9, 9, 9, 9, 9, 9, 9, 77] 2 13 258 fun k => List.replicate k.toNat 5
      let q ← rsa_pkcs1v15_decode p.2 13 258
      pure (p.1, q)) m fun r m' =>
      r = (MP_OK, MP_OK, [72, 105, 0, 0, 0, 0, 0, 0, 0, 0, 0, 0, 0, 77], some 2) ∧ m' = m :=
  C45_round_trip (msg := [72, 105]) (mid := [9, 9, 9, 9, 9, 9, 9, 9, 9, 9, 9]) (rest := [77]) (filler := fun k => List.replicate k.toNat 5)
    (by intro k hk; simp; omega) (by simp) (by simp) (by simp)

example : Runs env (rsa_pkcs1v15_encode [72, 105, 9, 9, 9, 9, 9, 9, 9, 9, 9, 9, 9, 77] 2 13 258 fun k => List.replicate k.toNat 5) m fun r m' =>
      r = (MP_OK, [0, 2, 5, 5, 5, 5, 5, 5, 5, 5, 0, 72, 105, 77]) ∧ m' = m :=
  C45_encode (msg := [72, 105]) (mid := [9, 9, 9, 9, 9, 9, 9, 9, 9, 9, 9]) (rest := [77]) (filler := fun k => List.replicate k.toNat 5)
    (by intro k hk; simp; omega) (by simp) (by simp)

example : Runs env (rsa_pkcs1v15_encode [72, 105] 2 12 1 fun _ => []) m fun r m' => r = (MP_RANGE, [72, 105]) ∧ m' = m :=
  C45_encode_range (by omega) (by omega) (by omega)

example : Runs env (rsa_pkcs1v15_decode [0, 1, 5, 5, 5, 5, 5, 5, 5, 5, 0, 72, 105, 77] 13 1) m fun r m' =>
      r = (MP_OK, [72, 105, 0, 0, 0, 0, 0, 0, 0, 0, 0, 0, 0, 77], some 2) ∧ m' = m :=
  C45_decode (pad := [5, 5, 5, 5, 5, 5, 5, 5]) (msg := [72, 105]) (rest := [77]) (tag := 1) (by simp) (by simp) (by simp)

example : Runs env (rsa_pkcs1v15_decode [0, 1, 5, 5, 5, 5, 5, 5, 5, 5, 0, 72, 105] 13 2) m fun r m' =>
      r = (MP_UNDEF, [0, 1, 5, 5, 5, 5, 5, 5, 5, 5, 0, 72, 105], none) ∧ m' = m :=
  C45_malformed_partial (by simp) (.inr (.inr (by simp)))

example : Faults env (rsa_pkcs1v15_decode [0, 1, 5, 5, 5, 5, 5, 5, 5, 5, 5] 11 1) m .ub :=
  C45_no_separator (pad := [5, 5, 5, 5, 5, 5, 5, 5, 5]) (tag := 1) (by simp) (by simp) (by simp)

example : ∃ m, State m (vars [2 ^ 100]) ∧ Runs env (rsa_max_message_len (.var 0)) m fun r m' =>
    r = ((Nat.size (2 ^ 100 : Int).natAbs / 8 - 11 : Nat) : Int) ∧ m' = m :=
  let ⟨m, h⟩ := vars_state (l := [2 ^ 100]) (by simp); ⟨m, h, C45_max_message_len h rfl⟩

/-! ### C46 -/

theorem rsa_i2osp_spec {E : Fault → Prop} {σ : Id → Option Int} {z : Id} {A B : Bytes} {len : Int} {Q : Int × Bytes → Mem → Prop}
    (h : R2 m σ) (hz : σ z = some x) (hx : 0 ≤ x) (hl : len = A.length) (hA : A.length = Nat.size x.natAbs / 8 + 1)
    (hQ : ∀ X, X.length = A.length → Byte X → twosVal X = x → (beVal X : Int) = x → Q (MP_OK, X ++ B) m) :
    wp env E (rsa_i2osp z (A ++ B) len) Q m := by
  have hsz := h.size_le hz
  unfold rsa_i2osp
  refine wp_bind (mp_int_binary_len_spec h hz ?_)
  refine wp_if_neg (by omega) ?_
  rw [show A ++ B = [] ++ (A ++ B) from rfl]
  refine wp_bind (wp_bzero rfl hl ?_)
  rw [show ((Nat.size x.natAbs / 8 + 1 : Nat) : Int) - len = 0 by omega]
  refine wp_bind (wp_cint (by omega) (by omega) ?_)
  refine wp_bind ?_
  unfold atOff
  refine wp_if_pos (by simp) (wp_bind ?_)
  refine mp_int_to_binary_spec (by omega) h hz (by simp; omega) (fun X _ h2 h3 h4 => ?_) (fun B h1 => by omega)
  refine wp_pure (wp_pure ?_)
  have e2 : List.take (Int.toNat 0) ([] ++ (List.replicate A.length 0 ++ B)) ++
      (X ++ List.drop X.length (List.drop (Int.toNat 0) ([] ++ (List.replicate A.length 0 ++ B)))) = X ++ B := by
    show X ++ List.drop X.length (List.replicate A.length 0 ++ B) = X ++ B
    congr 1
    rw [List.drop_append_of_le_length (by simp; omega), List.drop_eq_nil_of_le (by simp; omega)]; rfl
  have hv : (beVal X : Int) = x := by
    have hlt := beVal_lt h3
    have hlt' : (beVal X : Int) < 256 ^ X.length := by exact_mod_cast hlt
    unfold twosVal at h4
    split_ifs at h4 <;> omega
  rw [e2]
  exact hQ X (by omega) h3 h4 hv

/-- If the length is exactly what `mp_int_binary_len` says, then the encoding is right, and
`rsa_os2ip` inverts it.

Missing from the full property: all other lengths, for which it is false; see `C46_longer`,
`C46_overrun` and `C46_os2ip_signed`. -/
theorem C46_i2osp_partial {out : Bytes} (h : State m ρ) (ha : ρ a = some x) (hc : ρ c = some w) (hx : 0 ≤ x) (ho : binLen x ≤ out.length) :
    Runs env (do
      let p ← rsa_i2osp (.var a) out (binLen x)
      let q ← rsa_os2ip (.var c) p.2 (binLen x)
      pure (p, q)) m fun r m' => ∃ X, r = ((MP_OK, X ++ out.drop (binLen x)), (MP_OK, X ++ out.drop (binLen x))) ∧ X.length = binLen x ∧
        (∀ b ∈ X, b < 256) ∧ (beVal X : Int) = x ∧ State m' (put ρ c x) := by
  have hsz := h.r2.size_le (z := .var a) ha
  obtain ⟨A, B, e, hA⟩ : ∃ A B, out = A ++ B ∧ A.length = binLen x := ⟨out.take (binLen x), out.drop (binLen x), by simp, by simp; omega⟩
  have hB : out.drop (binLen x) = B := by rw [e, ← hA]; simp
  have hA' : A.length = Nat.size x.natAbs / 8 + 1 := hA
  rw [hB, e]
  refine .of_wp (wp_bind (rsa_i2osp_spec h.r2 ha hx (by rw [hA]) hA' fun X h1 h2 h3 h4 => ?_))
  refine wp_bind (mp_int_read_binary_spec (X := X) (R := B) (ref_refused env) h2 (by rw [h1, hA]) (by omega) (by omega) rfl h.r2 hc
    fun m' h' => wp_pure ⟨X, rfl, h1.trans hA, h2, h4, ?_⟩)
  rw [upd_lift, h3] at h'; exact h'.state

/-- What `rsa_os2ip` computes: the value of the bytes in two's complement.  That is the integer of
PKCS#1 only if the first byte is less than 128. -/
theorem C46_os2ip_partial {X R : Bytes} (h : State m ρ) (hc : ρ c = some w) (hX : ∀ b ∈ X, b < 256)
    (h1 : 1 ≤ X.length) (h2 : X.length < 2 ^ 28) (h3 : X.headD 0 < 128) :
    Runs env (rsa_os2ip (.var c) (X ++ R) X.length) m fun r m' => r = (MP_OK, X ++ R) ∧ State m' (put ρ c (beVal X)) := by
  refine .of_wp (mp_int_read_binary_spec (ref_refused env) hX rfl h1 (by omega) rfl h.r2 hc fun m' h' => ⟨rfl, ?_⟩)
  unfold twosVal at h'
  rw [upd_lift, if_neg (by omega)] at h'
  exact h'.state

/-- With a first byte of 128 or more the result is negative. -/
theorem C46_os2ip_signed {X R : Bytes} (h : State m ρ) (hc : ρ c = some w) (hX : ∀ b ∈ X, b < 256)
    (h1 : 1 ≤ X.length) (h2 : X.length < 2 ^ 28) (h3 : 128 ≤ X.headD 0) :
    Runs env (rsa_os2ip (.var c) (X ++ R) X.length) m fun r m' =>
      r = (MP_OK, X ++ R) ∧ ∃ u, u = (beVal X : Int) - 256 ^ X.length ∧ u < 0 ∧ State m' (put ρ c u) := by
  have hlt : (beVal X : Int) < 256 ^ X.length := by exact_mod_cast beVal_lt hX
  refine .of_wp (mp_int_read_binary_spec (ref_refused env) hX rfl h1 (by omega) rfl h.r2 hc fun m' h' => ⟨rfl, _, rfl, by omega, ?_⟩)
  unfold twosVal at h'
  rw [upd_lift, if_pos h3] at h'
  exact h'.state

/-- Every length that is larger than `mp_int_binary_len` is refused although the integer fits: the
comparison in rsamath.c:39 is the wrong way round. -/
theorem C46_longer {out : Bytes} {len : Int} (h : State m ρ) (ha : ρ a = some x) (hl : binLen x < len) :
    Runs env (rsa_i2osp (.var a) out len) m fun r m' => r = (MP_RANGE, out) ∧ m' = m := by
  unfold rsa_i2osp
  exact .of_wp (wp_bind (mp_int_binary_len_spec h.r2 ha (wp_if_pos hl (wp_pure ⟨rfl, rfl⟩))))

/-- With a smaller length bytes are stored behind the first `len` ones: they are set to zero, and the last
`len` bytes of the integer are stored at the offset `binLen x - len`. -/
theorem C46_shorter {out : Bytes} {len : Nat} (h : State m ρ) (ha : ρ a = some x) (hl : 1 ≤ len ∧ len < binLen x)
    (ho : binLen x ≤ out.length) :
    Runs env (rsa_i2osp (.var a) out len) m fun r m' => ∃ X, X.length = len ∧ (∀ b ∈ X, b < 256) ∧
      (beVal X : Int) = x % 256 ^ len ∧ m' = m ∧
      r = (MP_OK, (List.replicate len 0 ++ out.drop len).take (binLen x - len) ++ X ++ out.drop (binLen x)) := by
  have hsz := h.r2.size_le (z := .var a) ha
  have e : binLen x = Nat.size x.natAbs / 8 + 1 := rfl
  obtain ⟨A, B, rfl, hA⟩ : ∃ A B, out = A ++ B ∧ A.length = len := ⟨out.take len, out.drop len, by simp, by simp; omega⟩
  subst hA
  unfold rsa_i2osp
  refine .of_wp (wp_bind (mp_int_binary_len_spec h.r2 ha (wp_if_neg (by omega) ?_)))
  rw [← e]
  refine wp_bind (wp_bzero (A := []) (B := A) (C := B) rfl rfl ?_)
  rw [List.nil_append, show ((binLen x : Nat) : Int) - (A.length : Nat) = ((binLen x - A.length : Nat) : Int) by omega]
  refine wp_bind (wp_cint (by omega) (by omega) ?_)
  rw [Int.toNat_natCast]
  refine wp_bind ?_
  unfold atOff
  rw [List.length_append] at ho
  refine wp_if_pos (by simp; omega) (wp_bind ?_)
  refine mp_int_to_binary_spec (by omega) h.r2 ha (by simp; omega) (fun X h1 => by omega) (fun X h1 h2 h3 h4 => ?_)
  refine wp_pure (wp_pure ⟨X, by omega, h3, by rw [h4, show X.length = A.length by omega], rfl, ?_⟩)
  rw [List.drop_left, show X.length = A.length by omega, List.append_assoc, List.drop_drop]
  rw [show binLen x - A.length + A.length = binLen x by omega]
  have e1 : (List.replicate A.length 0 ++ B).drop (binLen x) = (A ++ B).drop (binLen x) := by
    rw [List.drop_append, List.drop_append, List.drop_eq_nil_of_le (as := List.replicate _ _) (by simp; omega),
      List.drop_eq_nil_of_le (as := A) (by omega), List.length_replicate]
  rw [e1]

/-- So if there are fewer than `binLen x` bytes, something is written outside of the array. -/
theorem C46_overrun {out : Bytes} {len : Nat} (h : State m ρ) (ha : ρ a = some x) (hl : 1 ≤ len ∧ len < binLen x)
    (ho : out.length < binLen x) : FaultsOr env (rsa_i2osp (.var a) out len) m .ub := by
  have hsz := h.r2.size_le (z := .var a) ha
  have e : binLen x = Nat.size x.natAbs / 8 + 1 := rfl
  unfold rsa_i2osp
  refine .of_wp (wp_bind (mp_int_binary_len_spec h.r2 ha (wp_if_neg (by omega) ?_)))
  rw [← e]
  by_cases hlo : out.length < len
  · refine wp_bind ?_
    unfold bzero
    refine wp_if_pos (by omega) (wp_fault (f := .ub) ?_ (.inl rfl))
    unfold bwrite
    rw [if_neg (by simp; omega)]
  · obtain ⟨A, B, rfl, hA⟩ : ∃ A B, out = A ++ B ∧ A.length = len := ⟨out.take len, out.drop len, by simp, by simp; omega⟩
    subst hA
    refine wp_bind (wp_bzero (A := []) (B := A) (C := B) rfl rfl ?_)
    rw [List.nil_append, show ((binLen x : Nat) : Int) - (A.length : Nat) = ((binLen x - A.length : Nat) : Int) by omega]
    refine wp_bind (wp_cint (by omega) (by omega) ?_)
    rw [Int.toNat_natCast]
    refine wp_bind ?_
    unfold atOff
    rw [List.length_append] at ho
    refine wp_ite (fun h1 => wp_bind ?_) fun _ => wp_fault rfl (.inl rfl)
    exact mp_int_to_binary_fault (.inl rfl) h.r2 ha (by simp at h1 ⊢; omega)

/-- 255 fits into one byte, and five bytes 1 2 3 4 5 do not fit into three. -/
theorem C46_overrun_witness : faultOf (rsa_i2osp (.var 0) [7] 1) [255] = some .ub ∧
    outcome (rsa_i2osp (.var 0) [7, 7, 7] 1) [255] = some ((MP_OK, [0, 255, 7]), [some 255]) ∧
    outcome (rsa_i2osp (.var 0) [7, 7, 7, 7, 7] 3) [0x0102030405] = some ((MP_OK, [0, 0, 3, 4, 5]), [some 0x0102030405]) := by
  decide +kernel

example : ∃ m, State m (vars [255]) ∧ FaultsOr env (rsa_i2osp (.var 0) [7] 1) m .ub :=
  let ⟨m, h⟩ := vars_state (l := [255]) (by norm_num)
  ⟨m, h, C46_overrun (len := 1) h rfl (by decide +kernel) (by decide +kernel)⟩

example : ∃ m, State m (vars [0x0102030405]) ∧ Runs env (rsa_i2osp (.var 0) [7, 7, 7, 7, 7, 7] 3) m fun r m' => ∃ X, X.length = 3 ∧
    (∀ b ∈ X, b < 256) ∧ (beVal X : Int) = 0x030405 ∧ m' = m ∧ r = (MP_OK, [0, 0] ++ X ++ [7]) := by
  obtain ⟨m, h⟩ := vars_state (l := [0x0102030405]) (by norm_num)
  have e : binLen 0x0102030405 = 5 := by decide +kernel
  have := C46_shorter (env := env) (out := [7, 7, 7, 7, 7, 7]) (a := 0) (len := 3) (x := 0x0102030405) h rfl (by rw [e]; omega) (by rw [e]; simp)
  rw [e] at this
  exact ⟨m, h, this⟩

example : ∃ m, State m (vars [2 ^ 71 - 1, 5]) ∧ Runs env (do
      let p ← rsa_i2osp (.var 0) (List.replicate 12 7) (binLen (2 ^ 71 - 1))
      let q ← rsa_os2ip (.var 1) p.2 (binLen (2 ^ 71 - 1))
      pure (p, q)) m fun r m' => ∃ X, r = ((MP_OK, X ++ (List.replicate 12 7).drop (binLen (2 ^ 71 - 1))), (MP_OK, X ++ (List.replicate 12 7).drop (binLen (2 ^ 71 - 1)))) ∧
        X.length = binLen (2 ^ 71 - 1) ∧ (∀ b ∈ X, b < 256) ∧ (beVal X : Int) = 2 ^ 71 - 1 ∧ State m' (put (vars [2 ^ 71 - 1, 5]) 1 (2 ^ 71 - 1)) :=
  let ⟨m, h⟩ := vars_state (l := [2 ^ 71 - 1, 5]) (by norm_num)
  ⟨m, h, C46_i2osp_partial h rfl rfl (by norm_num) (by decide +kernel)⟩

example : ∃ m, State m (vars [5]) ∧ Runs env (rsa_os2ip (.var 0) [127, 255, 0] 2) m fun r m' =>
    r = (MP_OK, [127, 255, 0]) ∧ State m' (put (vars [5]) 0 (beVal [127, 255] : Nat)) :=
  let ⟨m, h⟩ := vars_state (l := [5]) (by norm_num)
  ⟨m, h, C46_os2ip_partial (X := [127, 255]) (R := [0]) h rfl (by simp) (by simp) (by simp) (by simp)⟩

example : ∃ m, State m (vars [5]) ∧ Runs env (rsa_os2ip (.var 0) [128, 255, 0] 2) m fun r m' =>
    r = (MP_OK, [128, 255, 0]) ∧ ∃ u, u = ((beVal [128, 255] : Nat) : Int) - 256 ^ 2 ∧ u < 0 ∧ State m' (put (vars [5]) 0 u) :=
  let ⟨m, h⟩ := vars_state (l := [5]) (by norm_num)
  ⟨m, h, C46_os2ip_signed (X := [128, 255]) (R := [0]) h rfl (by simp) (by simp) (by simp) (by simp)⟩

example : ∃ m, State m (vars [1]) ∧ Runs env (rsa_i2osp (.var 0) [7, 7] 2) m fun r m' => r = (MP_RANGE, [7, 7]) ∧ m' = m :=
  let ⟨m, h⟩ := vars_state (l := [1]) (by norm_num)
  ⟨m, h, C46_longer h rfl (by decide +kernel)⟩

end Imath
