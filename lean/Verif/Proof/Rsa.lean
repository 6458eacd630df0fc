import Verif.Model.Rsa
import Verif.Proof.Exptmod
import Verif.Proof.ConvBin2
import Verif.Proof.Rat
import Mathlib.FieldTheory.Finite.Basic

/-!
# Proofs about `rsamath.c`
-/

namespace Imath

variable {env : Env} {E : Fault → Prop} {m : Mem} {σ : Id → Option Int} {a b c z : Id} {x y v w : Int}

/-! ### Arrays -/

theorem wp_bwrite {A B C S : Bytes} {h : Nat} {Q : Bytes → Mem → Prop} (hA : A.length = h) (hB : B.length = S.length)
    (hQ : Q (A ++ (S ++ C)) m) : wp env E (bwrite (A ++ (B ++ C)) h S) Q m := by
  unfold bwrite wp
  simp only [if_pos (show h + List.length S ≤ List.length (A ++ (B ++ C)) by simp; omega)]
  have e1 : (A ++ (B ++ C)).take h = A := by rw [← hA]; simp
  have e2 : (A ++ (B ++ C)).drop (h + S.length) = C := by
    rw [← hA, ← hB, ← List.append_assoc, ← List.length_append]; simp
  rw [e1, e2, List.append_assoc]
  exact hQ

theorem split3 (l : Bytes) (h n : Nat) (hl : h + n ≤ l.length) :
    ∃ A B C, l = A ++ (B ++ C) ∧ A.length = h ∧ B.length = n := by
  refine ⟨l.take h, (l.drop h).take n, (l.drop h).drop n, ?_, by simp; omega, by simp; omega⟩
  rw [List.take_append_drop, List.take_append_drop]

theorem wp_bmove {l : Bytes} {d h : Nat} {n : Int} {A B C S : Bytes} {Q : Bytes → Mem → Prop} (e : l = A ++ (B ++ C)) (hA : A.length = d)
    (hB : B.length = S.length) (hn : n = S.length) (hs : (l.drop h).take S.length = S) (hh : h + S.length ≤ l.length)
    (hQ : Q (A ++ (S ++ C)) m) : wp env E (bmove l d h n) Q m := by
  unfold bmove
  refine wp_if_pos (by omega) ?_
  rw [hn, Int.toNat_natCast, hs, e]
  exact wp_bwrite hA hB hQ

theorem wp_bzero {A B C : Bytes} {h : Nat} {n : Int} {Q : Bytes → Mem → Prop} (hA : A.length = h) (hn : n = B.length)
    (hQ : Q (A ++ (List.replicate B.length 0 ++ C)) m) : wp env E (bzero (A ++ (B ++ C)) h n) Q m := by
  unfold bzero
  refine wp_if_pos (by omega) ?_
  rw [hn, Int.toNat_natCast]
  exact wp_bwrite hA (by simp) hQ

/-! ### PKCS#1 v1.5 -/

theorem rsa_pkcs1v15_encode_spec {msg mid rest : Bytes} {msg_len buf_len tag : Int} {filler : Int → Bytes} {Q : Int × Bytes → Mem → Prop}
    (h1 : msg_len = msg.length) (h2 : buf_len = (msg ++ mid).length) (h3 : msg_len ≤ buf_len - 11) (h4 : buf_len ≤ 2147483647)
    (hf : ((filler (buf_len - msg_len - 3)).length : Int) = buf_len - msg_len - 3)
    (hQ : Q (MP_OK, 0 :: (tag % 256).toNat :: (filler (buf_len - msg_len - 3) ++ 0 :: (msg ++ rest))) m) :
    wp env E (rsa_pkcs1v15_encode (msg ++ mid ++ rest) msg_len buf_len tag filler) Q m := by
  have hl : buf_len = msg.length + mid.length := by rw [h2]; simp
  unfold rsa_pkcs1v15_encode
  refine wp_bind (wp_cint (by omega) (by omega) ?_)
  refine wp_if_neg (by omega) ?_
  refine wp_bind (wp_cint (by omega) (by omega) ?_)
  refine wp_bind (wp_cint (by omega) (by omega) ?_)
  have hs : buf_len - msg_len = mid.length := by omega
  generalize hF : filler (buf_len - msg_len - 3) = F at hf hQ ⊢
  rw [hs] at hf ⊢
  have hlen : List.length (msg ++ mid ++ rest) = msg.length + mid.length + rest.length := by simp; omega
  -- the part in front of the place to which the message is moved
  obtain ⟨A, B, C, e, hA, hB⟩ := split3 (msg ++ mid ++ rest) mid.length msg.length (by omega)
  have hC : C = rest := by
    have := congrArg (List.drop (mid.length + msg.length)) e
    rw [show mid.length + msg.length = (msg ++ mid).length by simp; omega, List.drop_left,
      show (msg ++ mid).length = (A ++ B).length by simp; omega, ← List.append_assoc, List.drop_left] at this
    exact this.symm
  refine wp_bind (wp_bmove (S := msg) e (by simpa using hA) hB h1 (by simp) (by omega) ?_)
  rw [hC]
  obtain ⟨a0, a1, D, d, rfl, hD⟩ : ∃ a0 a1 D d, A = a0 :: a1 :: (D ++ [d]) ∧ D.length = F.length := by
    match A, hA with
    | [], h => simp at h; omega
    | [_], h => simp at h; omega
    | a0 :: a1 :: A2, h =>
      have hne : A2 ≠ [] := by rintro rfl; simp at h; omega
      refine ⟨a0, a1, A2.dropLast, A2.getLast hne, by rw [List.dropLast_append_getLast], ?_⟩
      simp at h ⊢; omega
  refine wp_bind (wp_bset (by simp) ?_)
  refine wp_bind (wp_bset (by simp) ?_)
  have e2 : ((a0 :: a1 :: (D ++ [d]) ++ (msg ++ rest)).set 0 0).set 1 (tag % 256).toNat =
      [0, (tag % 256).toNat] ++ (D ++ (d :: (msg ++ rest))) := by simp
  rw [e2]
  refine wp_bind (wp_bwrite rfl hD ?_)
  have e3 : ((mid.length : Int) - 1).toNat = 2 + F.length := by simp at hA; omega
  rw [e3]
  refine wp_bind (wp_bset (by simp; omega) (wp_pure ?_))
  have e4 : ([0, (tag % 256).toNat] ++ (F ++ d :: (msg ++ rest))).set (2 + F.length) 0 =
      0 :: (tag % 256).toNat :: (F ++ 0 :: (msg ++ rest)) := by
    rw [← List.append_assoc, List.set_append_right _ _ (by simp; omega)]
    simp
    rw [show 2 + F.length - (F.length + 1 + 1) = 0 by omega]; rfl
  rw [e4]; exact hQ

theorem padLoop_spec {R : Bytes} {Q : Int × Int → Mem → Prop} : ∀ (pad P : Bytes) (f : Nat) (k : Int), (∀ x ∈ pad, x ≠ 0) →
    pad.length < f → (P.length : Int) + pad.length + 1 ≤ 2147483647 →
    Q ((P.length : Int) + pad.length + 1, k + pad.length) m →
    wp env E (padLoop (P ++ (pad ++ 0 :: R)) f P.length k) Q m := by
  intro pad
  induction pad with
  | nil =>
    intro P f k _ hf hb hQ
    obtain ⟨f, rfl⟩ : ∃ f', f = f' + 1 := ⟨f - 1, by simp at hf; omega⟩
    refine wp_bind (wp_bget (x := 0) (by simp) ?_)
    simp at hb hQ
    generalize hz : (P.length : Int) + 1 = z at *
    refine wp_bind (wp_cint (by omega) (by omega) ?_)
    exact wp_if_neg (by simp) (wp_pure hQ)
  | cons x pad ih =>
    intro P f k hp hf hb hQ
    obtain ⟨f, rfl⟩ : ∃ f', f = f' + 1 := ⟨f - 1, by omega⟩
    refine wp_bind (wp_bget (x := x) (by simp) ?_)
    have hI : ((P.length : Int) + 1) = ((P ++ [x]).length : Nat) := by simp
    rw [hI]
    simp only [List.length_cons] at hb hf hQ
    refine wp_bind (wp_cint (by omega) (by simp; push_cast at hb; omega) ?_)
    refine wp_if_pos (hp x (by simp)) ?_
    have := ih (P ++ [x]) f (k + 1) (fun y hy => hp y (by simp [hy])) (by omega) (by simp; push_cast at hb; omega) (by
      simp only [List.length_append, List.length_cons, List.length_nil]
      push_cast at hQ ⊢
      rw [show (P.length : Int) + 1 + pad.length + 1 = P.length + (pad.length + 1) + 1 by omega,
        show k + 1 + (pad.length : Int) = k + (pad.length + 1) by omega]
      exact hQ)
    simpa using this

theorem rsa_pkcs1v15_decode_spec {pad msg rest : Bytes} {t : Nat} {buf_len tag : Int} {Q : Int × Bytes × Option Int → Mem → Prop}
    (ht : t = (tag % 256).toNat) (hp : ∀ x ∈ pad, x ≠ 0) (hl : buf_len = 3 + pad.length + msg.length) (h1 : 11 ≤ buf_len)
    (h2 : buf_len ≤ 2147483647)
    (hQ : Q (MP_OK, msg ++ (List.replicate (pad.length + 3) 0 ++ rest), some (msg.length : Int)) m) :
    wp env E (rsa_pkcs1v15_decode (0 :: t :: (pad ++ 0 :: (msg ++ rest))) buf_len tag) Q m := by
  unfold rsa_pkcs1v15_decode
  refine wp_bind (wp_cif (fun h => by omega) fun _ => ?_)
  refine wp_bind (wp_bget (x := 0) rfl ?_)
  refine wp_cif (fun h => absurd rfl h) fun _ => ?_
  refine wp_bind (wp_bget (x := t) rfl (wp_pure ?_))
  refine wp_if_neg (by simp [ht]) ?_
  have hloop := padLoop_spec (env := env) (E := E) (m := m) (R := msg ++ rest) (Q := fun r m' => r = (3 + (pad.length : Int), (pad.length : Int)) ∧ m' = m)
    pad [0, t] (List.length (0 :: t :: (pad ++ 0 :: (msg ++ rest))) + 1) 0 hp (by simp; omega) (by simp; omega)
    ⟨by simp; omega, rfl⟩
  refine wp_bind (wp_mono hloop ?_)
  rintro r m' ⟨rfl, rfl⟩
  show wp env E (cint (buf_len - (3 + (pad.length : Int))) >>= fun data_len =>
    bmove (0 :: t :: (pad ++ 0 :: (msg ++ rest))) 0 (3 + (pad.length : Int)).toNat data_len >>= fun buf =>
    cint ((pad.length : Int) + 3) >>= fun n => bzero buf data_len.toNat n >>= fun buf => pure (MP_OK, buf, some data_len)) Q m'
  generalize hd : buf_len - (3 + (pad.length : Int)) = d at *
  have hd' : d = msg.length := by omega
  refine wp_bind (wp_cint (by omega) (by omega) ?_)
  -- the array as parts
  obtain ⟨A, B, C, e, hA, hB⟩ := split3 (0 :: t :: (pad ++ 0 :: (msg ++ rest))) 0 msg.length (by simp; omega)
  have hA' : A = [] := List.length_eq_zero_iff.1 hA
  subst hA'
  have htn : (3 + (pad.length : Int)).toNat = 3 + pad.length := by omega
  have hdr : List.drop (3 + pad.length) (0 :: t :: (pad ++ 0 :: (msg ++ rest))) = msg ++ rest := by
    rw [show 0 :: t :: (pad ++ 0 :: (msg ++ rest)) = ((0 :: t :: pad) ++ [0]) ++ (msg ++ rest) by simp,
      show 3 + pad.length = List.length ((0 :: t :: pad) ++ [0]) by simp; omega, List.drop_left]
  refine wp_bind (wp_bmove (S := msg) e rfl hB hd' (by rw [htn, hdr]; simp) (by rw [htn]; simp; omega) ?_)
  generalize hn : (pad.length : Int) + 3 = n at *
  refine wp_bind (wp_cint (by omega) (by omega) ?_)
  -- after the message: `pad.length + 3` elements, then `rest`
  obtain ⟨C1, C2, rfl, hC1⟩ : ∃ C1 C2, C = C1 ++ C2 ∧ C1.length = pad.length + 3 := by
    have := congrArg List.length e
    simp at this
    exact ⟨C.take (pad.length + 3), C.drop (pad.length + 3), (List.take_append_drop ..).symm, by simp; omega⟩
  have hC2 : C2 = rest := by
    have h3 := congrArg (List.drop (3 + pad.length + msg.length)) e
    rw [← List.drop_drop, hdr, List.drop_left, List.nil_append, ← List.append_assoc,
      show 3 + pad.length + msg.length = (B ++ C1).length by simp; omega, List.drop_left] at h3
    exact h3.symm
  rw [hC2, List.nil_append, hd']
  refine wp_bind (wp_bzero (by simp) (by omega) (wp_pure ?_))
  rw [hC1]; exact hQ

theorem rsa_pkcs1v15_decode_bad {l : Bytes} {buf_len tag : Int} {Q : Int × Bytes × Option Int → Mem → Prop}
    (hl : buf_len ≤ l.length) (h : buf_len < 11 ∨ l[0]? ≠ some 0 ∨ l[1]? ≠ some (tag % 256).toNat)
    (hQ : Q (MP_UNDEF, l, none) m) : wp env E (rsa_pkcs1v15_decode l buf_len tag) Q m := by
  unfold rsa_pkcs1v15_decode
  refine wp_bind (wp_cif (fun h => wp_pure (wp_if_pos rfl (wp_pure hQ))) fun h0 => ?_)
  match l, hl with
  | [], hl => simp at hl; omega
  | [_], hl => simp at hl; omega
  | x0 :: x1 :: l, _ =>
    refine wp_bind (wp_bget (x := x0) rfl ?_)
    refine wp_cif (fun h => wp_pure (wp_if_pos rfl (wp_pure hQ))) fun h1 => ?_
    refine wp_bind (wp_bget (x := x1) rfl (wp_pure ?_))
    refine wp_if_pos ?_ (wp_pure hQ)
    simp at h h1 ⊢
    rcases h with h | h | h
    · omega
    · exact absurd h1 h
    · exact h

/-! ### RSA -/

theorem s_rsa_transform_spec {Q : Int → Mem → Prop} {msg exp mod out : Id} (hE : Ref env E) (h : R2 m σ) (ha : σ msg = some x)
    (he : σ exp = some y) (hm : σ mod = some v) (hc : σ out = some w) (ho : out.own = true)
    (hQr : x < 0 ∨ v ≤ x → Q MP_RANGE m)
    (hQn : 0 ≤ x → x < v → y < 0 → Q MP_RANGE m)
    (hQ : 0 ≤ x → x < v → 0 ≤ y → ∀ m', R2 m' (upd σ out (some (if y = 0 ∧ v = 1 then 1 else x ^ y.toNat % v))) → Q MP_OK m') :
    wp env E (s_rsa_transform msg exp mod out) Q m := by
  unfold s_rsa_transform
  refine wp_bind (mp_int_compare_zero_spec h ha ?_)
  refine wp_bind (wp_cif (fun h0 => wp_pure (wp_if_pos rfl (wp_pure (hQr (.inl (Int.sign_neg_iff.1 h0)))))) fun h0 => ?_)
  have hx : 0 ≤ x := by by_contra hh; exact h0 (Int.sign_neg_iff.2 (by omega))
  refine wp_bind (mp_int_compare_spec h ha hm (wp_pure ?_))
  have hcmp : cmpZ x v ≥ 0 ↔ v ≤ x := by unfold cmpZ; split_ifs <;> omega
  refine wp_ite (fun h1 => wp_pure (hQr (.inr (hcmp.1 (by simpa using h1))))) fun h1 => ?_
  have hv : x < v := by by_contra hh; exact h1 (by simpa using hcmp.2 (by omega))
  exact mp_int_exptmod_spec hE h ha he hm hc ho (by omega) (fun hy => hQn hx hv hy) fun hy => hQ hx hv hy

theorem pow_mod_prime {p N : Nat} (hp : p.Prime) (hN : N ≡ 1 [MOD (p - 1)]) (h1 : 1 ≤ N) (x : Int) : (p : Int) ∣ x ^ N - x := by
  have := Fact.mk hp
  rw [← ZMod.intCast_zmod_eq_zero_iff_dvd]
  push_cast
  by_cases h0 : (x : ZMod p) = 0
  · rw [h0, zero_pow (by omega), sub_self]
  · obtain ⟨k, hk⟩ := (Nat.modEq_iff_dvd' h1).1 hN.symm
    rw [show N = (p - 1) * k + 1 by omega, pow_succ, pow_mul, ZMod.pow_card_sub_one_eq_one h0, one_pow, one_mul, sub_self]

theorem rsa_inverse {p q e d : Nat} (hp : p.Prime) (hq : q.Prime) (hpq : p ≠ q) (hed : e * d ≡ 1 [MOD Nat.lcm (p - 1) (q - 1)])
    {x : Int} (h0 : 0 ≤ x) (h1 : x < (p * q : Nat)) : (x ^ e % ((p * q : Nat) : Int)) ^ d % ((p * q : Nat) : Int) = x := by
  have hN : 1 ≤ e * d := by
    by_contra hh
    have e0 : e * d = 0 := by omega
    rw [e0] at hed
    have := Nat.eq_one_of_dvd_one ((Nat.modEq_zero_iff_dvd).1 hed.symm)
    have hp1 := Nat.dvd_lcm_left (p - 1) (q - 1)
    have hq1 := Nat.dvd_lcm_right (p - 1) (q - 1)
    rw [this] at hp1 hq1
    have hp1 := Nat.eq_one_of_dvd_one hp1
    have hq1 := Nat.eq_one_of_dvd_one hq1
    have := hp.two_le; have := hq.two_le; omega
  have hm : x ^ (e * d) ≡ x [ZMOD ((p * q : Nat) : Int)] := by
    refine (Int.modEq_iff_dvd.2 ?_).symm
    have c : IsCoprime (p : Int) (q : Int) := by rw [Nat.isCoprime_iff_coprime]; exact (Nat.coprime_primes hp hq).2 hpq
    rw [Nat.cast_mul]
    exact c.mul_dvd (pow_mod_prime hp (hed.of_dvd (Nat.dvd_lcm_left ..)) hN x) (pow_mod_prime hq (hed.of_dvd (Nat.dvd_lcm_right ..)) hN x)
  have h2 : (x ^ e % ((p * q : Nat) : Int)) ^ d ≡ x [ZMOD ((p * q : Nat) : Int)] := by
    have := (Int.mod_modEq (x ^ e) ((p * q : Nat) : Int)).pow d
    rw [← pow_mul] at this
    exact this.trans hm
  have h3 : (x ^ e % ((p * q : Nat) : Int)) ^ d % ((p * q : Nat) : Int) = x % ((p * q : Nat) : Int) := h2
  rw [h3]
  exact Int.emod_eq_of_lt h0 h1

end Imath
