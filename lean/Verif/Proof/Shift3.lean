import Verif.Proof.Shift2

/-! # Powers of two, normalisation for division -/

namespace Imath

variable {env : Env} {E : Fault → Prop} {m : Mem} {s : Id → Option Cell} {z a b : Id} {A B C : Cell}

/-! ### `s_isp2` -/

theorem isp2Loop1_spec {Q : Option Nat → Mem → Prop} {n k : Nat} {p : Ptr} {xs : List Nat}
    (hx : At m p xs) (hl : xs.length = n) (hk : k + 32 * n < 4294967296)
    (h0 : val xs = 0 → Q (some (k + 32 * n)) m) (h1 : val xs ≠ 0 → Q none m) :
    wp env E (isp2Loop1 n p k) Q m := by
  induction n generalizing p k xs with
  | zero =>
    have : xs = [] := by simpa using hl
    subst this
    exact wp_pure (h0 rfl)
  | succ n ih =>
    match xs, hl with
    | x :: xs, hl =>
      rw [At_cons] at hx
      unfold isp2Loop1
      refine wp_bind (wp_rd hx.1 ?_)
      refine wp_ite (fun hx0 => ?_) (fun hx0 => ?_)
      · exact wp_pure (h1 (by rw [val_cons]; omega))
      · have hx1 : x = 0 := by omega
        subst hx1
        rw [val_cons, Nat.zero_add] at h0 h1
        rw [u32_of_lt (by omega)]
        refine ih hx.2 (by simpa using hl) (by omega) (fun h => ?_) (fun h => h1 (by omega))
        rw [show k + 32 + 32 * n = k + 32 * (n + 1) by omega]
        exact h0 (by omega)

theorem isp2Loop2_spec {Q : Int → Mem → Prop} {f d k : Nat} (hd0 : d ≠ 0) (hf : d < 2 ^ f)
    (hk : k + f < 2147483648)
    (h0 : ∀ j, d = 2 ^ j → Q ((k + j : Nat) : Int) m) (h1 : (∀ j, d ≠ 2 ^ j) → Q (-1) m) :
    wp env E (isp2Loop2 f d k) Q m := by
  induction f generalizing d k with
  | zero => simp at hf; omega
  | succ f ih =>
    unfold isp2Loop2
    refine wp_ite (fun hd => ?_) (fun hd => ?_)
    · rw [Nat.and_one_is_mod, Nat.shiftRight_one, u32_of_lt (by omega)]
      refine wp_ite (fun ho => ?_) (fun he => ?_)
      · refine wp_pure (h1 fun j e => ?_)
        rcases j with _ | j
        · omega
        · rw [Nat.pow_succ] at e; omega
      · refine ih (by omega) (by rw [Nat.pow_succ] at hf; omega) (by omega) (fun j e => ?_) (fun hn => h1 fun j e => ?_)
        · rw [show k + 1 + j = k + (j + 1) by omega]
          exact h0 (j + 1) (by rw [Nat.pow_succ]; omega)
        · rcases j with _ | j
          · omega
          · exact hn j (by rw [Nat.pow_succ] at e; omega)
    · rw [toInt32_of_lt (by omega)]
      exact wp_pure (h0 0 (by simp; omega))

theorem s_isp2_rep {Q : Int → Mem → Prop} (h : Rep m s) (hz : s z = some C) (nC : Norm C) (h0 : C.mag ≠ 0)
    (hQ0 : ∀ k : Nat, C.mag = 2 ^ k → k < 2147483648 → Q k m) (hQ1 : (∀ k, C.mag ≠ 2 ^ k) → Q (-1) m) :
    wp env E (s_isp2 z) Q m := by
  unfold s_isp2
  have hle := nC.le
  have hpos := nC.pos
  have hlen := h.okl hz
  have hbl : C.used - 1 < C.buf.length := by omega
  have hl : (C.buf.take (C.used - 1)).length = C.used - 1 := by rw [List.length_take]; omega
  have hmag : C.mag = val (C.buf.take (C.used - 1)) + 𝔹 ^ (C.used - 1) * C.buf[C.used - 1] := by
    have := val_take_succ C.buf (C.used - 1) hbl
    rwa [show C.used - 1 + 1 = C.used by omega] at this
  have hlow := val_lt ((h.okd hz).take (C.used - 1))
  rw [hl] at hlow
  have htop : C.buf[C.used - 1] ≠ 0 := by
    intro hc
    rcases Nat.lt_or_ge 1 C.used with h1 | h1
    · exact nC.top h1 (by rw [List.getElem?_eq_getElem hbl, hc])
    · have h2 : C.used = 1 := by omega
      have : C.buf.take (C.used - 1) = [] := by rw [h2]; rfl
      rw [this, hc] at hmag
      simp at hmag; omega
  have htd : C.buf[C.used - 1] < 𝔹 := (h.okd hz) _ (List.getElem_mem hbl)
  refine wp_bind (wp_USED h hz ?_)
  refine wp_bind (wp_DIGITS h hz ?_)
  refine wp_bind (isp2Loop1_spec ((h.at hz).take (C.used - 1)) hl (by omega) (fun hv => ?_) (fun hv => ?_))
  · rw [hv, Nat.zero_add] at hmag
    refine wp_bind (wp_rdz h hz (List.getElem?_eq_getElem hbl) ?_)
    refine isp2Loop2_spec htop (Nat.lt_of_lt_of_le htd (by norm_num)) (by omega) (fun j e => ?_) (fun hn => hQ1 fun k e => ?_)
    · have hj : j < 32 := by
        by_contra hc
        have : 2 ^ 32 ≤ 2 ^ j := Nat.pow_le_pow_right (by decide) (by omega)
        omega
      exact hQ0 _ (by rw [hmag, e, pow𝔹, ← Nat.pow_add, Nat.zero_add]) (by omega)
    · rw [hmag, pow𝔹] at e
      rcases Nat.lt_or_ge k (32 * (C.used - 1)) with h1 | h1
      · have h2 : 2 ^ k < 2 ^ (32 * (C.used - 1)) := Nat.pow_lt_pow_right (by decide) h1
        have h3 : 2 ^ (32 * (C.used - 1)) * 1 ≤ 2 ^ (32 * (C.used - 1)) * C.buf[C.used - 1] :=
          Nat.mul_le_mul_left _ (by omega)
        omega
      · refine hn (k - 32 * (C.used - 1)) ?_
        rw [show k = 32 * (C.used - 1) + (k - 32 * (C.used - 1)) by omega, Nat.pow_add] at e
        have := Nat.eq_of_mul_eq_mul_left (Nat.pow_pos (by decide)) e
        exact this
  · refine wp_pure (hQ1 fun k e => ?_)
    have h1 : 32 * (C.used - 1) ≤ k := by
      by_contra hc
      have h2 : 2 ^ k < 2 ^ (32 * (C.used - 1)) := Nat.pow_lt_pow_right (by decide) (by omega)
      have h3 : 𝔹 ^ (C.used - 1) * 1 ≤ 𝔹 ^ (C.used - 1) * C.buf[C.used - 1] :=
        Nat.mul_le_mul_left _ (by omega)
      rw [← pow𝔹] at h2
      omega
    have h2 : 𝔹 ^ (C.used - 1) ∣ C.mag := by
      rw [e, pow𝔹]; exact Nat.pow_dvd_pow 2 h1
    rw [hmag, Nat.dvd_add_left (Nat.dvd_mul_right _ _)] at h2
    have := Nat.le_of_dvd (by omega) h2
    omega

/-! ### `s_2expt` -/

theorem s_2expt_rep {Q : Bool → Mem → Prop} {k : Nat} (hE : Ref env E) (h : Rep m s) (hz : s z = some C)
    (ho : z.own = true) (hk : k < 2147483648)
    (hQ : ∀ m' C', Rep m' (upd s z (some C')) → Norm C' → C'.neg = C.neg → C.buf.length ≤ C'.buf.length →
      C'.mag = 2 ^ k → Q true m') :
    wp env E (s_2expt z k) Q m := by
  unfold s_2expt
  have hnd : (k + 32) / 32 = k / 32 + 1 := by omega
  rw [hnd, u32_of_lt (by omega)]
  refine wp_bind (s_pad_spec hE h hz ho (by omega) fun m1 C1 h1 g1 l1 => ?_)
  refine wp_if_pos rfl ?_
  have hz1 := upd_self s z (some C1)
  have hr : k % 32 < 32 := Nat.mod_lt _ (by decide)
  have hb : 2 ^ (k % 32) < 𝔹 := by
    have : 2 ^ (k % 32) ≤ 2 ^ 31 := Nat.pow_le_pow_right (by decide) (by omega)
    omega
  refine wp_bind (wp_DIGITS h1 hz1 ?_)
  refine wp_bind (ZERO_spec (n := k / 32 + 1) ((h1.at hz1).take (k / 32 + 1)) (by rw [List.length_take]; omega) (by omega) ?_)
  rw [Nat.shiftLeft_eq, Nat.one_mul, u32_of_lt hb, sub32_of_le (x := k / 32 + 1) (y := 1) (by omega) (by omega),
    show k / 32 + 1 - 1 = k / 32 by omega]
  have h2 := h1.write hz1 (k := 0) (Dig_replicate_zero (k / 32 + 1))
  rw [upd_upd] at h2
  refine wp_bind (wp_wrz (C := { C1 with buf := spliceL C1.buf 0 (List.replicate (k / 32 + 1) 0) }) h2
    (upd_self _ _ _) (i := k / 32) (by simp; omega) hb fun m3 h3 => ?_)
  rw [upd_upd] at h3
  refine wp_bind (wp_setUsed h3 (upd_self _ _ _) fun m4 h4 => ?_)
  rw [upd_upd] at h4
  have e1 : spliceL (spliceL C1.buf 0 (List.replicate (k / 32 + 1) 0)) (k / 32) [2 ^ (k % 32)] =
      spliceL C1.buf 0 (List.replicate (k / 32) 0 ++ [2 ^ (k % 32)]) := by
    have := spliceL_spliceL_of_le C1.buf 0 (k / 32) (List.replicate (k / 32 + 1) 0) [2 ^ (k % 32)] (by simp)
    rw [Nat.zero_add] at this
    rw [this, List.replicate_succ']
    congr 1
    have := spliceL_mid (List.replicate (k / 32) 0) [0] [] [2 ^ (k % 32)] rfl
    simpa using this
  have hm : val ((spliceL (spliceL C1.buf 0 (List.replicate (k / 32 + 1) 0)) (k / 32) [2 ^ (k % 32)]).take (k / 32 + 1)) = 2 ^ k := by
    rw [e1, take_splice0 _ _ (by simp) l1, val_concat, val_replicate_zero, List.length_replicate, Nat.zero_add,
      pow𝔹, ← Nat.pow_add, Nat.div_add_mod]
  refine wp_pure (hQ m4 _ h4 (.of_ge (by simp) (by simp; omega) (h4.okd (upd_self _ _ _)) fun _ => ?_) g1.neg
    (by simpa using g1.len) hm)
  show 𝔹 ^ (k / 32) ≤ val ((spliceL (spliceL C1.buf 0 (List.replicate (k / 32 + 1) 0)) (k / 32) [2 ^ (k % 32)]).take (k / 32 + 1))
  rw [hm, pow𝔹]
  exact Nat.pow_le_pow_right (by decide) (by omega)

/-! ### `s_norm` -/

theorem normLoop_spec {Q : Nat → Mem → Prop} {f d k : Nat} (hd : d < 𝔹) (hf : 4294967296 ≤ d * 2 ^ f)
    (h : ∀ j, d * 2 ^ j < 𝔹 → 2147483648 ≤ d * 2 ^ j → Q (k + j) m) : wp env E (normLoop f d k) Q m := by
  induction f generalizing d k with
  | zero => simp at hf; omega
  | succ f ih =>
    unfold normLoop
    refine wp_ite (fun hlt => ?_) (fun hge => ?_)
    · have e : u32 (d <<< 1) = d * 2 := by
        rw [Nat.shiftLeft_eq, Nat.pow_one, u32_of_lt (by omega)]
      rw [e]
      refine ih (by omega) (by rw [Nat.pow_succ] at hf; rw [Nat.mul_assoc, Nat.mul_comm 2]; exact hf) fun j h1 h2 => ?_
      rw [Nat.mul_assoc, ← Nat.pow_succ'] at h1 h2
      have := h (j + 1) h1 h2
      rwa [show k + 1 + j = k + (j + 1) by omega]
    · exact wp_pure (h 0 (by omega) (by omega))

theorem Norm.used_eq {C : Cell} (h : Norm C) (hd : Dig C.buf) {u : Nat} (hu : 1 ≤ u) (h1 : 1 < u → 𝔹 ^ (u - 1) ≤ C.mag)
    (h2 : C.mag < 𝔹 ^ u) : C.used = u := by
  have hpos := h.pos
  rcases Nat.lt_trichotomy C.used u with h3 | h3 | h3
  · have h4 := mag_lt hd h.le
    have h5 : 𝔹 ^ C.used ≤ 𝔹 ^ (u - 1) := pow_le' (by omega)
    have := h1 (by omega)
    omega
  · exact h3
  · have h4 := h.mag_ge (by omega)
    have h5 : 𝔹 ^ u ≤ 𝔹 ^ (C.used - 1) := pow_le' (by omega)
    omega

/-- The most significant digit of a normalised nonzero cell. -/
theorem Norm.split {C : Cell} (h : Norm C) (h0 : C.mag ≠ 0) (hd : Dig C.buf) :
    ∃ d, C.buf[C.used - 1]? = some d ∧ d ≠ 0 ∧ d < 𝔹 ∧ 𝔹 ^ (C.used - 1) * d ≤ C.mag ∧
      C.mag < 𝔹 ^ (C.used - 1) * (d + 1) := by
  have hle := h.le
  have hpos := h.pos
  have hbl : C.used - 1 < C.buf.length := by omega
  have hmag : C.mag = Imath.val (C.buf.take (C.used - 1)) + 𝔹 ^ (C.used - 1) * C.buf[C.used - 1] := by
    have := val_take_succ C.buf (C.used - 1) hbl
    rwa [show C.used - 1 + 1 = C.used by omega] at this
  have hlow := val_lt (hd.take (C.used - 1))
  rw [List.length_take, Nat.min_eq_left (by omega)] at hlow
  refine ⟨_, List.getElem?_eq_getElem hbl, ?_, hd _ (List.getElem_mem hbl), by omega, ?_⟩
  · intro hc
    rcases Nat.lt_or_ge 1 C.used with h1 | h1
    · exact h.top h1 (by rw [List.getElem?_eq_getElem hbl, hc])
    · have h2 : C.used = 1 := by omega
      have : C.buf.take (C.used - 1) = [] := by rw [h2]; rfl
      rw [this, hc] at hmag
      simp at hmag; omega
  · rw [Nat.mul_add, Nat.mul_one]; omega

private theorem half_aux {y w : Nat} (h : y * 2147483648 ≤ w) : y * 𝔹 ≤ 2 * w :=
  calc y * 𝔹 = 2 * (y * 2147483648) := by ring
    _ ≤ 2 * w := Nat.mul_le_mul_left 2 h

theorem s_norm_rep {Q : Nat → Mem → Prop} (hE : Ref env E) (h : Rep m s) (ha : s a = some A) (hb : s b = some B)
    (hab : a ≠ b) (oa : a.own = true) (ob : b.own = true) (nA : Norm A) (nB : Norm B) (h0 : B.mag ≠ 0)
    (hQ : ∀ m' A' B' k, Rep m' (upd (upd s a (some A')) b (some B')) → Norm A' → Norm B' →
      A'.neg = A.neg → B'.neg = B.neg → A'.mag = A.mag * 2 ^ k → B'.mag = B.mag * 2 ^ k → k < 32 →
      B'.used = B.used → 𝔹 ^ B.used ≤ 2 * B'.mag → (k = 0 → A' = A ∧ B' = B) → Q k m') :
    wp env E (s_norm a b) Q m := by
  unfold s_norm
  have hleB := nB.le
  have hposB := nB.pos
  have hlenB := (h.okl hb).2
  obtain ⟨d, hd1, hd2, hd3, hd4, hd5⟩ := nB.split h0 (h.okd hb)
  refine wp_bind (wp_DIGITS h hb ?_)
  refine wp_bind (wp_USED h hb ?_)
  rw [sub32_of_le hposB (by omega)]
  refine wp_bind (wp_rdz h hb hd1 ?_)
  refine wp_bind (normLoop_spec hd3 (by
    have : 1 * 2 ^ 33 ≤ d * 2 ^ 33 := Nat.mul_le_mul_right _ (by omega)
    omega) fun k hk1 hk2 => ?_)
  rw [Nat.zero_add]
  have hk : k < 32 := by
    by_contra hc
    have h1 : 2 ^ 32 ≤ 2 ^ k := Nat.pow_le_pow_right (by decide) (by omega)
    have h2 : 1 * 2 ^ k ≤ d * 2 ^ k := Nat.mul_le_mul_right _ (by omega)
    omega
  have hp : 𝔹 ^ B.used = 𝔹 ^ (B.used - 1) * 𝔹 := by
    rw [← Nat.pow_succ, show (B.used - 1).succ = B.used by omega]
  -- bounds of the shifted divisor
  have hup : B.mag * 2 ^ k < 𝔹 ^ B.used := by
    have h1 : (d + 1) * 2 ^ k ≤ 𝔹 := by
      have h2 : d < 2 ^ (32 - k) := by
        by_contra hc
        have : 2 ^ (32 - k) * 2 ^ k ≤ d * 2 ^ k := Nat.mul_le_mul_right _ (by omega)
        rw [two_pow_split (by omega)] at this
        omega
      have h3 : (d + 1) * 2 ^ k ≤ 2 ^ (32 - k) * 2 ^ k := Nat.mul_le_mul_right _ h2
      rwa [two_pow_split (by omega)] at h3
    have h2 : B.mag * 2 ^ k < 𝔹 ^ (B.used - 1) * (d + 1) * 2 ^ k := Nat.mul_lt_mul_of_pos_right hd5 (Nat.pow_pos (by decide))
    rw [Nat.mul_assoc] at h2
    have h3 := Nat.mul_le_mul_left (𝔹 ^ (B.used - 1)) h1
    rw [hp]; omega
  have hlo : 𝔹 ^ (B.used - 1) * 2147483648 ≤ B.mag * 2 ^ k := by
    have h1 := Nat.mul_le_mul_right (2 ^ k) hd4
    have h2 := Nat.mul_le_mul_left (𝔹 ^ (B.used - 1)) hk2
    rw [Nat.mul_assoc] at h1
    omega
  have hlo2 : 𝔹 ^ B.used ≤ 2 * (B.mag * 2 ^ k) := by
    rw [hp]; exact half_aux hlo
  refine wp_ite (fun hk0 => ?_) (fun hk0 => ?_)
  · refine wp_bind (s_qmul_rep hE h ha oa nA (by omega) fun m1 A1 h1 n1 s1 l1 g1 => ?_)
    have hb1 : upd s a (some A1) b = some B := by rw [upd_ne _ _ (Ne.symm hab)]; exact hb
    refine wp_bind (s_qmul_rep hE h1 hb1 ob nB (by omega) fun m2 B2 h2 n2 s2 l2 g2 => ?_)
    refine wp_pure (hQ m2 A1 B2 k h2 n1 n2 s1 s2 g1 g2 hk ?_ (by rw [g2]; exact hlo2) (fun h => absurd h hk0))
    refine n2.used_eq (h2.okd (upd_self _ _ _)) hposB (fun _ => ?_) (by rw [g2]; exact hup)
    rw [g2]
    have := pow_pos' (B.used - 1)
    omega
  · have hk1 : k = 0 := by omega
    subst hk1
    refine wp_pure (hQ m A B 0 ?_ nA nB rfl rfl (by simp) (by simp) hk rfl (by simpa using hlo2) (fun _ => ⟨rfl, rfl⟩))
    rw [upd_same _ ha, upd_same _ hb]; exact h

end Imath
