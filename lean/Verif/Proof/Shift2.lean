import Verif.Proof.Shift

/-! # Multiplication by powers of two, powers of two -/

namespace Imath

variable {env : Env} {E : Fault → Prop} {m : Mem} {s : Id → Option Cell} {z a b : Id} {A B C : Cell}

/-- Replace the lowest digits of `z` by `ls`, declare them used, and clamp. -/
theorem install {Q : Bool → Mem → Prop} {ls : List Nat} {r : Bool} (h : Rep m s) (hz : s z = some C)
    (hd : Dig ls) (hl1 : 1 ≤ ls.length) (hl2 : ls.length ≤ C.buf.length)
    (hQ : ∀ m' C', Rep m' (upd s z (some C')) → Norm C' → C'.neg = C.neg →
      C'.buf.length = C.buf.length → C'.mag = val ls → C'.base = C.base → Q r m') :
    wp env E (do setUsed z ls.length; CLAMP z; pure r) Q (m.splice C.ptr ls) := by
  have h1 := h.write hz (k := 0) hd
  refine wp_bind (wp_setUsed h1 (upd_self _ _ _) fun m2 h2 => ?_)
  rw [upd_upd] at h2
  refine wp_bind (CLAMP_spec h2 (upd_self _ _ _) (by simpa using hl2) fun m3 h3 => ?_)
  rw [upd_upd] at h3
  refine wp_pure (hQ m3 _ h3 ?_ rfl (by simp) ?_ rfl)
  · exact Norm.clamp (C := { C with buf := spliceL C.buf 0 ls }) (n := C.neg) hl1 (by simpa using hl2)
  · show val ((spliceL C.buf 0 ls).take (clampLen (spliceL C.buf 0 ls) ls.length)) = _
    rw [val_take_clampLen _ _ (by simpa using hl2), take_splice0 _ _ rfl hl2]

theorem qmulExtra_rep {Q : Nat → Mem → Prop} {r : Nat} (h : Rep m s) (hz : s z = some C) (nC : Norm C)
    (hQ : ∀ e, e ≤ 1 → (r = 0 → e = 0) →
      (∀ d, C.buf[C.used - 1]? = some d → (e = 0 ↔ d / 2 ^ (32 - r) = 0) ∨ r = 0) → Q e m) :
    wp env E (qmulExtra z r) Q m := by
  unfold qmulExtra
  have hle := nC.le
  have hpos := nC.pos
  have hlen := (h.okl hz).2
  refine wp_ite (fun hr0 => ?_) (fun hr0 => wp_pure (hQ 0 (by omega) (fun _ => rfl) fun _ _ => .inr (by omega)))
  refine wp_bind (wp_USED h hz ?_)
  refine wp_bind (wp_DIGITS h hz ?_)
  rw [sub32_of_le hpos (by omega)]
  have hx : C.buf[C.used - 1]? = some (C.buf[C.used - 1]'(by omega)) := List.getElem?_eq_getElem (by omega)
  refine wp_bind (wp_rdz h hz hx ?_)
  rw [Nat.shiftRight_eq_div_pow]
  refine wp_ite (fun h1 => wp_pure (hQ 1 (by omega) (by omega) ?_)) (fun h1 => wp_pure (hQ 0 (by omega) (by omega) ?_))
  · intro d hd
    rw [hx, Option.some.injEq] at hd
    subst hd
    left; omega
  · intro d hd
    rw [hx, Option.some.injEq] at hd
    subst hd
    left; omega

theorem s_qmul_rep' {Q : Bool → Mem → Prop} {p2 : Nat} (hE : Ref env E) (h : Rep m s) (hz : s z = some C)
    (ho : z.own = true) (nC : Norm C) (hp : p2 < 4294967296)
    (hQ : ∀ m' C', Rep m' (upd s z (some C')) → Norm C' → C'.neg = C.neg →
      C.buf.length ≤ C'.buf.length → C'.mag = C.mag * 2 ^ p2 →
      (p2 < 32 → C.mag * 2 ^ p2 < 𝔹 ^ C.buf.length → C'.base = C.base ∧ C'.buf.length = C.buf.length) → Q true m') :
    wp env E (s_qmul z p2) Q m := by
  unfold s_qmul
  have hle := nC.le
  have hpos := nC.pos
  have hlen := (h.okl hz).2
  refine wp_ite (fun h0 => ?_) (fun h0 => ?_)
  · refine wp_pure (hQ m C ?_ nC rfl (Nat.le_refl _) (by rw [h0]; simp) fun _ _ => ⟨rfl, rfl⟩)
    rw [upd_same _ hz]; exact h
  have hpow : 2 ^ p2 = 𝔹 ^ (p2 / 32) * 2 ^ (p2 % 32) := by
    rw [pow𝔹, ← Nat.pow_add, Nat.div_add_mod]
  refine wp_bind (wp_USED h hz ?_)
  have hr : p2 % 32 < 32 := Nat.mod_lt _ (by decide)
  have hk0 : p2 / 32 < 134217728 := by omega
  have hsm : p2 < 32 → p2 / 32 = 0 := by omega
  generalize p2 / 32 = k at *
  generalize p2 % 32 = r at *
  refine wp_bind (qmulExtra_rep h hz nC fun e he1 he2 he3 => ?_)
  rw [u32_of_lt (by omega)]
  refine wp_bind (s_pad_spec' hE h hz ho (by omega) fun m1 C1 h1 g1 l1 hno => ?_)
  refine wp_if_pos rfl ?_
  have hsame : p2 < 32 → C.mag * 2 ^ p2 < 𝔹 ^ C.buf.length → C1 = C := by
    intro h32 hlt
    have hk := hsm h32
    subst hk
    refine hno ?_
    by_cases he : e = 0
    · omega
    · obtain ⟨d, hdd⟩ : ∃ d, C.buf[C.used - 1]? = some d := ⟨_, List.getElem?_eq_getElem (by omega)⟩
      have hr0 : r ≠ 0 := fun h0 => he (he2 h0)
      rcases he3 d hdd with h3 | h3
      · have h4 : d / 2 ^ (32 - r) ≠ 0 := fun h5 => he (h3.2 h5)
        have h5 : 2 ^ (32 - r) ≤ d := by
          by_contra hcon
          exact h4 (Nat.div_eq_of_lt (by omega))
        have h6 : C.mag = val (C.buf.take (C.used - 1)) + 𝔹 ^ (C.used - 1) * d := by
          unfold Cell.mag
          have e7 : C.buf.take C.used = C.buf.take (C.used - 1) ++ [d] := by
            conv_lhs => rw [show C.used = C.used - 1 + 1 by omega]
            rw [List.take_succ, hdd]; rfl
          rw [e7, val_concat, List.length_take, Nat.min_eq_left (by omega)]
        have h7 : 𝔹 ^ C.used ≤ C.mag * 2 ^ r := by
          have e8 : 𝔹 ^ C.used = 𝔹 ^ (C.used - 1) * (2 ^ (32 - r) * 2 ^ r) := by
            rw [← Nat.pow_add, show 32 - r + r = 32 by omega, show (2 : Nat) ^ 32 = 𝔹 by norm_num, ← Nat.pow_succ]
            congr 1; omega
          rw [e8, ← Nat.mul_assoc]
          refine Nat.mul_le_mul_right _ ?_
          rw [h6]
          exact Nat.le_trans (Nat.mul_le_mul_left _ h5) (Nat.le_add_left _ _)
        have h8 : C.mag * 2 ^ r < 𝔹 ^ C.buf.length := by
          rw [hpow, pow_zero, one_mul] at hlt; exact hlt
        have h9 : C.used < C.buf.length := by
          by_contra hcon
          have : C.used = C.buf.length := by omega
          rw [this] at h7; omega
        omega
      · exact absurd h3 hr0
  have hz1 := upd_self s z (some C1)
  have hl1 := (h1.okl hz1).2
  have eX : C1.buf.take C.used = C.buf.take C.used := g1.take hle
  have lX : (C1.buf.take C.used).length = C.used := by rw [List.length_take]; omega
  have dX : Dig (C1.buf.take C.used) := (h1.okd hz1).take _
  have vX : val (C1.buf.take C.used) = C.mag := by rw [eX]; rfl
  -- whole digits
  have step1 : ∀ (Q' : Nat → Mem → Prop),
      Q' (C.used + k) (m1.splice C1.ptr (List.replicate k 0 ++ C1.buf.take C.used)) →
      wp env E (qmulDigits z C.used k) Q' m1 := by
    intro Q' hQ'
    unfold qmulDigits
    refine wp_ite (fun hk => ?_) (fun hk => ?_)
    · refine wp_bind (wp_DIGITS h1 hz1 ?_)
      refine wp_bind (moveUp_spec (h1.at hz1) (by omega) ?_)
      have h2 := h1.write hz1 (k := k) dX
      rw [upd_upd] at h2
      refine wp_bind (wp_DIGITS h2 (upd_self _ _ _) ?_)
      refine wp_bind (ZERO_spec (n := k) ((h2.at (upd_self _ _ _)).take k)
        (by rw [List.length_take]; simp; omega) (by omega) ?_)
      rw [u32_of_lt (by omega)]
      refine wp_pure ?_
      have e1 : (m1.splice (C1.ptr.add k) (C1.buf.take C.used)).splice C1.ptr (List.replicate k 0) =
          m1.splice C1.ptr (List.replicate k 0 ++ C1.buf.take C.used) := by
        rw [Mem.splice_comm _ (.inr (.inr (by simp)))]
        have := Mem.splice_append m1 C1.ptr (List.replicate k 0) (C1.buf.take C.used)
        rwa [List.length_replicate] at this
      rw [← e1] at hQ'
      exact hQ'
    · have hk : k = 0 := by omega
      subst hk
      refine wp_pure ?_
      have e1 : m1.splice C1.ptr (C1.buf.take C.used) = m1 := by
        apply Mem.ext' <;> try (intros; rfl)
        intro b
        simp only [Mem.splice]
        split
        · rename_i hb
          rw [hb, show C1.ptr.base = C1.base from rfl, h1.dig hz1]
          simp only [Option.map_some, Option.some.injEq, Cell.ptr_off]
          rw [spliceL_zero_append _ _ (by omega), lX, List.take_append_drop]
        · rfl
      simp only [List.replicate_zero, List.nil_append, e1] at hQ'
      exact hQ'
  refine wp_bind (step1 _ ?_)
  -- remaining bits
  have dR := Dig_replicate_zero k
  have dRX : Dig (List.replicate k 0 ++ C1.buf.take C.used) := by rw [Dig_append]; exact ⟨dR, dX⟩
  have lRX : (List.replicate k 0 ++ C1.buf.take C.used).length = C.used + k := by
    rw [List.length_append, List.length_replicate, lX]; omega
  have step2 : ∀ (Q' : Nat → Mem → Prop),
      (∀ ls : List Nat, Dig ls → 1 ≤ ls.length → ls.length ≤ C1.buf.length → val ls = C.mag * (𝔹 ^ k * 2 ^ r) →
        Q' ls.length (m1.splice C1.ptr ls)) →
      wp env E (qmulBits z (C.used + k) k r e) Q' (m1.splice C1.ptr (List.replicate k 0 ++ C1.buf.take C.used)) := by
    intro Q' hQ'
    unfold qmulBits
    have h2 := h1.write hz1 (k := 0) dRX
    rw [upd_upd] at h2
    refine wp_ite (fun hr0 => ?_) (fun hr0 => ?_)
    · refine wp_bind (wp_DIGITS h2 (upd_self _ _ _) ?_)
      rw [show C.used + k - k = C.used by omega,
        show Cell.ptr { C1 with buf := spliceL C1.buf 0 (List.replicate k 0 ++ C1.buf.take C.used) } = C1.ptr from rfl]
      have hatX : At (m1.splice C1.ptr (List.replicate k 0 ++ C1.buf.take C.used)) (C1.ptr.add k) (C1.buf.take C.used) := by
        have : At (m1.splice C1.ptr (List.replicate k 0 ++ C1.buf.take C.used)) C1.ptr
            (List.replicate k 0 ++ C1.buf.take C.used) :=
          ((h1.at hz1).take (C.used + k)).splice_self (by rw [lRX, List.length_take]; omega)
        rw [At_append, List.length_replicate] at this
        exact this.2
      refine wp_bind (shlLoop_spec hatX lX dX (by decide) (by omega) fun zs d' lz dz hd' hlast ez => ?_)
      have hlast' : C.buf[C.used - 1]? = some d' := by
        have : C.used = C.used - 1 + 1 := by omega
        rw [this, List.getElem?_cons_succ, ← this, eX, List.getElem?_take, if_pos (by omega)] at hlast
        exact hlast
      have hee := he3 d' hlast'
      rw [Nat.zero_div, Nat.add_zero, vX] at ez
      have e2 : (m1.splice C1.ptr (List.replicate k 0 ++ C1.buf.take C.used)).splice (C1.ptr.add k) zs =
          m1.splice C1.ptr (List.replicate k 0 ++ zs) := by
        rw [Mem.splice_splice_of_le _ _ _ _ _ (by rw [lRX]; omega)]
        congr 1
        have := spliceL_mid (List.replicate k 0) (C1.buf.take C.used) [] zs (by omega)
        simpa [List.length_replicate] using this
      rw [e2, Nat.shiftRight_eq_div_pow]
      have dRz : Dig (List.replicate k 0 ++ zs) := by rw [Dig_append]; exact ⟨dR, dz⟩
      refine wp_ite (fun hd0 => ?_) (fun hd0 => ?_)
      · have he : e = 1 := by
          rcases hee with h3 | h3
          · have : e ≠ 0 := fun h4 => hd0 (h3.1 h4)
            omega
          · omega
        subst he
        have hd2 : d' / 2 ^ (32 - r) < 𝔹 := Nat.lt_of_le_of_lt (Nat.div_le_self _ _) hd'
        have h3 := h1.write hz1 (k := 0) dRz
        rw [upd_upd] at h3
        have hlt : k + C.used < (spliceL C1.buf 0 (List.replicate k 0 ++ zs)).length := by
          rw [length_spliceL]; omega
        have hg := (h3.at (upd_self _ _ _)).get hlt
        refine wp_bind (wp_wr (by simpa using hg) ?_)
        rw [u32_of_lt (by omega)]
        refine wp_pure ?_
        have lRz : (List.replicate k 0 ++ zs).length = k + C.used := by
          rw [List.length_append, List.length_replicate, lz]
        have e3 : (m1.splice C1.ptr (List.replicate k 0 ++ zs)).splice (C1.ptr.add (k + C.used)) [d' / 2 ^ (32 - r)] =
            m1.splice C1.ptr (List.replicate k 0 ++ zs ++ [d' / 2 ^ (32 - r)]) := by
          rw [← lRz, Mem.splice_append]
        have := hQ' (List.replicate k 0 ++ zs ++ [d' / 2 ^ (32 - r)])
          (by rw [Dig_append]; exact ⟨dRz, by simp [hd2]⟩) (by simp; omega) (by rw [List.length_append, lRz]; simp; omega) ?_
        · have hl4 : (List.replicate k 0 ++ zs ++ [d' / 2 ^ (32 - r)]).length = C.used + k + 1 := by
            rw [List.length_append, lRz]; simp; omega
          rw [← e3, hl4] at this
          exact this
        · rw [List.append_assoc, val_append, val_replicate_zero, List.length_replicate, val_concat, lz, ez]; ring
      · have hd1 : d' / 2 ^ (32 - r) = 0 := by omega
        rw [hd1, Nat.mul_zero, Nat.add_zero] at ez
        have := hQ' (List.replicate k 0 ++ zs) dRz (by simp; omega) (by simp; omega) (by
          rw [val_append, val_replicate_zero, List.length_replicate, ez]; ring)
        have hl4 : (List.replicate k 0 ++ zs).length = C.used + k := by
          rw [List.length_append, List.length_replicate, lz]; omega
        rw [hl4] at this
        exact wp_pure this
    · have hr1 : r = 0 := by omega
      subst hr1
      have := hQ' _ dRX (by omega) (by omega) (by rw [val_append, val_replicate_zero, List.length_replicate, vX]; ring)
      rw [lRX] at this
      exact wp_pure this
  refine wp_bind (step2 _ fun ls hd hl hl2 hv => ?_)
  refine install h1 hz1 hd hl hl2 fun m' C' h' n' s' l' g' b' => ?_
  rw [upd_upd] at h'
  refine hQ m' C' h' n' (s'.trans g1.neg) (by have := g1.len; omega) ?_ fun h32 hlt => ?_
  · rw [g', hv, hpow]
  · have := hsame h32 hlt
    rw [b', l', this]; exact ⟨rfl, rfl⟩

theorem s_qmul_rep {Q : Bool → Mem → Prop} {p2 : Nat} (hE : Ref env E) (h : Rep m s) (hz : s z = some C)
    (ho : z.own = true) (nC : Norm C) (hp : p2 < 4294967296)
    (hQ : ∀ m' C', Rep m' (upd s z (some C')) → Norm C' → C'.neg = C.neg →
      C.buf.length ≤ C'.buf.length → C'.mag = C.mag * 2 ^ p2 → Q true m') :
    wp env E (s_qmul z p2) Q m :=
  s_qmul_rep' hE h hz ho nC hp fun m' C' h1 h2 h3 h4 h5 _ => hQ m' C' h1 h2 h3 h4 h5

/-! ### powers of two dividing a number -/

theorem dp2kLoop1_spec {Q : Nat × Nat → Mem → Prop} {f k : Nat} {p : Ptr} {xs : List Nat}
    (hx : At m p xs) (hd : Dig xs) (hf : xs.length < f) (h0 : val xs ≠ 0)
    (h : ∀ i d r, i < xs.length → d ≠ 0 → d < 𝔹 → val xs = 𝔹 ^ i * (d + 𝔹 * r) → Q (k + 32 * i, d) m) :
    wp env E (dp2kLoop1 f p k) Q m := by
  induction f generalizing p k xs with
  | zero => omega
  | succ f ih =>
    match xs with
    | [] => simp at h0
    | x :: xs =>
      rw [At_cons] at hx
      rw [Dig_cons] at hd
      simp only [List.length_cons] at hf h
      unfold dp2kLoop1
      refine wp_bind (wp_rd hx.1 ?_)
      refine wp_ite (fun hx0 => ?_) (fun hx0 => ?_)
      · subst hx0
        rw [val_cons, Nat.zero_add] at h0
        refine ih hx.2 hd.2 (by omega) (by omega) fun i d r hi hd0 hd1 e => ?_
        have := h (i + 1) d r (by omega) hd0 hd1 (by rw [val_cons, Nat.zero_add, e]; ring)
        rw [show k + 32 + 32 * i = k + 32 * (i + 1) by omega]
        exact this
      · have := h 0 x (val xs) (by omega) hx0 hd.1 (by simp)
        exact wp_pure this

theorem dp2kLoop2_spec {Q : Nat → Mem → Prop} {f d k : Nat} (hd0 : d ≠ 0) (hf : d < 2 ^ f)
    (h : ∀ j o, d = 2 ^ j * (2 * o + 1) → j < f → Q (k + j) m) : wp env E (dp2kLoop2 f d k) Q m := by
  induction f generalizing d k with
  | zero => simp at hf; omega
  | succ f ih =>
    unfold dp2kLoop2
    rw [Nat.and_one_is_mod]
    refine wp_ite (fun he => ?_) (fun he => ?_)
    · rw [Nat.shiftRight_one]
      refine ih (by omega) (by rw [Nat.pow_succ] at hf; omega) fun j o e hj => ?_
      have := h (j + 1) o (by rw [Nat.pow_succ, Nat.mul_comm (2 ^ j) 2, Nat.mul_assoc, ← e]; omega) (by omega)
      rwa [show k + 1 + j = k + (j + 1) by omega]
    · exact wp_pure (h 0 (d / 2) (by omega) (by omega))

theorem s_dp2k_rep {Q : Int → Mem → Prop} (h : Rep m s) (hz : s z = some C) (nC : Norm C) (h0 : C.mag ≠ 0)
    (hQ : ∀ k o : Nat, C.mag = 2 ^ k * (2 * o + 1) → k < 2147483648 → Q k m) :
    wp env E (s_dp2k z) Q m := by
  unfold s_dp2k
  have hle := nC.le
  have hlen := h.okl hz
  refine wp_bind (wp_DIGITS h hz ?_)
  refine wp_bind (wp_USED h hz ?_)
  refine wp_bind (wp_rdz (i := 0) h hz (List.getElem?_eq_getElem hlen.1) ?_)
  refine wp_if_neg (fun hc => h0 (nC.zero_iff.2 ⟨hc.1, by rw [List.getElem?_eq_getElem hlen.1, hc.2]⟩)) ?_
  have hl : (C.buf.take C.used).length = C.used := by rw [List.length_take]; omega
  refine wp_bind (dp2kLoop1_spec (h.used hz) ((h.okd hz).take _) (by omega) h0 fun i d r hi hd0 hd1 e => ?_)
  refine wp_bind (dp2kLoop2_spec hd0 (Nat.lt_of_lt_of_le hd1 (by norm_num)) fun j o e2 hj => ?_)
  have hj32 : j < 32 := by
    by_contra hc
    have : 2 ^ 32 ≤ 2 ^ j := Nat.pow_le_pow_right (by decide) (by omega)
    have h3 : 2 ^ j * 1 ≤ 2 ^ j * (2 * o + 1) := Nat.mul_le_mul_left _ (by omega)
    omega
  rw [toInt32_of_lt (by omega)]
  refine wp_pure (hQ (0 + 32 * i + j) (o + 2 ^ (31 - j) * r) ?_ (by omega))
  have e3 : (𝔹 : Nat) = 2 ^ j * (2 * 2 ^ (31 - j)) := by
    rw [← Nat.pow_succ', ← Nat.pow_add, show j + (31 - j).succ = 32 by omega]
  show val (C.buf.take C.used) = _
  rw [e, e2, pow𝔹, Nat.pow_add, Nat.zero_add]
  conv => lhs; rw [e3]
  ring

end Imath
