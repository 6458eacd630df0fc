import Verif.Proof.ShiftLoops

/-! # Single-digit arithmetic and shifts on cells -/

namespace Imath

variable {env : Env} {E : Fault → Prop} {m : Mem} {s : Id → Option Cell} {z a b : Id} {A B C : Cell}

theorem take_splice0 (l zs : List Nat) {n : Nat} (hn : zs.length = n) (h : n ≤ l.length) :
    (spliceL l 0 zs).take n = zs := by
  rw [spliceL_zero_append _ _ (by omega), List.take_append_of_le_length (by omega),
    List.take_of_length_le (by omega)]

/-- A cell is normalised if its magnitude is large enough. -/
theorem Norm.of_ge {C : Cell} (h1 : 1 ≤ C.used) (h2 : C.used ≤ C.buf.length) (hd : Dig C.buf)
    (h3 : 1 < C.used → 𝔹 ^ (C.used - 1) ≤ C.mag) : Norm C := by
  refine ⟨h1, h2, fun h hz => ?_⟩
  have h4 := h3 h
  have hlen : C.used - 1 < C.buf.length := by omega
  have h5 := val_take_succ C.buf (C.used - 1) hlen
  rw [show C.used - 1 + 1 = C.used by omega] at h5
  rw [List.getElem?_eq_getElem hlen, Option.some.injEq] at hz
  rw [hz, Nat.mul_zero, Nat.add_zero] at h5
  have h6 := val_lt (hd.take (C.used - 1))
  rw [List.length_take, Nat.min_eq_left (by omega), ← h5] at h6
  exact absurd h4 (Nat.not_le.2 h6)

theorem pow_pos' (n : Nat) : 0 < 𝔹 ^ n := Nat.pow_pos (by decide)

theorem pow_le' {a b : Nat} (h : a ≤ b) : 𝔹 ^ a ≤ 𝔹 ^ b := Nat.pow_le_pow_right (by decide) h

theorem lt_of_pow_lt {a b : Nat} (h : 𝔹 ^ a < 𝔹 ^ b) : a < b := by
  by_contra hc
  have := pow_le' (Nat.le_of_not_lt hc)
  omega

theorem pow𝔹 (n : Nat) : 𝔹 ^ n = 2 ^ (32 * n) := by
  rw [Nat.pow_mul]

/-- The used digits of a cell. -/
theorem Rep.used (h : Rep m s) (hz : s z = some C) : At m C.ptr (C.buf.take C.used) := (h.at hz).take _

/-- The common end of `s_dmul` and `s_dadd`: the used digits have been replaced by `zs`, and there is
a carry `w`. -/
theorem carry_end {Q : Unit → Mem → Prop} {zs : List Nat} {w v : Nat} (h : Rep m s) (hz : s z = some C)
    (nC : Norm C) (hl : zs.length = C.used) (hd : Dig zs) (hw : w < 𝔹)
    (hv : val zs + 𝔹 ^ C.used * w = v) (hge : C.mag ≤ v) (hcap : v < 𝔹 ^ C.buf.length)
    (hQ : ∀ m' C', Rep m' (upd s z (some C')) → Norm C' → C'.neg = C.neg →
      C'.buf.length = C.buf.length → C'.mag = v → Q () m') :
    wp env E (if w ≠ 0 then do
      wr (C.ptr.add C.used) (u32 w)
      setUsed z (u32 (C.used + 1))
    else pure ()) Q (m.splice C.ptr zs) := by
  have h1 := h.write hz (k := 0) hd
  have hle := nC.le
  have hpos := nC.pos
  have hlen := (h.okl hz).2
  have ht := take_splice0 C.buf zs hl hle
  refine wp_ite (fun hw0 => ?_) (fun hw0 => ?_)
  · have hu : C.used < C.buf.length := by
      apply lt_of_pow_lt
      have : 𝔹 ^ C.used * 1 ≤ 𝔹 ^ C.used * w := Nat.mul_le_mul_left _ (by omega)
      omega
    rw [u32_of_lt hw, u32_of_lt (by omega)]
    refine wp_bind (wp_wrz (C := { C with buf := spliceL C.buf 0 zs }) h1 (upd_self _ _ _) (i := C.used) (by simpa using hu) hw fun m2 h2 => ?_)
    rw [upd_upd] at h2
    refine wp_setUsed h2 (upd_self _ _ _) fun m3 h3 => ?_
    rw [upd_upd] at h3
    have hl2 : C.used < (spliceL (spliceL C.buf 0 zs) C.used [w]).length := by simpa using hu
    have ht2 : (spliceL (spliceL C.buf 0 zs) C.used [w]).take (C.used + 1) = zs ++ [w] := by
      have := spliceL_append C.buf 0 zs [w]
      rw [Nat.zero_add, hl] at this
      rw [this, take_splice0 _ _ (by simp [hl]) hu]
    have hm : val ((spliceL (spliceL C.buf 0 zs) C.used [w]).take (C.used + 1)) = v := by
      rw [ht2, val_concat, hl, hv]
    refine hQ m3 _ h3 (.of_ge (by simp) (by simp; omega) (h3.okd (upd_self _ _ _)) fun _ => ?_) rfl (by simp) hm
    show 𝔹 ^ C.used ≤ val ((spliceL (spliceL C.buf 0 zs) C.used [w]).take (C.used + 1))
    rw [hm, ← hv]
    have : 𝔹 ^ C.used * 1 ≤ 𝔹 ^ C.used * w := Nat.mul_le_mul_left _ (by omega)
    omega
  · have hw0' : w = 0 := by omega
    subst hw0'
    rw [Nat.mul_zero, Nat.add_zero] at hv
    have hm : val ((spliceL C.buf 0 zs).take C.used) = v := by rw [ht, hv]
    refine wp_pure (hQ _ _ h1 (.of_ge hpos (by simpa using hle) (h1.okd (upd_self _ _ _)) fun hu => ?_) rfl (by simp) hm)
    show 𝔹 ^ (C.used - 1) ≤ val ((spliceL C.buf 0 zs).take C.used)
    rw [hm]
    exact Nat.le_trans (nC.mag_ge hu) hge

theorem s_dmul_rep {Q : Unit → Mem → Prop} {d : Nat} (h : Rep m s) (hz : s z = some C) (nC : Norm C)
    (hd1 : 1 ≤ d) (hd : d < 𝔹) (hcap : C.mag * d < 𝔹 ^ C.buf.length)
    (hQ : ∀ m' C', Rep m' (upd s z (some C')) → Norm C' → C'.neg = C.neg →
      C'.buf.length = C.buf.length → C'.mag = C.mag * d → Q () m') :
    wp env E (s_dmul z d) Q m := by
  unfold s_dmul
  have hle := nC.le
  refine wp_bind (wp_DIGITS h hz ?_)
  refine wp_bind (wp_USED h hz ?_)
  have hl : (C.buf.take C.used).length = C.used := by rw [List.length_take]; omega
  refine wp_bind (dmulLoop_spec (h.used hz) (h.used hz) hl hl ((h.okd hz).take _) (Behind.self _ _) hd (by decide)
    fun zs w hlz hdz hw e => ?_)
  exact carry_end h hz nC hlz hdz hw (by simpa [Cell.mag_def] using e) (Nat.le_mul_of_pos_right _ hd1) hcap hQ

theorem s_dadd_rep {Q : Unit → Mem → Prop} {d : Nat} (h : Rep m s) (hz : s z = some C) (nC : Norm C)
    (hd : d < 𝔹) (hcap : C.mag + d < 𝔹 ^ C.buf.length)
    (hQ : ∀ m' C', Rep m' (upd s z (some C')) → Norm C' → C'.neg = C.neg →
      C'.buf.length = C.buf.length → C'.mag = C.mag + d → Q () m') :
    wp env E (s_dadd z d) Q m := by
  unfold s_dadd
  have hle := nC.le
  have hpos := nC.pos
  have hlen := (h.okl hz).2
  refine wp_bind (wp_DIGITS h hz ?_)
  refine wp_bind (wp_USED h hz ?_)
  obtain ⟨x, xs, hx⟩ : ∃ x xs, C.buf.take C.used = x :: xs := by
    cases hb : C.buf.take C.used with
    | nil => have := congrArg List.length hb; rw [List.length_take, List.length_nil] at this; omega
    | cons x xs => exact ⟨x, xs, rfl⟩
  have hlx : xs.length = C.used - 1 := by
    have := congrArg List.length hx
    rw [List.length_take] at this; simp at this; omega
  have hat := h.used hz
  have hdx := (h.okd hz).take C.used
  have hmag : C.mag = x + 𝔹 * val xs := by rw [Cell.mag_def, hx]; rfl
  rw [hx, At_cons] at hat
  rw [hx, Dig_cons] at hdx
  have hx1 := hdx.1
  refine wp_bind (wp_rd hat.1 ?_)
  have e1 : u64 (x + d) = x + d := u64_of_lt (by omega)
  simp only [e1]
  refine wp_bind (wp_wr hat.1 ?_)
  rw [sub32_of_le hpos (by omega), shr32]
  refine wp_bind (daddLoop_spec (hat.2.after_write (Behind.self _ _) rfl) hlx hdx.2 (by omega)
    fun zs w hlz hdz hw e => ?_)
  rw [Mem.splice_cons, show 1 + (C.used - 1) = C.used by omega]
  refine carry_end (zs := u32 (x + d) :: zs) h hz nC (by simp [hlz]; omega) (by simp [hdz, u32_lt])
    (by omega) ?_ (Nat.le_add_right _ _) hcap hQ
  rw [show C.used = C.used - 1 + 1 by omega, pow_succ_mul, hmag]
  simp only [val_cons, u32]
  omega

theorem s_ddiv_rep {Q : Nat → Mem → Prop} {d : Nat} (h : Rep m s) (hz : s z = some C) (nC : Norm C)
    (hd1 : 1 ≤ d) (hd : d < 𝔹)
    (hQ : ∀ m' C', Rep m' (upd s z (some C')) → Norm C' → C'.neg = C.neg →
      C'.buf.length = C.buf.length → C'.mag = C.mag / d → Q (C.mag % d) m') :
    wp env E (s_ddiv z d) Q m := by
  unfold s_ddiv
  have hle := nC.le
  refine wp_bind (wp_USED h hz ?_)
  refine wp_bind (wp_DIGITS h hz ?_)
  have hl : (C.buf.take C.used).length = C.used := by rw [List.length_take]; omega
  refine wp_bind (ddivLoop_spec (h.used hz) hl ((h.okd hz).take _) hd (by omega)
    fun zs w hlz hdz hw e => ?_)
  have h1 := h.write hz (k := 0) hdz
  refine wp_bind (CLAMP_spec h1 (upd_self _ _ _) (by simpa using hle) fun m2 h2 => ?_)
  rw [upd_upd] at h2
  rw [Nat.zero_mul, Nat.zero_add] at e
  have e' : C.mag = w + d * val zs := by rw [Cell.mag_def, ← e]; ring
  have hr : C.mag % d = w := by rw [e', Nat.add_mul_mod_self_left, Nat.mod_eq_of_lt hw]
  have hq : C.mag / d = val zs := by
    rw [e', Nat.add_mul_div_left _ _ (by omega), Nat.div_eq_of_lt hw, Nat.zero_add]
  rw [u32_of_lt (by omega), ← hr]
  refine wp_pure (hQ m2 _ h2 ?_ rfl (by simp) ?_)
  · exact Norm.clamp (C := { C with buf := spliceL C.buf 0 zs }) (n := C.neg) nC.pos (by simpa using hle)
  · show val ((spliceL C.buf 0 zs).take (clampLen (spliceL C.buf 0 zs) C.used)) = _
    rw [val_take_clampLen _ _ (by simpa using hle), take_splice0 _ _ hlz hle, hq]

/-! ### division by a power of two -/

theorem val_take_drop (xs : List Nat) (hd : Dig xs) {k n : Nat} (hk : k ≤ n) (hn : n ≤ xs.length) :
    val ((xs.drop k).take (n - k)) = val (xs.take n) / 𝔹 ^ k := by
  have h1 := val_take_add_drop (xs.take n) k
  rw [List.length_take, Nat.min_eq_left hn, Nat.min_eq_left hk, List.take_take, Nat.min_eq_left hk, List.drop_take] at h1
  have h2 := val_lt (hd.take k)
  rw [List.length_take, Nat.min_eq_left (by omega)] at h2
  rw [← h1, Nat.add_mul_div_left _ _ (pow_pos' k), Nat.div_eq_of_lt h2, Nat.zero_add]

theorem qdivDigits_rep {Q : Bool → Mem → Prop} {k : Nat} (h : Rep m s) (hz : s z = some C) (nC : Norm C)
    (hQ0 : ∀ m' C', Rep m' (upd s z (some C')) → Norm C' → C'.neg = false → C'.mag = 0 →
      C'.buf.length = C.buf.length → C.mag / 𝔹 ^ k = 0 → Q false m')
    (hQ1 : ∀ m' C', Rep m' (upd s z (some C')) → Norm C' → C'.neg = C.neg →
      C'.buf.length = C.buf.length → C'.mag = C.mag / 𝔹 ^ k → Q true m') :
    wp env E (qdivDigits z k) Q m := by
  unfold qdivDigits
  have hle := nC.le
  have hlt := mag_lt (h.okd hz) hle
  refine wp_bind (wp_USED h hz ?_)
  refine wp_ite (fun hk => ?_) (fun hk => ?_)
  · refine wp_ite (fun hge => ?_) (fun hnge => ?_)
    · have h0 : C.mag / 𝔹 ^ k = 0 := Nat.div_eq_of_lt (Nat.lt_of_lt_of_le hlt (pow_le' hge))
      refine wp_bind ?_
      unfold mp_int_zero
      refine wp_bind (wp_DIGITS h hz ?_)
      refine wp_bind (wp_wrz (i := 0) (x := 0) h hz (h.okl hz).1 (by decide) fun m1 h1 => ?_)
      refine wp_bind (wp_setUsed h1 (upd_self _ _ _) fun m2 h2 => ?_)
      rw [upd_upd] at h2
      refine wp_setSign h2 (upd_self _ _ _) fun m3 h3 => ?_
      rw [upd_upd] at h3
      have ht := take_splice0 C.buf [0] (n := 1) rfl (h.okl hz).1
      refine wp_pure (hQ0 m3 _ h3 ⟨Nat.le_refl _, by simpa using (h.okl hz).1, fun h => absurd h (by simp)⟩ rfl ?_ (by simp) h0)
      show val ((spliceL C.buf 0 [0]).take 1) = 0
      rw [ht]; rfl
    · refine wp_bind (wp_DIGITS h hz ?_)
      refine wp_bind (moveDown_spec (h.at hz) (by omega) ?_)
      have hdz : Dig ((C.buf.drop k).take (C.used - k)) := ((h.okd hz).drop _).take _
      have hl : ((C.buf.drop k).take (C.used - k)).length = C.used - k := by
        rw [List.length_take, List.length_drop]; omega
      have h1 := h.write hz (k := 0) hdz
      refine wp_bind (wp_setUsed h1 (upd_self _ _ _) fun m2 h2 => ?_)
      rw [upd_upd] at h2
      have hm : val ((spliceL C.buf 0 ((C.buf.drop k).take (C.used - k))).take (C.used - k)) = C.mag / 𝔹 ^ k := by
        rw [take_splice0 _ _ hl (by omega), val_take_drop _ (h.okd hz) (by omega) hle]; rfl
      refine wp_pure (hQ1 m2 _ h2 (.of_ge (by simp only; omega) (by simp; omega) (h2.okd (upd_self _ _ _)) fun hu => ?_) rfl (by simp) hm)
      show 𝔹 ^ (C.used - k - 1) ≤ val ((spliceL C.buf 0 ((C.buf.drop k).take (C.used - k))).take (C.used - k))
      have hu' : 1 < C.used - k := hu
      rw [hm, Nat.le_div_iff_mul_le (pow_pos' k), ← Nat.pow_add, show C.used - k - 1 + k = C.used - 1 by omega]
      exact nC.mag_ge (by omega)
  · have hk0 : k = 0 := by omega
    subst hk0
    refine wp_pure (hQ1 m C ?_ nC rfl rfl (by simp))
    rw [upd_same _ hz]; exact h

theorem qdivBits_rep {Q : Unit → Mem → Prop} {k : Nat} (h : Rep m s) (hz : s z = some C) (nC : Norm C)
    (hk : k < 32)
    (hQ : ∀ m' C', Rep m' (upd s z (some C')) → Norm C' → C'.neg = C.neg →
      C'.buf.length = C.buf.length → C'.mag = C.mag / 2 ^ k → Q () m') :
    wp env E (qdivBits z k) Q m := by
  unfold qdivBits
  have hle := nC.le
  have hpos := nC.pos
  refine wp_ite (fun hk0 => ?_) (fun hk0 => ?_)
  · refine wp_bind (wp_USED h hz ?_)
    refine wp_bind (wp_DIGITS h hz ?_)
    have hl : (C.buf.take C.used).length = C.used := by rw [List.length_take]; omega
    refine wp_bind (shrLoop_spec (h.used hz) hl ((h.okd hz).take _) (by omega) fun zs hlz hdz e => ?_)
    have h1 := h.write hz (k := 0) hdz
    refine CLAMP_spec h1 (upd_self _ _ _) (by simpa using hle) fun m2 h2 => ?_
    rw [upd_upd] at h2
    refine hQ m2 _ h2 ?_ rfl (by simp) ?_
    · exact Norm.clamp (C := { C with buf := spliceL C.buf 0 zs }) (n := C.neg) nC.pos (by simpa using hle)
    · show val ((spliceL C.buf 0 zs).take (clampLen (spliceL C.buf 0 zs) C.used)) = _
      rw [val_take_clampLen _ _ (by simpa using hle), take_splice0 _ _ hlz hle, e]
      simp [Cell.mag_def]
  · have hk0 : k = 0 := by omega
    subst hk0
    refine wp_pure (hQ m C ?_ nC rfl rfl (by simp))
    rw [upd_same _ hz]; exact h

theorem s_qdiv_rep {Q : Unit → Mem → Prop} {p2 : Nat} (h : Rep m s) (hz : s z = some C) (nC : Norm C)
    (hQ : ∀ m' C', Rep m' (upd s z (some C')) → Norm C' →
      C'.neg = (if C.mag / 2 ^ p2 = 0 then false else C.neg) →
      C'.buf.length = C.buf.length → C'.mag = C.mag / 2 ^ p2 → Q () m') :
    wp env E (s_qdiv z p2) Q m := by
  unfold s_qdiv
  have hpow : 2 ^ p2 = 𝔹 ^ (p2 / 32) * 2 ^ (p2 % 32) := by
    rw [pow𝔹, ← Nat.pow_add, Nat.div_add_mod]
  refine wp_bind (qdivDigits_rep h hz nC (fun m1 C1 h1 n1 s1 g1 l1 e1 => ?_) (fun m1 C1 h1 n1 s1 l1 g1 => ?_))
  · refine wp_if_neg (by simp) (wp_pure ?_)
    have e0 : C.mag / 2 ^ p2 = 0 := by rw [hpow, ← Nat.div_div_eq_div_mul, e1, Nat.zero_div]
    refine hQ m1 C1 h1 n1 ?_ l1 ?_
    · rw [if_pos e0, s1]
    · rw [e0, g1]
  · refine wp_if_pos rfl ?_
    refine wp_bind (qdivBits_rep h1 (upd_self _ _ _) n1 (Nat.mod_lt _ (by decide)) fun m2 C2 h2 n2 s2 l2 g2 => ?_)
    rw [upd_upd] at h2
    have hm : C2.mag = C.mag / 2 ^ p2 := by rw [g2, g1, Nat.div_div_eq_div_mul, ← hpow]
    refine wp_bind (wp_USED h2 (upd_self _ _ _) ?_)
    refine wp_bind (wp_DIGITS h2 (upd_self _ _ _) ?_)
    have hlen := (h2.okl (upd_self _ _ _)).1
    refine wp_bind (wp_rdz (i := 0) h2 (upd_self _ _ _) (List.getElem?_eq_getElem hlen) ?_)
    have hzi := n2.zero_iff
    rw [List.getElem?_eq_getElem hlen, Option.some.injEq] at hzi
    rw [hm] at hzi
    refine wp_ite (fun hc => ?_) (fun hc => ?_)
    · refine wp_setSign h2 (upd_self _ _ _) fun m3 h3 => ?_
      rw [upd_upd] at h3
      refine hQ m3 _ h3 ⟨n2.pos, n2.le, n2.top⟩ ?_ (l2.trans l1) hm
      rw [if_pos (hzi.2 hc)]
    · refine wp_pure (hQ m2 _ h2 n2 ?_ (l2.trans l1) hm)
      rw [if_neg (fun h0 => hc (hzi.1 h0)), s2, s1]

/-! ### remainder by a power of two -/

theorem s_qmod_rep {Q : Unit → Mem → Prop} {p2 : Nat} (h : Rep m s) (hz : s z = some C) (nC : Norm C)
    (hp : p2 < 4294967296)
    (hQ : ∀ m' C', Rep m' (upd s z (some C')) → Norm C' → C'.neg = C.neg →
      C'.buf.length = C.buf.length → C'.mag = C.mag % 2 ^ p2 →
      (p2 % 32 = 0 → (C.used ≤ p2 / 32 → C.buf[p2 / 32]? = some 0) → C'.buf[p2 / 32]? = some 0) → Q () m') :
    wp env E (s_qmod z p2) Q m := by
  unfold s_qmod
  have hle := nC.le
  have hpow : 2 ^ p2 = 𝔹 ^ (p2 / 32) * 2 ^ (p2 % 32) := by
    rw [pow𝔹, ← Nat.pow_add, Nat.div_add_mod]
  refine wp_bind (wp_USED h hz ?_)
  have hr : p2 % 32 < 32 := Nat.mod_lt _ (by decide)
  generalize hk : p2 / 32 = k at *
  generalize p2 % 32 = r at *
  have hk' : k < 134217728 := by omega
  have hmask : sub32 (u32 (1 <<< r)) 1 = 2 ^ r - 1 := by
    have h1 : 2 ^ r ≤ 2 ^ 31 := Nat.pow_le_pow_right (by decide) (by omega)
    have h2 : 1 ≤ 2 ^ r := Nat.one_le_two_pow
    rw [Nat.shiftLeft_eq, Nat.one_mul, u32_of_lt (by omega), sub32_of_le h2 (by omega)]
  rw [u32_of_lt (show k + 1 < 4294967296 by omega), hmask]
  refine wp_ite (fun hs => ?_) (fun hs => ?_)
  · refine wp_bind (wp_setUsed h hz fun m1 h1 => ?_)
    refine wp_bind (wp_DIGITS h1 (upd_self _ _ _) ?_)
    rw [show k + 1 - 1 = k by omega]
    have hkl : k < C.buf.length := by omega
    refine wp_bind (wp_rdz (x := C.buf[k]) h1 (upd_self _ _ _) (List.getElem?_eq_getElem hkl) ?_)
    rw [Nat.and_two_pow_sub_one_eq_mod]
    have hb2 : C.buf[k] % 2 ^ r < 𝔹 := by
      have := (h.okd hz) C.buf[k] (List.getElem_mem hkl)
      exact Nat.lt_of_le_of_lt (Nat.mod_le _ _) this
    refine wp_bind (wp_wrz h1 (upd_self _ _ _) (i := k) hkl hb2 fun m2 h2 => ?_)
    rw [upd_upd] at h2
    refine CLAMP_spec h2 (upd_self _ _ _) (by simp; omega) fun m3 h3 => ?_
    rw [upd_upd] at h3
    refine hQ m3 _ h3 ?_ rfl (by simp) ?_ ?_
    · exact Norm.clamp (C := { C with buf := spliceL C.buf k [C.buf[k] % 2 ^ r] }) (n := C.neg) (u := k + 1) (by omega) (by simp; omega)
    · show val ((spliceL C.buf k [C.buf[k] % 2 ^ r]).take (clampLen (spliceL C.buf k [C.buf[k] % 2 ^ r]) (k + 1))) = _
      have hl2 : k < (spliceL C.buf k [C.buf[k] % 2 ^ r]).length := by simpa using hkl
      rw [val_take_clampLen _ _ hl2, val_take_succ _ _ hl2]
      have e1 : (spliceL C.buf k [C.buf[k] % 2 ^ r]).take k = C.buf.take k := by
        apply List.ext_getElem?; intro i
        rw [List.getElem?_take, List.getElem?_take]
        split
        · rw [getElem?_spliceL]; simp only [if_neg (show ¬ k ≤ i by omega)]; simp
        · rfl
      have e2 : (spliceL C.buf k [C.buf[k] % 2 ^ r])[k] = C.buf[k] % 2 ^ r := by
        have : (spliceL C.buf k [C.buf[k] % 2 ^ r])[k]? = some (C.buf[k] % 2 ^ r) := by
          rw [getElem?_spliceL, List.getElem?_eq_getElem hkl]; simp
        rw [List.getElem?_eq_getElem hl2] at this
        exact Option.some.inj this
      rw [e1, e2]
      have hlt := val_lt ((h.okd hz).take k)
      rw [List.length_take, Nat.min_eq_left (by omega)] at hlt
      have hsp := val_take_add_drop (C.buf.take C.used) (k + 1)
      rw [List.length_take, Nat.min_eq_left hle, Nat.min_eq_left hs, List.take_take, Nat.min_eq_left hs,
        val_take_succ _ _ hkl] at hsp
      have hmag : C.mag = val (C.buf.take C.used) := rfl
      rw [hmag, ← hsp, hpow]
      generalize val (C.buf.take k) = L at *
      generalize C.buf[k] = t at *
      generalize val ((C.buf.take C.used).drop (k + 1)) = H at *
      have hkB : 𝔹 = 2 ^ (32 - r) * 2 ^ r := (two_pow_split (by omega)).symm
      have ht := Nat.div_add_mod t (2 ^ r)
      have e3 : L + 𝔹 ^ k * t + 𝔹 ^ (k + 1) * H =
          (L + 𝔹 ^ k * (t % 2 ^ r)) + (𝔹 ^ k * 2 ^ r) * (t / 2 ^ r + 2 ^ (32 - r) * H) := by
        have : 𝔹 ^ (k + 1) * H = 𝔹 ^ k * (2 ^ (32 - r) * 2 ^ r) * H := by rw [Nat.pow_succ, ← hkB]
        rw [this]
        conv => lhs; rw [← ht]
        ring
      rw [e3, Nat.add_mul_mod_self_left, Nat.mod_eq_of_lt (a := L + 𝔹 ^ k * (t % 2 ^ r))]
      have h5 : t % 2 ^ r + 1 ≤ 2 ^ r := Nat.mod_lt _ (Nat.pow_pos (by decide))
      have h6 : 𝔹 ^ k * (t % 2 ^ r + 1) ≤ 𝔹 ^ k * 2 ^ r := Nat.mul_le_mul_left _ h5
      rw [Nat.mul_add, Nat.mul_one, Nat.add_comm] at h6
      exact Nat.lt_of_lt_of_le (Nat.add_lt_add_right hlt _) h6
    · intro hr0 _
      show (spliceL C.buf k [C.buf[k] % 2 ^ r])[k]? = _
      rw [getElem?_spliceL, List.getElem?_eq_getElem hkl, hr0]; simp [Nat.mod_one]
  · refine wp_pure (hQ m C ?_ nC rfl rfl ?_ fun _ hh => hh (by omega))
    · rw [upd_same _ hz]; exact h
    · rw [Nat.mod_eq_of_lt]
      have h1 := mag_lt (h.okd hz) hle
      have h2 : 𝔹 ^ C.used ≤ 𝔹 ^ k := pow_le' (by omega)
      have h3 : 𝔹 ^ k * 1 ≤ 𝔹 ^ k * 2 ^ r := Nat.mul_le_mul_left _ Nat.one_le_two_pow
      rw [hpow]; omega

end Imath
