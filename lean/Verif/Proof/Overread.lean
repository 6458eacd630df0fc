import Verif.Proof.Overrun

/-!
# What the functions for input do with too short an array or an unterminated text
-/

namespace Imath

variable {env : Env} {E : Fault → Prop} {m : Mem} {s : Id → Option Cell} {σ : Id → Option Int} {z : Id} {v : Int}

theorem wp_bget_ub {l : Bytes} {i : Nat} {Q : Nat → Mem → Prop} (h : l.length ≤ i) (hu : E .ub) : wp env E (bget l i) Q m := by
  refine wp_fault (f := .ub) ?_ hu
  unfold bget
  rw [List.getElem?_eq_none h]

theorem readBytes_fault {dz : Ptr} (hE : Ref env E) (hu : E .ub) (ho : z.own = true) : ∀ (n : Nat) {Y X : Bytes} {m : Mem} {C : Cell}
    {Q : Unit → Mem → Prop},
    X.length < n → dz = ⟨C.base, 0⟩ → Rep m (upd s z (some C)) → Norm C → Byte X → C.mag = beVal Y → Byte Y →
    256 ^ (Y.length + n) ≤ 𝔹 ^ C.buf.length →
    wp env E (readBytes z dz (Y ++ X) n Y.length) Q m := by
  intro n
  induction n with
  | zero => intro Y X m C Q hl; omega
  | succ n ih =>
    intro Y X m C Q hl hdz h nC hX hm hY hcap
    have hYl := beVal_lt hY
    have hcap1 : 256 ^ (Y.length + 1) ≤ 𝔹 ^ C.buf.length :=
      Nat.le_trans (Nat.pow_le_pow_right (by norm_num) (by omega)) hcap
    have hc : C.mag * 256 < 𝔹 ^ C.buf.length := by rw [hm]; rw [Nat.pow_succ] at hcap1; omega
    unfold readBytes
    rcases X with _ | ⟨x, X⟩
    · refine readStep hE h ho nC (x := 0) (by norm_num) hc fun m1 C1 d h1 hb1 hget m2 hwr hm2 => ?_
      exact wp_bind (wp_bget_ub (by simp) hu)
    have hx : x < 256 := hX x (by simp)
    refine readStep hE h ho nC hx hc fun m1 C1 d h1 hb1 hget m2 hwr hm2 => ?_
    subst hm2
    refine wp_bind (wp_bget (x := x) getElem?_append_len ?_)
    rw [hdz]
    refine wp_bind (wp_rd hget ?_)
    refine wp_bind (hwr _ fun m3 C3 h3 n3 s3 b3 l3 v3 => ?_)
    have := ih (Y := Y ++ [x]) (X := X) (Q := Q) (by simpa using hl) (by rw [hdz, b3]) h3 n3
      (fun b hb => hX b (by simp [hb])) (by rw [v3, hm, beVal_append_single]; omega)
      (by rw [Byte.append, Byte.single]; exact ⟨hY, hx⟩)
      (by rw [l3]; simp only [List.length_append, List.length_singleton]; rw [Nat.add_assoc, Nat.add_comm 1]; exact hcap)
    rw [hdz] at this
    simpa using this

theorem readBytesU_fault (hE : Ref env E) (hu : E .ub) (ho : z.own = true) : ∀ (n : Nat) {Y X : Bytes} {m : Mem} {C : Cell}
    {Q : Unit → Mem → Prop},
    X.length < n → Rep m (upd s z (some C)) → Norm C → Byte X → C.mag = beVal Y → Byte Y →
    256 ^ (Y.length + n) ≤ 𝔹 ^ C.buf.length →
    wp env E (readBytesU z (Y ++ X) n Y.length) Q m := by
  intro n
  induction n with
  | zero => intro Y X m C Q hl; omega
  | succ n ih =>
    intro Y X m C Q hl h nC hX hm hY hcap
    have hYl := beVal_lt hY
    have hcap1 : 256 ^ (Y.length + 1) ≤ 𝔹 ^ C.buf.length :=
      Nat.le_trans (Nat.pow_le_pow_right (by norm_num) (by omega)) hcap
    have hc : C.mag * 256 < 𝔹 ^ C.buf.length := by rw [hm]; rw [Nat.pow_succ] at hcap1; omega
    unfold readBytesU
    rcases X with _ | ⟨x, X⟩
    · refine readStep hE h ho nC (x := 0) (by norm_num) hc fun m1 C1 d h1 hb1 hget m2 hwr hm2 => ?_
      exact wp_bind (wp_bget_ub (by simp) hu)
    have hx : x < 256 := hX x (by simp)
    refine readStep hE h ho nC hx hc fun m1 C1 d h1 hb1 hget m2 hwr hm2 => ?_
    subst hm2
    refine wp_bind (wp_bget (x := x) getElem?_append_len ?_)
    refine wp_bind (wp_DIGITS h1 (upd_self _ _ _) ?_)
    rw [show C1.ptr = ⟨C.base, 0⟩ by rw [← hb1]; rfl]
    refine wp_bind (wp_rd hget ?_)
    refine wp_bind (hwr _ fun m3 C3 h3 n3 s3 b3 l3 v3 => ?_)
    have := ih (Y := Y ++ [x]) (X := X) (Q := Q) (by simpa using hl) h3 n3
      (fun b hb => hX b (by simp [hb])) (by rw [v3, hm, beVal_append_single]; omega)
      (by rw [Byte.append, Byte.single]; exact ⟨hY, hx⟩)
      (by rw [l3]; simp only [List.length_append, List.length_singleton]; rw [Nat.add_assoc, Nat.add_comm 1]; exact hcap)
    simpa using this

theorem mp_int_read_unsigned_fault {Q : Int → Mem → Prop} {X : Bytes} {len : Int}
    (hE : Ref env E) (hu : E .ub) (hX : Byte X) (hl : X.length < len) (h2 : len < 268435456)
    (ho : z.own = true) (h : R2 m σ) (hz : σ z = some v) : wp env E (mp_int_read_unsigned z X len) Q m := by
  unfold mp_int_read_unsigned
  obtain ⟨s, hr, hg⟩ := h
  obtain ⟨C, hC, gC⟩ := hg.get hz
  obtain ⟨n, hn⟩ : ∃ n : Nat, len = n := ⟨len.toNat, by omega⟩
  have b1 : -2147483648 ≤ len * 8 := by omega
  have b2 : len * 8 ≤ 2147483647 := by omega
  refine wp_bind (wp_cassert (decide_eq_true (by omega)) ?_)
  refine wp_bind (wp_cint b1 b2 ?_)
  rw [need_u32 (n := n) (by omega) (by omega)]
  refine wp_bind (s_pad_spec hE hr hC ho (by omega) fun m1 C1 r1 gr1 l1 => ?_)
  refine wp_if_pos rfl ?_
  refine wp_bind (mp_int_zero_rep r1 (upd_self _ _ _) fun m2 C2 r2 g2 l2 _ => ?_)
  rw [upd_upd] at r2
  have hm2 : C2.mag = 0 := by have := g2.natAbs; simpa using this.symm
  rw [show len.toNat = n by omega]
  exact wp_bind (readBytesU_fault hE hu ho n (Y := []) (X := X) (by omega) r2 g2.norm hX hm2 (by intro b hb; simp at hb)
    (by rw [l2]; rw [List.length_nil, Nat.zero_add]; exact need_cap _ l1))

theorem mp_int_read_binary_fault {Q : Int × Bytes → Mem → Prop} {X : Bytes} {len : Int}
    (hE : Ref env E) (hu : E .ub) (hX : Byte X) (hl : X.length < len) (h2 : len < 268435456)
    (ho : z.own = true) (h : R2 m σ) (hz : σ z = some v) : wp env E (mp_int_read_binary z X len) Q m := by
  unfold mp_int_read_binary
  obtain ⟨s, hr, hg⟩ := h
  obtain ⟨C, hC, gC⟩ := hg.get hz
  obtain ⟨n, hn⟩ : ∃ n : Nat, len = n := ⟨len.toNat, by omega⟩
  have b1 : -2147483648 ≤ len * 8 := by omega
  have b2 : len * 8 ≤ 2147483647 := by omega
  refine wp_bind (wp_cassert (decide_eq_true (by omega)) ?_)
  refine wp_bind (wp_cint b1 b2 ?_)
  rw [need_u32 (n := n) (by omega) (by omega)]
  refine wp_bind (s_pad_spec hE hr hC ho (by omega) fun m1 C1 r1 gr1 l1 => ?_)
  refine wp_if_pos rfl ?_
  refine wp_bind (mp_int_zero_rep r1 (upd_self _ _ _) fun m2 C2 r2 g2 l2 _ => ?_)
  rw [upd_upd] at r2
  have hm2 : C2.mag = 0 := by have := g2.natAbs; simpa using this.symm
  rw [show len.toNat = n by omega]
  rcases hXe : X with _ | ⟨x, Y⟩
  · exact wp_bind (wp_bget_ub (by simp) hu)
  rw [← hXe]
  refine wp_bind (wp_bget (x := x) (by rw [hXe]; rfl) ?_)
  refine wp_bind (wp_cif (fun hc => ?_) (fun hc => ?_))
  · refine wp_bind (wp_setSign r2 (upd_self _ _ _) fun m3 r3 => ?_)
    obtain ⟨k, rfl⟩ : ∃ k, n = k + 1 := ⟨n - 1, by omega⟩
    unfold s_2comp comp2Loop
    exact wp_bind (wp_bget_ub (by omega) hu)
  · refine wp_pure (wp_bind (wp_DIGITS r2 (upd_self _ _ _) ?_))
    exact wp_bind (readBytes_fault hE hu ho n (Y := []) (X := X) (by omega) rfl r2 g2.norm hX hm2 (by intro b hb; simp at hb)
      (by rw [l2, List.length_nil, Nat.zero_add]; exact need_cap _ l1))

/-! ### Limits that are not positive -/

theorem tobinDigits_zero {Q : Nat × Bytes × Nat → Mem → Prop} {uz : Nat} {dz : Ptr} {buf : Bytes} (hQ : Q (uz, buf, 0) m) :
    wp env E (tobinDigits 0 uz dz buf 0) Q m := by
  cases uz with
  | zero => exact wp_pure hQ
  | succ n => exact wp_if_neg (by omega) (wp_pure hQ)

theorem mp_int_to_binary_zero {Q : Int × Bytes → Mem → Prop} {buf : Bytes} {limit : Int} (hu : E .ub) (hl : limit ≤ 0)
    (h : R2 m σ) (hz : σ z = some v) : wp env E (mp_int_to_binary z buf limit) Q m := by
  unfold mp_int_to_binary s_tobin
  obtain ⟨s, hr, hg⟩ := h
  obtain ⟨C, hC, gC⟩ := hg.get hz
  refine wp_bind (wp_bind (wp_USED hr hC ?_))
  refine wp_bind (wp_DIGITS hr hC ?_)
  rw [Int.toNat_of_nonpos hl]
  refine wp_bind (tobinDigits_zero ?_)
  exact wp_bind (wp_fault (f := .ub) rfl hu)

/-! ### Texts without terminator -/

theorem skipSpace_any {Q : Nat → Mem → Prop} {str : Bytes} (hu : E .ub) (hQ : ∀ j, j < str.length → Q j m) :
    ∀ f i, i ≤ str.length → str.length < f + i → wp env E (skipSpace str f i) Q m := by
  intro f
  induction f with
  | zero => intro i h1 h2; omega
  | succ f ih =>
    intro i h1 h2
    unfold skipSpace
    by_cases hi : i < str.length
    · refine wp_bind (wp_bget (List.getElem?_eq_getElem hi) ?_)
      exact wp_ite (fun _ => ih _ (by omega) (by omega)) fun _ => wp_pure (hQ i hi)
    · exact wp_bind (wp_bget_ub (by omega) hu)

theorem skipZero_any {Q : Nat → Mem → Prop} {str : Bytes} {r : Nat} (hu : E .ub) (hQ : ∀ j, j < str.length → Q j m) :
    ∀ f i, i ≤ str.length → str.length < f + i → wp env E (skipZero str r f i) Q m := by
  intro f
  induction f with
  | zero => intro i h1 h2; omega
  | succ f ih =>
    intro i h1 h2
    unfold skipZero
    by_cases hi : i < str.length
    · refine wp_bind (wp_bget (List.getElem?_eq_getElem hi) ?_)
      exact wp_ite (fun _ => ih _ (by omega) (by omega)) fun _ => wp_pure (hQ i hi)
    · exact wp_bind (wp_bget_ub (by omega) hu)

theorem strlen_fault {Q : Nat → Mem → Prop} {str : Bytes} (hu : E .ub) (h0 : 0 ∉ str) :
    ∀ f i, i ≤ str.length → str.length < f + i → wp env E (strlen str f i) Q m := by
  intro f
  induction f generalizing Q with
  | zero => intro i h1 h2; omega
  | succ f ih =>
    intro i h1 h2
    unfold strlen
    by_cases hi : i < str.length
    · refine wp_bind (wp_bget (List.getElem?_eq_getElem hi) ?_)
      exact wp_if_neg (fun h => h0 (h ▸ List.getElem_mem hi)) (wp_bind (ih _ (by omega) (by omega)))
    · exact wp_bind (wp_bget_ub (by omega) hu)

theorem mp_int_read_cstring_fault {Q : Int × Nat → Mem → Prop} {str : Bytes} {r : Nat} (hu : E .ub) (hr : 2 ≤ r ∧ r ≤ 36)
    (h0 : 0 ∉ str) (h : R2 m σ) (hz : σ z = some v) : wp env E (mp_int_read_cstring z r str) Q m := by
  unfold mp_int_read_cstring
  obtain ⟨s, hrep, hg⟩ := h
  obtain ⟨C, hC, gC⟩ := hg.get hz
  refine wp_bind (wp_cassert (decide_eq_true hr) ?_)
  refine wp_bind (skipSpace_any hu (fun j hj => ?_) _ _ (by omega) (by omega))
  refine wp_bind (wp_bget (List.getElem?_eq_getElem hj) ?_)
  refine wp_bind (wp_setSign hrep hC fun m1 h1 => ?_)
  refine wp_bind (skipZero_any hu (fun k hk => ?_) _ _ (by split <;> omega) (by split <;> omega))
  exact wp_bind (strlen_fault hu h0 _ _ (by omega) (by omega))

end Imath
