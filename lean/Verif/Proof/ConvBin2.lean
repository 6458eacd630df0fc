import Verif.Proof.ConvBin

/-! # Byte arrays, continued -/

namespace Imath

variable {env : Env} {E : Fault → Prop} {m : Mem} {s : Id → Option Cell} {σ : Id → Option Int} {z : Id} {v : Int}
  {C : Cell}

theorem leB_val (n : Nat) : beVal (leB n).reverse = n := by
  rw [beVal_reverse]
  unfold leB; split
  · rename_i h; rw [h, Nat.ofDigits_singleton]
  · exact Nat.ofDigits_digits _ _

theorem pow256 (k : Nat) : 256 ^ k = 2 ^ (8 * k) := by
  rw [Nat.pow_mul]

theorem leB_len {n : Nat} (h : n ≠ 0) : 256 ^ ((leB n).length - 1) ≤ n ∧ n < 256 ^ (leB n).length := by
  have hl : leB n = Nat.digits 256 n := by unfold leB; rw [if_neg h]
  rw [hl]
  refine ⟨?_, Nat.lt_base_pow_length_digits (by norm_num)⟩
  have h1 := Nat.base_pow_length_digits_le 256 n (by norm_num) h
  have h2 := digits_len_pos (r := 256) (by norm_num) h
  obtain ⟨k, hk⟩ : ∃ k, (Nat.digits 256 n).length = k + 1 := ⟨_, (Nat.sub_add_cancel h2).symm⟩
  rw [hk, Nat.pow_succ] at h1
  rw [hk, Nat.add_sub_cancel]
  omega

theorem leB_size {n : Nat} (h : n ≠ 0) :
    8 * (leB n).length - 8 < Nat.size n ∧ Nat.size n ≤ 8 * (leB n).length ∧
    (128 ≤ (leB n).getLastD 0 ↔ Nat.size n = 8 * (leB n).length) := by
  obtain ⟨h1, h2⟩ := leB_len h
  have hl := List.length_pos_of_ne_nil (leB_ne n)
  rw [pow256] at h1 h2
  have e1 : 8 * ((leB n).length - 1) < Nat.size n := Nat.lt_size.2 h1
  have e2 : Nat.size n ≤ 8 * (leB n).length := Nat.size_le.2 h2
  refine ⟨by omega, e2, ?_⟩
  have hrev : (leB n).reverse ≠ [] := by simp [leB_ne]
  obtain ⟨x, X, hX⟩ := List.exists_cons_of_ne_nil hrev
  have hx : (leB n).getLastD 0 = x := by
    rw [List.getLastD_eq_getLast?, ← List.head?_reverse, hX]; rfl
  have hlen : X.length = (leB n).length - 1 := by
    have := congrArg List.length hX
    simp at this; omega
  have hb : Byte (x :: X) := by
    rw [← hX]; intro b hb; exact leB_byte n b (List.mem_reverse.1 hb)
  rw [hx, head_ge_iff hb, ← hX, leB_val, hlen, pow256, show (128 : Nat) = 2 ^ 7 by norm_num, ← Nat.pow_add, ← Nat.lt_size]
  omega

theorem tobOut_false (n : Nat) : tobOut false n = leB n := by simp [tobOut]

/-- Number of bytes for a magnitude. -/
theorem leB_length (n : Nat) : (leB n).length = max 1 ((Nat.size n + 7) / 8) := by
  by_cases h : n = 0
  · subst h; simp [leB]
  · obtain ⟨h1, h2, _⟩ := leB_size h
    have := List.length_pos_of_ne_nil (leB_ne n)
    omega

theorem tobOut_true_length (n : Nat) : (tobOut true n).length = Nat.size n / 8 + 1 := by
  by_cases h : n = 0
  · subst h; simp [tobOut, leB]
  · obtain ⟨h1, h2, h3⟩ := leB_size h
    have := List.length_pos_of_ne_nil (leB_ne n)
    unfold tobOut
    by_cases hc : 128 ≤ (leB n).getLastD 0
    · rw [if_pos ⟨rfl, hc⟩]
      have := h3.1 hc
      simp; omega
    · rw [if_neg (by tauto)]
      have : Nat.size n ≠ 8 * (leB n).length := fun he => hc (h3.2 he)
      omega

theorem tobOut_true_val (n : Nat) : beVal (tobOut true n).reverse = n := by
  unfold tobOut; split
  · rw [List.reverse_append, List.reverse_singleton, List.singleton_append, beVal_cons, leB_val]; simp
  · exact leB_val n

/-- The value written leaves the sign bit clear. -/
theorem tobOut_true_lt (n : Nat) : 2 * n < 256 ^ (tobOut true n).length := by
  rw [tobOut_true_length, pow256]
  have h1 := Nat.lt_size_self n
  have h2 : 2 ^ (Nat.size n + 1) ≤ 2 ^ (8 * (Nat.size n / 8 + 1)) := Nat.pow_le_pow_right (by norm_num) (by omega)
  rw [Nat.pow_succ] at h2
  omega

theorem twosVal_eq {X : Bytes} (hb : Byte X) (hne : X ≠ []) :
    twosVal X = if 256 ^ X.length ≤ 2 * beVal X then (beVal X : Int) - 256 ^ X.length else beVal X := by
  obtain ⟨x, Y, rfl⟩ := List.exists_cons_of_ne_nil hne
  unfold twosVal
  have := head_ge_iff hb
  have e : 256 ^ (x :: Y).length = 256 ^ Y.length * 256 := by rw [List.length_cons, Nat.pow_succ]
  by_cases h : 128 ≤ x
  · have h2 := this.1 h
    rw [if_pos (show 128 ≤ (x :: Y).headD 0 from h), if_pos (by omega)]
  · have h2 : ¬ _ := fun hc => h (this.2 hc)
    rw [if_neg (show ¬ 128 ≤ (x :: Y).headD 0 from h), if_neg (by omega)]

/-- The bytes of low order. -/
theorem beVal_take_reverse {L : Bytes} {n : Nat} (hb : Byte L) (hv : beVal L.reverse = n) (k : Nat) :
    beVal (L.take k).reverse = n % 256 ^ k := by
  rw [beVal_reverse] at hv ⊢
  rw [← List.take_append_drop k L, Nat.ofDigits_append] at hv
  have h1 : Byte (L.take k) := fun b hb' => hb b (List.mem_of_mem_take hb')
  have h2 := Nat.ofDigits_lt_base_pow_length (b := 256) (by norm_num) h1
  have h3 : 256 ^ (L.take k).length ≤ 256 ^ k := Nat.pow_le_pow_right (by norm_num) (by rw [List.length_take]; omega)
  by_cases hk : k ≤ L.length
  · rw [List.length_take, Nat.min_eq_left hk] at hv
    rw [← hv, Nat.add_mul_mod_self_left, Nat.mod_eq_of_lt (by omega)]
  · rw [List.drop_eq_nil_of_le (by omega), Nat.ofDigits_nil, Nat.mul_zero, Nat.add_zero] at hv
    rw [hv] at h2 ⊢
    rw [Nat.mod_eq_of_lt (by omega)]

/-- Two's complement of the magnitude of a negative integer. -/
theorem neg_emod {v : Int} {N : Nat} (hv : v < 0) (hN : 0 < N) (h0 : v.natAbs % N ≠ 0) :
    ((N - v.natAbs % N : Nat) : Int) = v % (N : Int) := by
  have h1 := Nat.mod_lt v.natAbs hN
  have h2 := Nat.div_add_mod v.natAbs N
  have h3 : v = ((N - v.natAbs % N : Nat) : Int) + (N : Int) * (-(((v.natAbs / N : Nat) : Int) + 1)) := by
    have e : (v.natAbs : Int) = -v := by omega
    have h4 : ((N * (v.natAbs / N) + v.natAbs % N : Nat) : Int) = -v := by rw [h2]; exact e
    rw [Int.ofNat_sub h1.le]
    generalize v.natAbs / N = q at *
    generalize v.natAbs % N = t at *
    push_cast at h4
    have : (N : Int) * (-((q : Int) + 1)) = -((N : Int) * q) - N := by ring
    rw [this]; omega
  have h5 : N - v.natAbs % N < N := by omega
  generalize N - v.natAbs % N = t at *
  rw [h3, Int.add_mul_emod_self_left, Int.emod_eq_of_lt (by omega) (by omega)]

/-- `mp_int_to_binary`. -/
theorem mp_int_to_binary_spec {Q : Int × Bytes → Mem → Prop} {buf : Bytes} {limit : Int}
    (hlim : 1 ≤ limit) (h : R2 m σ) (hz : σ z = some v)
    (hbuf : min limit ((Nat.size v.natAbs / 8 + 1 : Nat) : Int) ≤ buf.length)
    (hQ1 : ∀ X, ((Nat.size v.natAbs / 8 + 1 : Nat) : Int) ≤ limit → X.length = Nat.size v.natAbs / 8 + 1 → Byte X →
      twosVal X = v → Q (MP_OK, X ++ buf.drop X.length) m)
    (hQ2 : ∀ X, limit < (Nat.size v.natAbs / 8 + 1 : Nat) → (X.length : Int) = limit → Byte X →
      (beVal X : Int) = v % 256 ^ X.length → Q (MP_TRUNC, X ++ buf.drop X.length) m) :
    wp env E (mp_int_to_binary z buf limit) Q m := by
  unfold mp_int_to_binary
  have hlen := tobOut_true_length v.natAbs
  have hval := tobOut_true_val v.natAbs
  have hlt := tobOut_true_lt v.natAbs
  have hby := tobOut_byte true v.natAbs
  rw [← hlen] at hbuf hQ1 hQ2
  refine wp_bind (s_tobin_spec hlim h hz hbuf (fun hle => ?_) (fun hgt => ?_))
  · generalize tobOut true v.natAbs = L at *
    have hL1 : 1 ≤ L.length := by omega
    refine wp_bind (MP_SIGN_spec h hz ?_)
    obtain ⟨X, hX⟩ : ∃ X, X = L.reverse := ⟨_, rfl⟩
    have hXl : X.length = L.length := by rw [hX]; simp
    rw [← hX] at hval ⊢
    have hXb : Byte X := by rw [hX]; intro b hb; exact hby b (List.mem_reverse.1 hb)
    have hXne : X ≠ [] := by rintro rfl; simp at hXl; omega
    refine wp_bind (wp_cif (fun hn => ?_) (fun hn => ?_))
    · have hv : v < 0 := by simpa using hn
      refine s_2comp_spec hXl hXb fun X' hl' hb' hv' => wp_pure ?_
      have hval' : beVal X' = 256 ^ L.length - beVal X := hv'.1 (by omega)
      have hl' : X'.length = L.length := hl'
      have hX'ne : X' ≠ [] := by rintro rfl; simp at hl'; omega
      have := hQ1 X' hle hl' hb' ?_
      · rw [hl'] at this; exact this
      · rw [twosVal_eq hb' hX'ne, hl', hval', hval, if_pos (by omega)]
        have : (((256 ^ L.length - v.natAbs : Nat)) : Int) = 256 ^ L.length - v.natAbs := by
          rw [Nat.cast_sub (by omega)]; push_cast; rfl
        rw [this]
        omega
    · have hv : ¬ v < 0 := by simpa using hn
      refine wp_pure (wp_pure ?_)
      have := hQ1 X hle hXl hXb ?_
      · rw [hXl] at this; exact this
      · rw [twosVal_eq hXb hXne, hXl, hval, if_neg (by omega)]
        omega
  · refine wp_bind (MP_SIGN_spec h hz ?_)
    obtain ⟨X, hX⟩ : ∃ X, X = ((tobOut true v.natAbs).take limit.toNat).reverse := ⟨_, rfl⟩
    have hXl : X.length = limit.toNat := by rw [hX, List.length_reverse, List.length_take]; omega
    have hXb : Byte X := by
      rw [hX]; intro b hb; exact hby b (List.mem_of_mem_take (List.mem_reverse.1 hb))
    have hXv : beVal X = v.natAbs % 256 ^ X.length := by
      rw [hXl, hX]; exact beVal_take_reverse hby hval _
    rw [← hX, ← hXl]
    refine wp_bind (wp_cif (fun hn => ?_) (fun hn => ?_))
    · have hv : v < 0 := by simpa using hn
      refine s_2comp_spec rfl hXb fun X' hl' hb' hv' => wp_pure ?_
      have hl' : X'.length = X.length := hl'
      have := hQ2 X' hgt (by omega) hb' ?_
      · rw [hl'] at this; exact this
      · rw [hl']
        have hp : 0 < 256 ^ X.length := by positivity
        by_cases h0 : beVal X = 0
        · have hz' := hv'.2 h0
          rw [hz']
          rw [h0] at hXv
          have hd : ((256 ^ X.length : Nat) : Int) ∣ v := Int.natCast_dvd.2 (Nat.dvd_of_mod_eq_zero hXv.symm)
          push_cast at hd
          rw [Int.emod_eq_zero_of_dvd hd]; rfl
        · rw [hv'.1 h0, hXv]
          rw [hXv] at h0
          have := neg_emod hv hp h0
          push_cast at this ⊢
          exact this
    · have hv : ¬ v < 0 := by simpa using hn
      refine wp_pure (wp_pure (hQ2 X hgt (by omega) hXb ?_))
      rw [hXv]; push_cast
      rw [abs_of_nonneg (by omega)]

/-- `mp_int_to_unsigned`. -/
theorem mp_int_to_unsigned_spec {Q : Int × Bytes → Mem → Prop} {buf : Bytes} {limit : Int}
    (hlim : 1 ≤ limit) (h : R2 m σ) (hz : σ z = some v)
    (hbuf : min limit ((max 1 ((Nat.size v.natAbs + 7) / 8) : Nat) : Int) ≤ buf.length)
    (hQ1 : ∀ X, ((max 1 ((Nat.size v.natAbs + 7) / 8) : Nat) : Int) ≤ limit →
      X.length = max 1 ((Nat.size v.natAbs + 7) / 8) → Byte X →
      beVal X = v.natAbs → Q (MP_OK, X ++ buf.drop X.length) m)
    (hQ2 : ∀ X, limit < (max 1 ((Nat.size v.natAbs + 7) / 8) : Nat) → (X.length : Int) = limit → Byte X →
      beVal X = v.natAbs % 256 ^ X.length → Q (MP_TRUNC, X ++ buf.drop X.length) m) :
    wp env E (mp_int_to_unsigned z buf limit) Q m := by
  unfold mp_int_to_unsigned
  have hlen := leB_length v.natAbs
  rw [← hlen, ← tobOut_false] at hbuf hQ1 hQ2
  refine wp_bind (s_tobin_spec hlim h hz hbuf (fun hle => ?_) (fun hgt => ?_))
  · refine wp_pure ?_
    have := hQ1 (tobOut false v.natAbs).reverse hle (by simp)
      (by intro b hb; exact tobOut_byte false _ b (List.mem_reverse.1 hb)) (by rw [tobOut_false]; exact leB_val _)
    simpa using this
  · obtain ⟨X, hX⟩ : ∃ X, X = ((tobOut false v.natAbs).take limit.toNat).reverse := ⟨_, rfl⟩
    have hXl : X.length = limit.toNat := by rw [hX, List.length_reverse, List.length_take]; omega
    rw [← hX, ← hXl]
    refine wp_pure (hQ2 X hgt (by omega) ?_ ?_)
    · rw [hX]; intro b hb; exact tobOut_byte false _ b (List.mem_of_mem_take (List.mem_reverse.1 hb))
    · rw [hXl, hX]; exact beVal_take_reverse (tobOut_byte false _) (by rw [tobOut_false]; exact leB_val _) _

theorem mp_int_unsigned_len_spec {Q : Int → Mem → Prop} (h : R2 m σ) (hz : σ z = some v)
    (hQ : Q ((max 1 ((Nat.size v.natAbs + 7) / 8) : Nat) : Int) m) :
    wp env E (mp_int_unsigned_len z) Q m := by
  unfold mp_int_unsigned_len
  have hs := h.size_le hz
  refine wp_bind (mp_int_count_bits_spec h hz (fun h0 => ?_) (fun h0 => ?_))
  · refine wp_if_neg (by omega) (wp_bind (wp_cint (by omega) (by omega) (wp_pure ?_)))
    rw [show ((1 : Int) + 7) / 8 = ((max 1 ((Nat.size v.natAbs + 7) / 8) : Nat) : Int) by rw [h0]; simp]
    exact hQ
  · have hs1 : 1 ≤ Nat.size v.natAbs := Nat.size_pos.2 (by omega)
    have b1 : -2147483648 ≤ (Nat.size v.natAbs : Int) + 7 := by omega
    have b2 : (Nat.size v.natAbs : Int) + 7 ≤ 2147483647 := by omega
    refine wp_if_neg (by omega) ?_
    have e : ((Nat.size v.natAbs : Int) + 7) / 8 = ((max 1 ((Nat.size v.natAbs + 7) / 8) : Nat) : Int) := by omega
    rw [← e] at hQ
    generalize (Nat.size v.natAbs : Int) + 7 = N at *
    exact wp_bind (wp_cint b1 b2 (wp_pure hQ))

theorem mp_int_binary_len_spec {Q : Int → Mem → Prop} (h : R2 m σ) (hz : σ z = some v)
    (hQ : Q ((Nat.size v.natAbs / 8 + 1 : Nat) : Int) m) :
    wp env E (mp_int_binary_len z) Q m := by
  unfold mp_int_binary_len
  have hs := h.size_le hz
  refine wp_bind (mp_int_count_bits_spec h hz (fun h0 => ?_) (fun h0 => ?_))
  · refine wp_if_neg (by omega) (wp_bind (mp_int_unsigned_len_spec h hz (wp_bind (wp_cint (by omega) (by omega) ?_))))
    refine wp_if_neg (by rw [h0]; simp) (wp_pure ?_)
    rw [show ((max 1 ((Nat.size v.natAbs + 7) / 8) : Nat) : Int) = ((Nat.size v.natAbs / 8 + 1 : Nat) : Int) by
      rw [h0]; simp]
    exact hQ
  · have hs1 : 1 ≤ Nat.size v.natAbs := Nat.size_pos.2 (by omega)
    refine wp_if_neg (by omega) (wp_bind (mp_int_unsigned_len_spec h hz (wp_bind (wp_cint (by omega) (by omega) ?_))))
    refine wp_ite (fun he => ?_) (fun he => ?_)
    · have b1 : -2147483648 ≤ ((max 1 ((Nat.size v.natAbs + 7) / 8) : Nat) : Int) + 1 := by omega
      have b2 : ((max 1 ((Nat.size v.natAbs + 7) / 8) : Nat) : Int) + 1 ≤ 2147483647 := by omega
      have e : ((max 1 ((Nat.size v.natAbs + 7) / 8) : Nat) : Int) + 1 = ((Nat.size v.natAbs / 8 + 1 : Nat) : Int) := by
        omega
      rw [← e] at hQ
      generalize ((max 1 ((Nat.size v.natAbs + 7) / 8) : Nat) : Int) + 1 = N at *
      exact wp_cint b1 b2 hQ
    · refine wp_pure ?_
      rw [show ((max 1 ((Nat.size v.natAbs + 7) / 8) : Nat) : Int) = ((Nat.size v.natAbs / 8 + 1 : Nat) : Int) by omega]
      exact hQ

/-! ### Input -/

theorem or_byte {d x : Nat} (hd : d % 256 = 0) (hx : x < 256) : d ||| x = d + x := by
  have := Nat.shiftLeft_add_eq_or_of_lt (i := 8) (b := x) (by simpa using hx) (d / 256)
  rw [Nat.shiftLeft_eq, show d / 256 * 2 ^ 8 = d from Nat.div_mul_cancel (Nat.dvd_of_mod_eq_zero hd)] at this
  exact this.symm

/-- One byte: shift left by 8 bits and put the byte into the low digit. -/
theorem readStep {α : Type} {Q : α → Mem → Prop} {k : Bool → M α} {x : Nat} (hE : Ref env E) (h : Rep m (upd s z (some C))) (ho : z.own = true)
    (nC : Norm C) (hx : x < 256) (hcap : C.mag * 256 < 𝔹 ^ C.buf.length)
    (hQ : ∀ m1 C1 d, Rep m1 (upd s z (some C1)) → C1.base = C.base → m1.get C.base 0 = some d →
      (∀ m2, (∀ Q2 : Unit → Mem → Prop, (∀ m' C', Rep m' (upd s z (some C')) → Norm C' → C'.neg = C.neg → C'.base = C.base →
        C'.buf.length = C.buf.length → C'.mag = C.mag * 256 + x → Q2 () m') → wp env E (wr ⟨C.base, 0⟩ (d ||| x)) Q2 m2) → m2 = m1 →
        wp env E (k true) Q m2)) :
    wp env E (s_qmul z 8 >>= k) Q m := by
  refine wp_bind (s_qmul_rep' hE h (upd_self _ _ _) ho nC (by norm_num) fun m1 C1 h1 n1 s1 l1 v1 hb => ?_)
  rw [upd_upd] at h1
  obtain ⟨hb1, hb2⟩ := hb (by norm_num) (by simpa using hcap)
  have hl1 := (h1.okl (upd_self _ _ _)).1
  obtain ⟨d, ds, hds⟩ : ∃ d ds, C1.buf = d :: ds := List.exists_cons_of_length_pos (by omega)
  have hat := h1.at (upd_self _ _ _)
  have hdig := h1.okd (upd_self _ _ _)
  have hd0 : d < 𝔹 := by rw [hds] at hdig; exact (Dig_cons.1 hdig).1
  have hmag : C1.mag = d + 𝔹 * val (ds.take (C1.used - 1)) := by
    rw [Cell.mag, hds]
    obtain ⟨u, hu⟩ : ∃ u, C1.used = u + 1 := ⟨C1.used - 1, by have := n1.pos; omega⟩
    rw [hu, List.take_succ_cons, val_cons, Nat.add_sub_cancel]
  have hdm : d % 256 = 0 := by
    have : C1.mag % 256 = 0 := by rw [v1]; simp
    omega
  refine hQ m1 C1 d h1 hb1 ?_ m1 (fun Q2 hQ2 => ?_) rfl
  · have := hat 0 d (by rw [hds]; rfl)
    rw [← hb1]; simpa using this
  · rw [or_byte hdm hx]
    have hlt : d + x < 𝔹 := by omega
    have := wp_wrz (env := env) (E := E) (i := 0) (x := d + x) (Q := Q2) h1 (upd_self _ _ _) (by omega) hlt (fun m2 h2 => by
      rw [upd_upd] at h2
      have hbuf : spliceL C1.buf 0 [d + x] = (d + x) :: ds := by
        rw [spliceL_zero_append _ _ (by simp; omega), hds]; simp
      refine hQ2 m2 _ h2 ⟨n1.pos, ?_, ?_⟩ s1 hb1 (by simp [hb2]) ?_
      · simpa using n1.le
      · intro hu
        have := n1.top hu
        show (spliceL C1.buf 0 [d + x])[C1.used - 1]? ≠ some 0
        rw [hbuf]
        rw [hds] at this
        obtain ⟨u, hu'⟩ : ∃ u, C1.used - 1 = u + 1 := ⟨C1.used - 2, by have hh : 1 < C1.used := hu; omega⟩
        rw [hu', List.getElem?_cons_succ] at this ⊢
        exact this
      · show val ((spliceL C1.buf 0 [d + x]).take C1.used) = _
        rw [hbuf]
        obtain ⟨u, hu⟩ : ∃ u, C1.used = u + 1 := ⟨C1.used - 1, by have := n1.pos; omega⟩
        rw [hu, List.take_succ_cons, val_cons]
        rw [hu, Nat.add_sub_cancel] at hmag
        omega)
    rw [show C1.ptr.add 0 = ⟨C.base, 0⟩ by rw [← hb1]; rfl] at this
    exact this

theorem readBytes_spec {dz : Ptr} (hE : Ref env E) (ho : z.own = true) : ∀ (n : Nat) {Y X R : Bytes} {m : Mem} {C : Cell}
    {Q : Unit → Mem → Prop},
    X.length = n → dz = ⟨C.base, 0⟩ → Rep m (upd s z (some C)) → Norm C → Byte X → C.mag = beVal Y → Byte Y →
    256 ^ (Y.length + n) ≤ 𝔹 ^ C.buf.length →
    (∀ m' C', Rep m' (upd s z (some C')) → Norm C' → C'.neg = C.neg → C'.mag = beVal (Y ++ X) → Q () m') →
    wp env E (readBytes z dz (Y ++ X ++ R) n Y.length) Q m := by
  intro n
  induction n with
  | zero =>
    intro Y X R m C Q hl hdz h nC hX hm hY hcap hQ
    have : X = [] := List.eq_nil_of_length_eq_zero hl
    subst this
    exact wp_pure (hQ m C h nC rfl (by simpa using hm))
  | succ n ih =>
    intro Y X R m C Q hl hdz h nC hX hm hY hcap hQ
    obtain ⟨x, X, rfl⟩ : ∃ x X', X = x :: X' := List.exists_cons_of_length_pos (by omega)
    have hx : x < 256 := hX x (by simp)
    have hYl := beVal_lt hY
    have hcap1 : 256 ^ (Y.length + 1) ≤ 𝔹 ^ C.buf.length :=
      Nat.le_trans (Nat.pow_le_pow_right (by norm_num) (by omega)) hcap
    unfold readBytes
    refine readStep hE h ho nC hx (by rw [hm]; rw [Nat.pow_succ] at hcap1; omega) fun m1 C1 d h1 hb1 hget m2 hwr hm2 => ?_
    subst hm2
    refine wp_bind (wp_bget (x := x) (by rw [List.append_assoc, List.cons_append]; exact getElem?_append_len) ?_)
    rw [hdz]
    refine wp_bind (wp_rd hget ?_)
    refine wp_bind (hwr _ fun m3 C3 h3 n3 s3 b3 l3 v3 => ?_)
    have := ih (Y := Y ++ [x]) (X := X) (R := R) (Q := Q) (by simpa using hl) (by rw [hdz, b3]) h3 n3
      (fun b hb => hX b (by simp [hb])) (by rw [v3, hm, beVal_append_single]; omega)
      (by rw [Byte.append, Byte.single]; exact ⟨hY, hx⟩)
      (by rw [l3]; simp only [List.length_append, List.length_singleton]; rw [Nat.add_assoc, Nat.add_comm 1]; exact hcap)
      (fun m' C' a1 a2 a3 a4 => hQ m' C' a1 a2 (a3.trans s3) (by rw [a4]; simp))
    rw [hdz] at this
    simpa using this

theorem readBytesU_spec (hE : Ref env E) (ho : z.own = true) : ∀ (n : Nat) {Y X R : Bytes} {m : Mem} {C : Cell}
    {Q : Unit → Mem → Prop},
    X.length = n → Rep m (upd s z (some C)) → Norm C → Byte X → C.mag = beVal Y → Byte Y →
    256 ^ (Y.length + n) ≤ 𝔹 ^ C.buf.length →
    (∀ m' C', Rep m' (upd s z (some C')) → Norm C' → C'.neg = C.neg → C'.mag = beVal (Y ++ X) → Q () m') →
    wp env E (readBytesU z (Y ++ X ++ R) n Y.length) Q m := by
  intro n
  induction n with
  | zero =>
    intro Y X R m C Q hl h nC hX hm hY hcap hQ
    have : X = [] := List.eq_nil_of_length_eq_zero hl
    subst this
    exact wp_pure (hQ m C h nC rfl (by simpa using hm))
  | succ n ih =>
    intro Y X R m C Q hl h nC hX hm hY hcap hQ
    obtain ⟨x, X, rfl⟩ : ∃ x X', X = x :: X' := List.exists_cons_of_length_pos (by omega)
    have hx : x < 256 := hX x (by simp)
    have hYl := beVal_lt hY
    have hcap1 : 256 ^ (Y.length + 1) ≤ 𝔹 ^ C.buf.length :=
      Nat.le_trans (Nat.pow_le_pow_right (by norm_num) (by omega)) hcap
    unfold readBytesU
    refine readStep hE h ho nC hx (by rw [hm]; rw [Nat.pow_succ] at hcap1; omega) fun m1 C1 d h1 hb1 hget m2 hwr hm2 => ?_
    subst hm2
    refine wp_bind (wp_bget (x := x) (by rw [List.append_assoc, List.cons_append]; exact getElem?_append_len) ?_)
    refine wp_bind (wp_DIGITS h1 (upd_self _ _ _) ?_)
    rw [show C1.ptr = ⟨C.base, 0⟩ by rw [← hb1]; rfl]
    refine wp_bind (wp_rd hget ?_)
    refine wp_bind (hwr _ fun m3 C3 h3 n3 s3 b3 l3 v3 => ?_)
    have := ih (Y := Y ++ [x]) (X := X) (R := R) (Q := Q) (by simpa using hl) h3 n3
      (fun b hb => hX b (by simp [hb])) (by rw [v3, hm, beVal_append_single]; omega)
      (by rw [Byte.append, Byte.single]; exact ⟨hY, hx⟩)
      (by rw [l3]; simp only [List.length_append, List.length_singleton]; rw [Nat.add_assoc, Nat.add_comm 1]; exact hcap)
      (fun m' C' a1 a2 a3 a4 => hQ m' C' a1 a2 (a3.trans s3) (by rw [a4]; simp))
    simpa using this

theorem need_cap {n : Nat} (L : Nat) (h : (n * 8 + 31) / 32 ≤ L) : 256 ^ n ≤ 𝔹 ^ L := by
  rw [pow256, show (4294967296 : Nat) = 2 ^ 32 by norm_num, ← Nat.pow_mul]
  exact Nat.pow_le_pow_right (by norm_num) (by omega)

theorem need_u32 {len : Int} {n : Nat} (hn : len = n) (hlen : n < 268435456) :
    u32 ((((len * 8).toNat) + 31) / 32) = (n * 8 + 31) / 32 := by
  subst hn
  rw [show ((n : Int) * 8).toNat = n * 8 by omega]
  unfold u32
  exact Nat.mod_eq_of_lt (by omega)

/-- `mp_int_read_unsigned`. -/
theorem mp_int_read_unsigned_spec {Q : Int → Mem → Prop} {X R : Bytes} {len : Int}
    (hE : Ref env E) (hX : Byte X) (hl : len = X.length) (h1 : 1 ≤ X.length) (h2 : X.length < 268435456)
    (ho : z.own = true) (h : R2 m σ) (hz : σ z = some v)
    (hQ : ∀ m', R2 m' (upd σ z (some (beVal X))) → Q MP_OK m') :
    wp env E (mp_int_read_unsigned z (X ++ R) len) Q m := by
  unfold mp_int_read_unsigned
  obtain ⟨s, hr, hg⟩ := h
  obtain ⟨C, hC, gC⟩ := hg.get hz
  obtain ⟨n, hn⟩ : ∃ n, n = X.length := ⟨_, rfl⟩
  have b1 : -2147483648 ≤ len * 8 := by omega
  have b2 : len * 8 ≤ 2147483647 := by omega
  refine wp_bind (wp_cassert (decide_eq_true (by omega)) ?_)
  refine wp_bind (wp_cint b1 b2 ?_)
  rw [need_u32 (n := n) (by omega) (by omega)]
  refine wp_bind (s_pad_spec hE hr hC ho (by omega) fun m1 C1 r1 gr1 l1 => ?_)
  refine wp_if_pos rfl ?_
  refine wp_bind (mp_int_zero_rep r1 (upd_self _ _ _) fun m2 C2 r2 g2 l2 _ => ?_)
  rw [upd_upd] at r2
  have hm2 : C2.mag = 0 := by have := g2.natAbs; simpa using this.symm
  have key := readBytesU_spec (env := env) (E := E) (z := z) hE ho n (Y := []) (X := X) (R := R)
    (Q := fun _ m3 => R2 m3 (upd σ z (some (beVal X)))) hn.symm r2 g2.norm hX hm2 (by intro b hb; simp at hb)
    (by rw [l2]; rw [List.length_nil, Nat.zero_add]; exact need_cap _ l1)
    (fun m' C' a1 a2 a3 a4 => ⟨_, a1, hg.upd ⟨a2, fun hneg => ?_, ?_⟩⟩)
  · rw [show len.toNat = n by omega]
    exact wp_bind (wp_mono key fun _ m3 h3 => wp_pure (hQ m3 h3))
  · rw [a3, g2.neg_eq] at hneg; simp at hneg
  · rw [a3, g2.neg_eq, a4]; simp [sval]

/-- `mp_int_read_binary`; the input is left as it was. -/
theorem mp_int_read_binary_spec {Q : Int × Bytes → Mem → Prop} {X R : Bytes} {len : Int}
    (hE : Ref env E) (hX : Byte X) (hl : len = X.length) (h1 : 1 ≤ X.length) (h2 : X.length < 268435456)
    (ho : z.own = true) (h : R2 m σ) (hz : σ z = some v)
    (hQ : ∀ m', R2 m' (upd σ z (some (twosVal X))) → Q (MP_OK, X ++ R) m') :
    wp env E (mp_int_read_binary z (X ++ R) len) Q m := by
  unfold mp_int_read_binary
  obtain ⟨s, hr, hg⟩ := h
  obtain ⟨C, hC, gC⟩ := hg.get hz
  obtain ⟨n, hn⟩ : ∃ n, n = X.length := ⟨_, rfl⟩
  have b1 : -2147483648 ≤ len * 8 := by omega
  have b2 : len * 8 ≤ 2147483647 := by omega
  have hXne : X ≠ [] := by rintro rfl; simp at h1
  have htv := twosVal_eq hX hXne
  have hXlt := beVal_lt hX
  rw [← hn] at htv hXlt
  refine wp_bind (wp_cassert (decide_eq_true (by omega)) ?_)
  refine wp_bind (wp_cint b1 b2 ?_)
  rw [need_u32 (n := n) (by omega) (by omega)]
  refine wp_bind (s_pad_spec hE hr hC ho (by omega) fun m1 C1 r1 gr1 l1 => ?_)
  refine wp_if_pos rfl ?_
  refine wp_bind (mp_int_zero_rep r1 (upd_self _ _ _) fun m2 C2 r2 g2 l2 _ => ?_)
  rw [upd_upd] at r2
  have hm2 : C2.mag = 0 := by have := g2.natAbs; simpa using this.symm
  have hcap : 256 ^ (([] : Bytes).length + n) ≤ 𝔹 ^ C2.buf.length := by
    rw [l2, List.length_nil, Nat.zero_add]; exact need_cap _ l1
  obtain ⟨x, Y, hxY⟩ := List.exists_cons_of_ne_nil hXne
  have hx : x < 256 := hX x (by rw [hxY]; simp)
  have hhead : 128 ≤ x ↔ 256 ^ n ≤ 2 * beVal X := by
    have := head_ge_iff (hxY ▸ hX)
    rw [this, ← hxY, hn, hxY, List.length_cons, Nat.pow_succ]
    omega
  refine wp_bind (wp_bget (x := x) (by rw [hxY]; rfl) ?_)
  rw [show len.toNat = n by omega, show x >>> 7 = x / 128 by rw [Nat.shiftRight_eq_div_pow]]
  refine wp_bind (wp_cif (fun hc => ?_) (fun hc => ?_))
  · have hge := hhead.1 (by omega)
    refine wp_bind (wp_setSign r2 (upd_self _ _ _) fun m3 r3 => ?_)
    rw [upd_upd] at r3
    refine s_2comp_spec hn.symm hX fun X' hl' hb' hv' => ?_
    have hv2 := hv'.1 (by omega)
    refine wp_bind (wp_DIGITS r3 (upd_self _ _ _) ?_)
    have key := readBytes_spec (env := env) (E := E) (z := z) (dz := ⟨C2.base, 0⟩) hE ho n (Y := []) (X := X') (R := R)
      (C := { C2 with neg := true })
      (Q := fun _ m3 => ∃ C4, Rep m3 (upd s z (some C4)) ∧ Norm C4 ∧ C4.neg = true ∧ C4.mag = beVal X') hl' rfl r3
      ⟨g2.norm.pos, g2.norm.le, g2.norm.top⟩ hb' hm2 (by intro b hb; simp at hb)
      hcap (fun m' C' a1 a2 a3 a4 => ⟨C', a1, a2, a3, by simpa using a4⟩)
    refine wp_bind (wp_mono key ?_)
    rintro _ m4 ⟨C4, r4, n4, s4, v4⟩
    refine wp_bind (wp_SIGN r4 (upd_self _ _ _) ?_)
    rw [s4]
    refine wp_bind (wp_cif (fun _ => ?_) (fun hc => absurd rfl hc))
    refine s_2comp_spec hl' hb' fun X'' hl'' hb'' hv'' => wp_pure ?_
    have hv3 := hv''.1 (by omega)
    have : X'' = X := beVal_inj hb'' hX (by omega) (by omega)
    rw [this]
    refine hQ m4 ⟨_, r4, hg.upd ⟨n4, fun _ => by omega, ?_⟩⟩
    rw [s4, v4, hv2, htv, if_pos hge, sval, if_pos rfl, Nat.cast_sub (by omega)]
    push_cast; omega
  · have hge : ¬ _ := fun hh => (show ¬ 128 ≤ x by omega) (hhead.2 hh)
    refine wp_pure (wp_bind (wp_DIGITS r2 (upd_self _ _ _) ?_))
    have key := readBytes_spec (env := env) (E := E) (z := z) (dz := ⟨C2.base, 0⟩) hE ho n (Y := []) (X := X) (R := R)
      (C := C2)
      (Q := fun _ m3 => ∃ C4, Rep m3 (upd s z (some C4)) ∧ Norm C4 ∧ C4.neg = false ∧ C4.mag = beVal X) hn.symm rfl r2
      g2.norm hX hm2 (by intro b hb; simp at hb)
      hcap (fun m' C' a1 a2 a3 a4 => ⟨C', a1, a2, by rw [a3, g2.neg_eq]; simp, by simpa using a4⟩)
    refine wp_bind (wp_mono key ?_)
    rintro _ m4 ⟨C4, r4, n4, s4, v4⟩
    refine wp_bind (wp_SIGN r4 (upd_self _ _ _) ?_)
    rw [s4]
    refine wp_bind (wp_cif (fun hc => by simp at hc) (fun _ => wp_pure (wp_pure ?_)))
    refine hQ m4 ⟨_, r4, hg.upd ⟨n4, fun hc => by rw [s4] at hc; simp at hc, ?_⟩⟩
    rw [s4, v4, htv, if_neg hge]; simp [sval]

/-! ### Error messages -/

theorem wp_errGet {Q : Option String → Mem → Prop} {i : Nat} {x : Option String} (h : s_error_msg[i]? = some x) (hQ : Q x m) :
    wp env E (errGet i) Q m := by
  unfold wp errGet; rw [h]; exact hQ

theorem errLoop_spec {Q : Nat → Mem → Prop} {res : Int} (h0 : 0 ≤ res) : ∀ (k f : Nat), 7 - k < f → k ≤ 7 → (k : Int) ≤ res →
    (Q (min res.toNat 7) m) → wp env E (errLoop res f k) Q m := by
  intro k f
  induction f generalizing k with
  | zero => intro h; omega
  | succ f ih =>
    intro hf hk hkr hQ
    unfold errLoop
    refine wp_ite (fun hlt => ?_) (fun hge => ?_)
    · obtain ⟨x, hx⟩ : ∃ x, s_error_msg[k]? = some x := ⟨_, List.getElem?_eq_getElem (by simp [s_error_msg]; omega)⟩
      refine wp_bind (wp_errGet hx ?_)
      by_cases h7 : k = 7
      · subst h7
        have : x = none := by simpa [s_error_msg] using hx.symm
        subst this
        refine wp_if_neg (by simp) (wp_pure ?_)
        rw [show min res.toNat 7 = 7 by omega] at hQ; exact hQ
      · have hne : x ≠ none := by
          rintro rfl
          have : ∀ j < 7, s_error_msg[j]? ≠ some none := by decide
          exact this k (by omega) hx
        exact wp_if_pos hne (ih (k + 1) (by omega) (by omega) (by omega) hQ)
    · rw [show min res.toNat 7 = k by omega] at hQ
      exact wp_pure hQ

/-- `mp_error_string` -/
theorem mp_error_string_spec {Q : String → Mem → Prop} {res : Int} (h1 : -2147483648 < res) (h2 : res ≤ 2147483647)
    (hQ : Q (if res > 0 then "unknown result code" else
      (["error code 0", "boolean true", "out of memory", "argument out of range", "result undefined", "output truncated",
        "invalid argument"][(-res).toNat]?).getD "unknown result code") m) :
    wp env E (mp_error_string res) Q m := by
  unfold mp_error_string
  refine wp_ite (fun hp => ?_) (fun hp => ?_)
  · rw [if_pos hp] at hQ; exact wp_pure hQ
  · rw [if_neg hp] at hQ
    refine wp_bind (wp_cint (by omega) (by omega) ?_)
    refine wp_bind (errLoop_spec (by omega) 0 9 (by omega) (by omega) (by omega) ?_)
    obtain ⟨k, hk⟩ : ∃ k, k = (-res).toNat := ⟨_, rfl⟩
    rw [← hk] at hQ ⊢
    by_cases h7 : k < 7
    · rw [show min k 7 = k by omega]
      have : ∀ j < 7, s_error_msg[j]? = some (["error code 0", "boolean true", "out of memory", "argument out of range",
        "result undefined", "output truncated", "invalid argument"][j]?) := by decide
      exact wp_bind (wp_errGet (this k h7) (wp_pure hQ))
    · rw [show min k 7 = 7 by omega]
      refine wp_bind (wp_errGet (x := none) rfl (wp_pure ?_))
      rw [List.getElem?_eq_none (by simp; omega)] at hQ
      exact hQ

end Imath
