import Verif.Proof.Knuth2

namespace Imath

variable {env : Env} {E : Fault → Prop} {m : Mem} {s : Id → Option Cell} {σ : Id → Option Int} {u v q t : Id}
  {U V T K : Cell}

theorem wp_require {e k : M Int} {Q : Int → Mem → Prop}
    (h : wp env E e (fun r m' => r = MP_OK ∧ wp env E k Q m') m) : wp env E (REQUIRE e k) Q m := by
  unfold REQUIRE
  exact wp_bind (wp_mono h fun r m' hr => wp_if_neg (by simp [hr.1]) hr.2)

theorem Good.ofNat {C : Cell} {x : Nat} (h : Good C (x : Int)) : C.neg = false ∧ C.mag = x := by
  have h1 := h.natAbs
  have h2 := h.neg_iff
  refine ⟨?_, by omega⟩
  rcases hb : C.neg with _ | _
  · rfl
  · exact absurd (h2.1 hb) (by omega)

theorem Norm.good_nat {C : Cell} {x : Nat} (h : Norm C) (hn : C.neg = false) (hm : C.mag = x) : Good C (x : Int) :=
  h.goodOf (by rw [hn, hm]; rfl) (by rw [hn]; simp)

/-- The step that makes room for one more digit of the dividend. -/
theorem knuthExtend_rep {Q : Unit → Mem → Prop} {A : Cell} {l k : Nat} (hE : Ref env E) (h : Rep m s) (hu : s u = some U)
    (ou : u.own = true) (nU : Norm U) (hl : l + 1 < 4294967295) (hc0 : k = 0 → U = A) (hA : A.used = l) 
    (hul : U.used ≤ l + 1) (hlu : l ≤ U.used)
    (hQ : ∀ m' U', Rep m' (upd s u (some U')) → U'.used = l + 1 → U'.neg = U.neg → l + 1 ≤ U'.buf.length →
      val (U'.buf.take (l + 1)) = U.mag → Q () m') :
    wp env E (cwhen (k = 0 ∨ U.used ≠ l + 1) do
      let _ ← s_pad u (l + 1)
      wr ((← MP_DIGITS u).add l) 0
      setUsed u (l + 1)) Q m := by
  refine wp_cwhen (fun hc => ?_) (fun hc => ?_)
  · have hU : U.used = l := by
      rcases hc with hc | hc
      · rw [hc0 hc, hA]
      · omega
    refine wp_bind (s_pad_spec hE h hu ou (by omega) fun m1 U1 h1 g1 l1 => ?_)
    refine wp_bind (wp_DIGITS h1 (upd_self _ _ _) ?_)
    refine wp_bind (wp_wrz h1 (upd_self _ _ _) (by omega) (by norm_num) fun m2 h2 => ?_)
    rw [upd_upd] at h2
    refine wp_setUsed h2 (upd_self _ _ _) fun m3 h3 => ?_
    rw [upd_upd] at h3
    refine hQ m3 _ h3 rfl g1.neg (by simpa using l1) ?_
    have := nU.le
    have h4 := take_spliceL' (l := U1.buf) (j := l) (zs := [0]) (by simpa using l1)
    simp only [List.length_singleton] at h4
    show val ((spliceL U1.buf l [0]).take (l + 1)) = _
    rw [h4, val_append, g1.take (by omega)]
    simp [Cell.mag, hU]
  · refine hQ m U ?_ (by omega) rfl ?_ ?_
    · rw [upd_same _ hu]; exact h
    · have := nU.le; omega
    · unfold Cell.mag; rw [show U.used = l + 1 by omega]

theorem s_udiv_knuth_long {Q : Int → Mem → Prop} {a b : Nat} (hE : Ref env E) (h : Rep m s)
    (hu : s u = some U) (hv : s v = some V) (huv : u ≠ v) (ou : u.own = true) (ov : v.own = true)
    (gU : Good U (a : Int)) (gV : Good V (b : Int)) (hle : V.used ≤ U.used) (hn1 : 1 < V.used) 
    (hQ : ∀ m' U' V', Rep m' (upd (upd s u (some U')) v (some V')) → Good U' ((a / b : Nat) : Int) →
      Good V' ((a % b : Nat) : Int) → Q MP_OK m') :
    wp env E (do
      let n ← MP_USED v
      let m := sub32 (← MP_USED u) n
      cassert (n > 1)
      let k ← s_norm u v
      cwhen (k = 0 ∨ (← MP_USED u) ≠ u32 (m + n + 1)) do
        let _ ← s_pad u (u32 (m + n + 1))
        wr ((← MP_DIGITS u).add (u32 (m + n))) 0
        setUsed u (u32 (m + n + 1))
      let _ ← s_pad v (u32 (n + 1))
      wr ((← MP_DIGITS v).add n) 0
      withTemp fun q => withTemp fun t =>
        REQUIRE (GROW q (u32 (m + 1))) <|
        REQUIRE (GROW t (u32 (n + 1))) do
          let du ← MP_DIGITS u
          ZERO (← MP_DIGITS t) (← MP_ALLOC t)
          knuthLoop v q t du n (m + 1)
          setUsed q (u32 (m + 1))
          CLAMP q
          CLAMP u
          cwhen (k ≠ 0) (s_qdiv u k)
          let _ ← mp_int_copy u v
          let _ ← mp_int_copy q u
          pure MP_OK) Q m := by
  obtain ⟨negU, magU⟩ := gU.ofNat
  obtain ⟨negV, magV⟩ := gV.ofNat
  have nU := gU.norm
  have nV := gV.norm
  have hmU := (h.okl hu).2
  have hmV := (h.okl hv).2
  have hUle := nU.le
  have hVge := nV.mag_ge hn1
  have hUlt := mag_lt (h.okd hu) nU.le
  have hb0 : V.mag ≠ 0 := by have := pow_pos' (V.used - 1); omega
  refine wp_bind (wp_USED h hv ?_)
  refine wp_bind (wp_USED h hu ?_)
  rw [sub32_of_le hle (by omega)]
  obtain ⟨d, hd⟩ : ∃ d, d = U.used - V.used := ⟨_, rfl⟩
  obtain ⟨n, hn⟩ : ∃ n, n = V.used := ⟨_, rfl⟩
  rw [← hd, ← hn]
  refine wp_bind (wp_cassert (by simp; omega) ?_)
  refine wp_bind (s_norm_rep hE h hu hv huv ou ov nU nV hb0 fun m1 U1 V1 k h1 n1 n2 s1 s2 g1 g2 hk us1 hn2 hk0 => ?_)
  have hu1 : upd (upd s u (some U1)) v (some V1) u = some U1 := by rw [upd_ne _ _ huv]; exact upd_self _ _ _
  refine wp_bind (wp_USED h1 hu1 ?_)
  rw [u32_of_lt (show d + n + 1 < 4294967296 by omega), u32_of_lt (show d + n < 4294967296 by omega)]
  have hp2 : 0 < 2 ^ k := Nat.pow_pos (by decide)
  have hp31 : 2 ^ k ≤ 2 ^ 31 := Nat.pow_le_pow_right (by decide) (by omega)
  have hU1 : U1.used ≤ d + n + 1 ∧ d + n ≤ U1.used := by
    constructor
    · by_contra hc
      have h2 := n1.mag_ge (by omega)
      have h3 : 𝔹 ^ (d + n + 1) ≤ 𝔹 ^ (U1.used - 1) := pow_le' (by omega)
      have h4 : U.mag * 2 ^ k ≤ 𝔹 ^ U.used * 2 ^ k := Nat.mul_le_mul_right _ (by omega)
      have h5 : 𝔹 ^ U.used * 2 ^ k < 𝔹 ^ U.used * 𝔹 := Nat.mul_lt_mul_of_pos_left (by omega) (pow_pos' _)
      rw [← Nat.pow_succ, show U.used.succ = d + n + 1 by omega] at h5
      omega
    · by_contra hc
      have h2 := mag_lt (h1.okd hu1) n1.le
      have h3 : 𝔹 ^ U1.used ≤ 𝔹 ^ (U.used - 1) := pow_le' (by omega)
      have h4 := nU.mag_ge (by omega)
      have h5 : U.mag * 1 ≤ U.mag * 2 ^ k := Nat.mul_le_mul_left _ hp2
      omega
  refine wp_bind (knuthExtend_rep (A := U) (l := d + n) hE h1 hu1 ou n1 (by omega) (fun h => (hk0 h).1) (by omega) hU1.1 hU1.2
    fun m2 U2 h2 us2 s3 l2 g3 => ?_)
  have e1 : upd (upd (upd s u (some U1)) v (some V1)) u (some U2) = upd (upd s u (some U2)) v (some V1) := by upd_tac
  rw [e1] at h2
  rw [u32_of_lt (show n + 1 < 4294967296 by omega)]
  refine wp_bind (s_pad_spec hE h2 (upd_self _ _ _) ov (by omega) fun m3 V2 h3 gr l3 => ?_)
  rw [upd_upd] at h3
  refine wp_bind (wp_DIGITS h3 (upd_self _ _ _) ?_)
  refine wp_bind (wp_wrz h3 (upd_self _ _ _) (by omega) (by norm_num) fun m4 h4 => ?_)
  rw [upd_upd] at h4
  obtain ⟨V3, hV3⟩ : ∃ V3, V3 = { V2 with buf := spliceL V2.buf n [0] } := ⟨_, rfl⟩
  have hV3b : V3.buf = spliceL V2.buf n [0] := by rw [hV3]
  rw [← hV3] at h4
  have hV3l : V3.buf.length = V2.buf.length := by rw [hV3b]; simp
  have hV30 : V3.buf[n]? = some 0 := by
    rw [hV3b, getElem?_spliceL]
    have : n < V2.buf.length := by omega
    simp [this]
  have hn1le := n2.le
  have hV3v : val (V3.buf.take n) = b * 2 ^ k := by
    rw [hV3b, take_spliceL (by simpa using l3), gr.take (by omega), ← magV, ← g2]
    unfold Cell.mag; rw [us1, hn]
  have hnV3 : 𝔹 ^ n ≤ 2 * val (V3.buf.take n) := by rw [hV3v, ← magV, ← g2, hn]; exact hn2
  have hU2v : val (U2.buf.take (d + 1 + n)) = a * 2 ^ k := by
    rw [show d + 1 + n = d + n + 1 by omega, g3, g1, magU]
  have hlt2 : val (U2.buf.take (d + 1 + n)) < val (V3.buf.take n) * 𝔹 ^ (d + 1) := by
    have q1 : U.mag * 2 ^ k < 𝔹 ^ U.used * 2 ^ k := Nat.mul_lt_mul_of_pos_right hUlt hp2
    have q2 : 𝔹 ^ U.used * 2 ^ k ≤ 𝔹 ^ U.used * 2147483648 := Nat.mul_le_mul_left _ (by omega)
    have q3 := Nat.mul_le_mul_right (𝔹 ^ (d + 1)) hnV3
    rw [← Nat.pow_add, show n + (d + 1) = U.used + 1 by omega, Nat.pow_succ, Nat.mul_assoc] at q3
    rw [hU2v, ← magU]
    generalize val (V3.buf.take n) * 𝔹 ^ (d + 1) = X at *
    generalize 𝔹 ^ U.used = Y at *
    generalize U.mag * 2 ^ k = Z at *
    generalize 2 ^ k = P at *
    clear hVge hUlt hn2 hnV3
    omega
  have hu4 : upd (upd s u (some U2)) v (some V3) u = some U2 := by rw [upd_ne _ _ huv]; exact upd_self _ _ _
  have hv4 : upd (upd s u (some U2)) v (some V3) v = some V3 := upd_self _ _ _
  generalize hs4 : upd (upd s u (some U2)) v (some V3) = s4 at *
  refine withTemp_rep h4 fun q m5 hq oq h5 => ?_
  refine withTemp_rep h5 fun t m6 ht ot h6 => ?_
  have huq : u ≠ q := (ne_of_none hq hu4).symm
  have hvq : v ≠ q := (ne_of_none hq hv4).symm
  have htq : t ≠ q := by rintro rfl; rw [upd_self] at ht; simp at ht
  rw [upd_ne _ _ htq] at ht
  have hut : u ≠ t := (ne_of_none ht hu4).symm
  have hvt : v ≠ t := (ne_of_none ht hv4).symm
  have hqt := htq.symm
  rw [u32_of_lt (show d + 1 < 4294967296 by omega)]
  refine wp_require (GROW_spec hE h6 (by rw [upd_ne _ _ hqt]; exact upd_self _ _ _) oq (by omega)
    fun m7 K1 h7 gK lK => ⟨rfl, ?_⟩)
  have e2 : upd (upd (upd s4 q (some (zeroCell q))) t (some (zeroCell t))) q (some K1) =
      upd (upd s4 q (some K1)) t (some (zeroCell t)) := by upd_tac
  rw [e2] at h7
  refine wp_require (GROW_spec hE h7 (upd_self _ _ _) ot (by omega) fun m8 T1 h8 gT lT => ⟨rfl, ?_⟩)
  rw [upd_upd] at h8
  have hu8 : ∀ K T, upd (upd s4 q (some K)) t (some T) u = some U2 := fun K T => by
    rw [upd_ne _ _ hut, upd_ne _ _ huq]; exact hu4
  have hv8 : ∀ K T, upd (upd s4 q (some K)) t (some T) v = some V3 := fun K T => by
    rw [upd_ne _ _ hvt, upd_ne _ _ hvq]; exact hv4
  have hq8 : ∀ K T, upd (upd s4 q (some K)) t (some T) q = some K := fun K T => by
    rw [upd_ne _ _ hqt]; exact upd_self _ _ _
  refine wp_bind (wp_DIGITS h8 (hu8 _ _) ?_)
  refine wp_bind (wp_DIGITS h8 (upd_self _ _ _) ?_)
  refine wp_bind (wp_ALLOC h8 (upd_self _ _ _) ?_)
  have hT1max := (h8.okl (upd_self _ _ _)).2
  refine wp_bind (ZERO_spec (h8.at (upd_self _ _ _)) rfl (by omega) ?_)
  have h9 := h8.write (upd_self _ _ _) (k := 0) (Dig_replicate_zero T1.buf.length)
  rw [Ptr.add_zero, upd_upd] at h9
  obtain ⟨T2, hT2⟩ : ∃ T2, T2 = { T1 with buf := spliceL T1.buf 0 (List.replicate T1.buf.length 0) } := ⟨_, rfl⟩
  have hT2l : T2.buf.length = T1.buf.length := by rw [hT2]; simp
  rw [← hT2] at h9
  refine wp_bind (knuthLoop_rep h9 (hu8 _ _) (hv8 _ _) (hq8 _ _) (upd_self _ _ _) huv huq hut hvq hvt hqt (by omega)
    (by omega) (by omega) (by omega) lK hV30 hnV3 hlt2 fun m10 U' K' T' h10 a1 a2 a3 _ a5 a6 a7 a8 a9 a10 => ?_)
  have e3 : upd (upd (upd (upd (upd s4 q (some K1)) t (some T2)) u (some U')) q (some K')) t (some T') =
      upd (upd (upd s4 u (some U')) q (some K')) t (some T') := by upd_tac
  rw [e3] at h10
  -- the quotient
  have hb : 0 < b := by omega
  have hdiv : a = b * val (K'.buf.take (d + 1)) + val (U'.buf.take (d + 1 + n)) / 2 ^ k ∧
      val (U'.buf.take (d + 1 + n)) / 2 ^ k < b := by
    rw [hU2v, hV3v] at a9
    rw [hV3v] at a10
    have hdv : 2 ^ k ∣ val (U'.buf.take (d + 1 + n)) := by
      have q1 : 2 ^ k ∣ b * 2 ^ k * val (K'.buf.take (d + 1)) + val (U'.buf.take (d + 1 + n)) := by
        rw [← a9]; exact Nat.dvd_mul_left _ _
      exact (Nat.dvd_add_right (Dvd.dvd.mul_right (Nat.dvd_mul_left _ _) _)).1 q1
    obtain ⟨r, hr⟩ := hdv
    rw [hr] at a9 a10 ⊢
    rw [Nat.mul_div_cancel_left _ hp2]
    refine ⟨?_, ?_⟩
    · have : a * 2 ^ k = (b * val (K'.buf.take (d + 1)) + r) * 2 ^ k := by rw [a9]; ring
      exact Nat.eq_of_mul_eq_mul_right hp2 this
    · rw [Nat.mul_comm b] at a10
      exact Nat.lt_of_mul_lt_mul_left a10
  have hquot : val (K'.buf.take (d + 1)) = a / b ∧ val (U'.buf.take (d + 1 + n)) / 2 ^ k = a % b := by
    generalize val (U'.buf.take (d + 1 + n)) / 2 ^ k = r at *
    generalize val (K'.buf.take (d + 1)) = x at *
    rw [hdiv.1]
    constructor
    · rw [Nat.mul_add_div hb, Nat.div_eq_of_lt hdiv.2, Nat.add_zero]
    · rw [Nat.mul_add_mod, Nat.mod_eq_of_lt hdiv.2]
  have hq10 : upd (upd (upd s4 u (some U')) q (some K')) t (some T') q = some K' := by
    rw [upd_ne _ _ hqt]; exact upd_self _ _ _
  refine wp_bind (wp_setUsed h10 hq10 fun m11 h11 => ?_)
  refine wp_bind (CLAMP_spec h11 (upd_self _ _ _) (by simp only; omega) fun m12 h12 => ?_)
  rw [upd_upd] at h12
  have nK3 : Norm { K' with used := clampLen K'.buf (d + 1) } :=
    Norm.clamp (C := K') (u := d + 1) (n := K'.neg) (by omega) (by omega)
  have gK3 : Good { K' with used := clampLen K'.buf (d + 1) } ((a / b : Nat) : Int) := by
    refine nK3.good_nat (by rw [a7, gK.neg]; rfl) ?_
    rw [← hquot.1]
    exact val_take_clampLen _ _ (by omega)
  obtain ⟨K3, hK3⟩ : ∃ K3, K3 = { K' with used := clampLen K'.buf (d + 1) } := ⟨_, rfl⟩
  rw [← hK3] at gK3 nK3
  have e4 : upd (upd (upd (upd s4 u (some U')) q (some K')) t (some T')) q (some K3) =
      upd (upd (upd s4 u (some U')) q (some K3)) t (some T') := by upd_tac
  simp only [← hK3] at h12
  rw [e4] at h12
  have hu12 : ∀ U, upd (upd (upd s4 u (some U)) q (some K3)) t (some T') u = some U := fun U => by
    rw [upd_ne _ _ hut, upd_ne _ _ huq]; exact upd_self _ _ _
  have eU : ∀ U V, upd (upd (upd (upd s4 u (some U)) q (some K3)) t (some T')) u (some V) =
      upd (upd (upd s4 u (some V)) q (some K3)) t (some T') := fun U V => by upd_tac
  refine wp_bind (CLAMP_spec h12 (hu12 _) (by omega) fun m13 h13 => ?_)
  rw [eU] at h13
  have nU3 : Norm { U' with used := clampLen U'.buf U'.used } :=
    Norm.clamp (C := U') (u := U'.used) (n := U'.neg) (by omega) (by omega)
  have mU3 : Cell.mag { U' with used := clampLen U'.buf U'.used } = val (U'.buf.take (d + 1 + n)) := by
    show val (U'.buf.take (clampLen U'.buf U'.used)) = _
    rw [val_take_clampLen _ _ (by omega), a2, us2, show d + n + 1 = d + 1 + n by omega]
  have sU3 : U'.neg = false := by rw [a3, s3, s1, negU]
  obtain ⟨U3, hU3⟩ : ∃ U3, U3 = { U' with used := clampLen U'.buf U'.used } := ⟨_, rfl⟩
  have sU3' : U3.neg = false := by rw [hU3]; exact sU3
  rw [← hU3] at nU3 mU3 h13
  -- remove the scaling of the remainder
  refine wp_bind (wp_mono (Q := fun _ m' => ∃ U4, Rep m' (upd (upd (upd s4 u (some U4)) q (some K3)) t (some T')) ∧
      Good U4 ((a % b : Nat) : Int)) ?_ ?_)
  · refine wp_cwhen (fun _ => ?_) (fun hk => ?_)
    · refine s_qdiv_rep h13 (hu12 _) nU3 fun m14 U4 h14 q1 q2 _ q3 => ?_
      rw [eU] at h14
      refine ⟨U4, h14, q1.good_nat ?_ (by rw [q3, mU3]; exact hquot.2)⟩
      rw [q2, sU3']; split <;> rfl
    · have : k = 0 := by omega
      rw [this, Nat.pow_zero, Nat.div_one, ← mU3] at hquot
      exact ⟨U3, h13, nU3.good_nat sU3' hquot.2⟩
  · rintro _ m14 ⟨U4, h14, gU4⟩
    have hv14 : ∀ U, upd (upd (upd s4 u (some U)) q (some K3)) t (some T') v = some V3 := fun U => by
      rw [upd_ne _ _ hvt, upd_ne _ _ hvq, upd_ne _ _ huv.symm]; exact hv4
    refine wp_bind (mp_int_copy_rep hE h14 (hu12 _) (hv14 _) ov gU4.norm.le fun m15 V4 h15 sV _ => ?_)
    have hq15 : upd (upd (upd (upd s4 u (some U4)) q (some K3)) t (some T')) v (some V4) q = some K3 := by
      rw [upd_ne _ _ hvq.symm, upd_ne _ _ hqt]; exact upd_self _ _ _
    have hu15 : upd (upd (upd (upd s4 u (some U4)) q (some K3)) t (some T')) v (some V4) u = some U4 := by
      rw [upd_ne _ _ huv]; exact hu12 _
    refine wp_bind (mp_int_copy_rep hE h15 hq15 hu15 ou nK3.le fun m16 U5 h16 sU _ => ?_)
    refine wp_pure ⟨_, T', h16, ?_, fun m17 h17 => ⟨_, K3, h17, ?_, fun m18 h18 => ?_⟩⟩
    · rw [upd_ne _ _ hut.symm, upd_ne _ _ hvt.symm]; exact upd_self _ _ _
    · rw [upd_ne _ _ hqt, upd_ne _ _ huq.symm, upd_ne _ _ hvq.symm, upd_ne _ _ hqt]; exact upd_self _ _ _
    · refine hQ m18 U5 V4 ?_ (sU.good gK3) (sV.good gU4)
      have e5 : upd (upd (upd (upd (upd (upd (upd s4 u (some U4)) q (some K3)) t (some T')) v (some V4)) u (some U5)) t none) q none =
          upd (upd s u (some U5)) v (some V4) := by
        rw [← hs4] at hq ht ⊢
        funext y
        by_cases y1 : y = q
        · subst y1
          rw [upd_ne _ _ hvq.symm, upd_ne _ _ huq.symm] at hq
          simp [upd, hvq.symm, huq.symm, hq]
        · by_cases y2 : y = t
          · subst y2
            rw [upd_ne _ _ hvt.symm, upd_ne _ _ hut.symm] at ht
            simp [upd, hvt.symm, hut.symm, ht]
          · simp only [upd, y1, y2, if_false]
            by_cases y3 : y = u
            · rw [y3]; simp [huv]
            · by_cases y4 : y = v
              · rw [y4]; simp [huv.symm]
              · simp [y3, y4]
      rw [e5] at h18
      exact h18

/-- `s_udiv_knuth` replaces `u` by the quotient and `v` by the remainder of the absolute values. -/
theorem s_udiv_knuth_spec {Q : Int → Mem → Prop} {x y : Int} (hE : Ref env E) (h : R2 m σ)
    (hu : σ u = some x) (hv : σ v = some y) (huv : u ≠ v) (ou : u.own = true) (ov : v.own = true)
    (hy : y ≠ 0) (hle : y.natAbs ≤ x.natAbs)
    (hQ : ∀ m', R2 m' (upd (upd σ u (some ((x.natAbs / y.natAbs : Nat) : Int))) v
      (some ((x.natAbs % y.natAbs : Nat) : Int))) → Q MP_OK m') :
    wp env E (s_udiv_knuth u v) Q m := by
  unfold s_udiv_knuth
  refine wp_bind (setSign_spec h hu (by simp) fun m1 h1 => ?_)
  refine wp_bind (setSign_spec (v := y) h1 (by rw [upd_ne _ _ huv.symm]; exact hv) (by simp) fun m2 h2 => ?_)
  have e1 : ∀ k : Nat, sval false k = (k : Int) := fun k => rfl
  rw [e1, e1] at h2
  obtain ⟨s, r2, gs⟩ := h2
  obtain ⟨U, hU, gU⟩ := gs.get (z := u) (by rw [upd_ne _ _ huv]; exact upd_self _ _ _)
  obtain ⟨V, hV, gV⟩ := gs.get (upd_self _ _ _)
  generalize hσ : upd (upd σ u (some (x.natAbs : Int))) v (some (y.natAbs : Int)) = σ1 at *
  have hb : 0 < y.natAbs := by omega
  obtain ⟨a, ha⟩ : ∃ a, a = x.natAbs := ⟨_, rfl⟩
  obtain ⟨b, hb'⟩ : ∃ b, b = y.natAbs := ⟨_, rfl⟩
  rw [← ha] at hσ gU hle hQ
  rw [← hb'] at hσ gV hle hQ hb
  obtain ⟨negU, magU⟩ := gU.ofNat
  obtain ⟨negV, magV⟩ := gV.ofNat
  refine wp_bind (wp_USED r2 hV ?_)
  refine wp_ite (fun h1u => ?_) (fun h1u => ?_)
  · have hlen := (r2.okl hV).1
    refine wp_bind (wp_DIGITS r2 hV ?_)
    have hd : V.buf[0]? = some b := by
      have h3 : V.buf[0]? = some (V.buf[0]'(by omega)) := List.getElem?_eq_getElem (by omega)
      have h4 := val_take_succ' h3
      have h5 : V.mag = val (V.buf.take (0 + 1)) := by unfold Cell.mag; rw [h1u]
      simp only [List.take_zero, val_nil, Nat.pow_zero, Nat.one_mul, Nat.zero_add] at h4 h5
      rw [h3, ← h4, ← h5, magV]
    have hbd : b < 𝔹 := (r2.okd hV) _ (List.mem_of_getElem? hd)
    rw [show V.ptr = V.ptr.add 0 from rfl]
    refine wp_bind (wp_rdz r2 hV hd ?_)
    refine wp_bind (s_ddiv_rep r2 hU gU.norm (by omega) hbd fun m3 U3 h3 n3 s3 _ g3 => ?_)
    have gU3 : Good U3 ((a / b : Nat) : Int) := n3.good_nat (by rw [s3, negU]) (by rw [g3, magU])
    have h4 : R2 m3 (upd σ1 u (some ((a / b : Nat) : Int))) := ⟨_, h3, gs.upd gU3⟩
    have hml := Nat.mod_lt a hb
    refine wp_bind (mp_int_set_value_spec (w := (b : Int)) (v := ((U.mag % b : Nat) : Int)) hE
      (by omega) (by rw [magU]; omega) h4
      (by rw [upd_ne _ _ huv.symm, ← hσ]; exact upd_self _ _ _) ov fun m4 h5 => ?_)
    refine wp_pure (hQ m4 ?_)
    rw [magU, ← hσ] at h5
    have e2 : upd (upd (upd (upd σ u (some (a : Int))) v (some (b : Int))) u (some ((a / b : Nat) : Int))) v
        (some ((a % b : Nat) : Int)) = upd (upd σ u (some ((a / b : Nat) : Int))) v (some ((a % b : Nat) : Int)) := by
      upd_tac
    rw [e2] at h5
    exact h5
  · have hpos := gV.norm.pos
    have hused : V.used ≤ U.used := by
      by_contra hc
      have := gU.norm.lt_of_used gV.norm (r2.okd hU) (by omega)
      omega
    refine s_udiv_knuth_long hE r2 hU hV huv ou ov gU gV hused (by omega) fun m' U' V' h' g1 g2 => ?_
    have h6 : R2 m' (upd (upd σ1 u (some ((a / b : Nat) : Int))) v (some ((a % b : Nat) : Int))) :=
      ⟨_, h', (gs.upd g1).upd g2⟩
    rw [← hσ] at h6
    have e2 : upd (upd (upd (upd σ u (some (a : Int))) v (some (b : Int))) u (some ((a / b : Nat) : Int))) v
        (some ((a % b : Nat) : Int)) = upd (upd σ u (some ((a / b : Nat) : Int))) v (some ((a % b : Nat) : Int)) := by
      upd_tac
    rw [e2] at h6
    exact hQ m' h6

end Imath
