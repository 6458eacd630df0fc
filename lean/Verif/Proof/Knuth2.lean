import Verif.Proof.Knuth

namespace Imath

variable {env : Env} {E : Fault → Prop} {m : Mem} {s : Id → Option Cell} {u v q t : Id} {U V T K : Cell}

theorem spliceL_eq {l zs : List Nat} {j : Nat} (h : j + zs.length ≤ l.length) :
    spliceL l j zs = l.take j ++ zs ++ l.drop (j + zs.length) := by
  have h1 := spliceL_mid (l.take j) ((l.drop j).take zs.length) (l.drop (j + zs.length)) zs
    (by rw [List.length_take, List.length_drop]; omega)
  rw [List.length_take, Nat.min_eq_left (by omega)] at h1
  rw [← h1]
  congr 1
  rw [List.append_assoc, ← List.drop_drop, List.take_append_drop, List.take_append_drop]

theorem take_spliceL {l zs : List Nat} {j : Nat} (h : j + zs.length ≤ l.length) :
    (spliceL l j zs).take j = l.take j := by
  rw [spliceL_eq h, List.append_assoc, List.take_left' (by rw [List.length_take]; omega)]

theorem take_spliceL' {l zs : List Nat} {j : Nat} (h : j + zs.length ≤ l.length) :
    (spliceL l j zs).take (j + zs.length) = l.take j ++ zs := by
  rw [spliceL_eq h, List.take_left' (by rw [List.length_append, List.length_take]; omega)]

theorem drop_spliceL {l zs : List Nat} {j : Nat} (h : j + zs.length ≤ l.length) :
    (spliceL l j zs).drop (j + zs.length) = l.drop (j + zs.length) := by
  rw [spliceL_eq h, List.drop_left' (by rw [List.length_append, List.length_take]; omega)]

theorem getElem?_of_drop_eq {l l' : List Nat} {j k : Nat} (h : l.drop j = l'.drop j) (hk : j ≤ k) : l[k]? = l'[k]? := by
  have h1 : (l.drop j)[k - j]? = (l'.drop j)[k - j]? := by rw [h]
  rwa [List.getElem?_drop, List.getElem?_drop, show j + (k - j) = k by omega] at h1

theorem drop_of_drop_eq {l l' : List Nat} {j k : Nat} (h : l.drop j = l'.drop j) (hk : j ≤ k) : l.drop k = l'.drop k := by
  rw [show k = j + (k - j) by omega, ← List.drop_drop, ← List.drop_drop, h]

theorem val_take_succ' {l : List Nat} {n d : Nat} (h : l[n]? = some d) :
    val (l.take (n + 1)) = val (l.take n) + 𝔹 ^ n * d := by
  obtain ⟨h1, rfl⟩ := List.getElem?_eq_some_iff.1 h
  exact val_take_succ l n h1

theorem knuthLoop_rep {Q : Unit → Mem → Prop} {n j : Nat} (h : Rep m s) (hu : s u = some U) (hv : s v = some V)
    (hq : s q = some K) (ht : s t = some T) (huv : u ≠ v) (huq : u ≠ q) (hut : u ≠ t) (hvq : v ≠ q) (hvt : v ≠ t)
    (hqt : q ≠ t) (hn : 1 ≤ n)
    (hlu : j + n ≤ U.buf.length) (hlv : n + 1 ≤ V.buf.length) (hlt : n + 1 ≤ T.buf.length) (hlq : j ≤ K.buf.length)
    (hv0 : V.buf[n]? = some 0) (hnorm : 𝔹 ^ n ≤ 2 * val (V.buf.take n))
    (hlt2 : val (U.buf.take (j + n)) < val (V.buf.take n) * 𝔹 ^ j)
    (hQ : ∀ m' U' K' T', Rep m' (upd (upd (upd s u (some U')) q (some K')) t (some T')) →
      U'.buf.length = U.buf.length → U'.used = U.used → U'.neg = U.neg → U'.base = U.base →
      U'.buf.drop (j + n) = U.buf.drop (j + n) →
      K'.buf.length = K.buf.length → K'.neg = K.neg → K'.buf.drop j = K.buf.drop j →
      val (U.buf.take (j + n)) = val (V.buf.take n) * val (K'.buf.take j) + val (U'.buf.take (j + n)) →
      val (U'.buf.take (j + n)) < val (V.buf.take n) → Q () m') :
    wp env E (knuthLoop v q t U.ptr n j) Q m := by
  induction j generalizing m s U K T with
  | zero =>
    unfold knuthLoop
    refine wp_pure (hQ m U K T ?_ rfl rfl rfl rfl rfl rfl rfl rfl (by simp) (by simpa using hlt2))
    rw [upd_same _ hu, upd_same _ hq, upd_same _ ht]; exact h
  | succ j ih =>
    unfold knuthLoop
    have hmaxT := (h.okl ht).2
    -- split off the window
    have hUs : val (U.buf.take (j + 1 + n)) = val (U.buf.take j) + 𝔹 ^ j * val ((U.buf.drop j).take (n + 1)) := by
      rw [show j + 1 + n = j + (n + 1) by omega, List.take_add, val_append, List.length_take,
        Nat.min_eq_left (by omega)]
    have hwin : val ((U.buf.drop j).take (n + 1)) < val (V.buf.take n) * 𝔹 := by
      have h1 : 𝔹 ^ j * val ((U.buf.drop j).take (n + 1)) < 𝔹 ^ j * (val (V.buf.take n) * 𝔹) := by
        rw [show 𝔹 ^ j * (val (V.buf.take n) * 𝔹) = val (V.buf.take n) * 𝔹 ^ (j + 1) by rw [Nat.pow_succ]; ring]
        omega
      exact Nat.lt_of_mul_lt_mul_left h1
    have hlow : val (U.buf.take j) < 𝔹 ^ j := by
      have := val_lt ((h.okd hu).take j)
      rwa [List.length_take, Nat.min_eq_left (by omega)] at this
    have hWlt : val (V.buf.take n) < 𝔹 ^ n := by
      have := val_lt ((h.okd hv).take n)
      rwa [List.length_take, Nat.min_eq_left (by omega)] at this
    have hW0 : 0 < val (V.buf.take n) := by have := pow_pos' n; omega
    refine wp_bind (knuthDigit_rep h hu hv ht hut hvt hn (by omega) hlv hlt hv0 hnorm hwin
      fun m1 T1 h1 n1 u1 l1 g1 => ?_)
    have hu1 : upd s t (some T1) u = some U := by rw [upd_ne _ _ hut]; exact hu
    have hq1 : upd s t (some T1) q = some K := by rw [upd_ne _ _ hqt]; exact hq
    have hlx : ((U.buf.drop j).take (n + 1)).length = n + 1 := by rw [List.length_take, List.length_drop]; omega
    have hxAt : At m1 (U.ptr.add j) ((U.buf.drop j).take (n + 1)) := (h1.at hu1).congr_len
    have hdm := Nat.div_add_mod (val ((U.buf.drop j).take (n + 1))) (val (V.buf.take n))
    have hml := Nat.mod_lt (val ((U.buf.drop j).take (n + 1))) hW0
    have hqd : val ((U.buf.drop j).take (n + 1)) / val (V.buf.take n) < 𝔹 :=
      (Nat.div_lt_iff_lt_mul hW0).2 (by rwa [Nat.mul_comm])
    generalize val ((U.buf.drop j).take (n + 1)) / val (V.buf.take n) = qd at *
    generalize val ((U.buf.drop j).take (n + 1)) % val (V.buf.take n) = rm at *
    refine wp_bind (wp_DIGITS h1 (upd_self _ _ _) ?_)
    refine wp_bind (wp_USED h1 (upd_self _ _ _) ?_)
    have hbase : U.base ≠ T1.base := fun e => hut (h1.inj hu1 (upd_self _ _ _) e)
    have hle := n1.le
    refine wp_bind (s_usub_spec hxAt ((h1.at (upd_self _ _ _)).take T1.used) hxAt hlx
      (by rw [List.length_take]; omega) hlx u1 (((h1.okd hu1).drop j).take _) ((h1.okd (upd_self _ _ _)).take _)
      (Behind.self _ _) (fun e => absurd e hbase) (by
        show T1.mag ≤ _
        rw [g1]; omega) fun zs hlz hdz hvz => ?_)
    have hvz' : val zs = rm := by
      have : val (T1.buf.take T1.used) = val (V.buf.take n) * qd := g1
      omega
    have h2 := h1.write hu1 (k := j) hdz
    obtain ⟨U1, hU1⟩ : ∃ U1, U1 = { U with buf := spliceL U.buf j zs } := ⟨_, rfl⟩
    have hU1b : U1.buf = spliceL U.buf j zs := by rw [hU1]
    rw [← hU1] at h2
    have hfit : j + zs.length ≤ U.buf.length := by omega
    have ht2 : upd (upd s t (some T1)) u (some U1) t = some T1 := by rw [upd_ne _ _ (Ne.symm hut)]; exact upd_self _ _ _
    have hq2 : upd (upd s t (some T1)) u (some U1) q = some K := by rw [upd_ne _ _ (Ne.symm huq)]; exact hq1
    refine wp_bind (wp_DIGITS h2 hq2 ?_)
    rw [u32_of_lt hqd]
    refine wp_bind (wp_wrz h2 hq2 (by omega) hqd fun m3 h3 => ?_)
    obtain ⟨K1, hK1⟩ : ∃ K1, K1 = { K with buf := spliceL K.buf j [qd] } := ⟨_, rfl⟩
    have hK1b : K1.buf = spliceL K.buf j [qd] := by rw [hK1]
    rw [← hK1] at h3
    have ht3 : upd (upd (upd s t (some T1)) u (some U1)) q (some K1) t = some T1 := by
      rw [upd_ne _ _ (Ne.symm hqt)]; exact ht2
    refine wp_bind (wp_DIGITS h3 ht3 ?_)
    refine wp_bind (wp_ALLOC h3 ht3 ?_)
    refine wp_bind (ZERO_spec (h3.at ht3) rfl (by omega) ?_)
    have h4 := h3.write ht3 (k := 0) (Dig_replicate_zero T1.buf.length)
    rw [Ptr.add_zero] at h4
    obtain ⟨T2, hT2⟩ : ∃ T2, T2 = { T1 with buf := spliceL T1.buf 0 (List.replicate T1.buf.length 0) } := ⟨_, rfl⟩
    have hT2b : T2.buf.length = T1.buf.length := by rw [hT2]; simp
    rw [← hT2] at h4
    have e1 : upd (upd (upd (upd s t (some T1)) u (some U1)) q (some K1)) t (some T2) =
        upd (upd (upd s u (some U1)) q (some K1)) t (some T2) := by upd_tac
    rw [e1] at h4
    -- values after this step
    have hcat : U1.buf.take (j + (n + 1)) = U.buf.take j ++ zs := by
      have := take_spliceL' hfit
      rwa [hlz, ← hU1b] at this
    have hU1v : val (U1.buf.take (j + n + 1)) = val (U.buf.take j) + 𝔹 ^ j * rm := by
      rw [show j + n + 1 = j + (n + 1) by omega, hcat, val_append, hvz', List.length_take, Nat.min_eq_left (by omega)]
    have hlU1 : U1.buf.length = U.buf.length := by rw [hU1b]; simp
    have hU1lt : val (U1.buf.take (j + n + 1)) < val (V.buf.take n) * 𝔹 ^ j := by
      rw [hU1v]
      have h5 : 𝔹 ^ j * (rm + 1) ≤ 𝔹 ^ j * val (V.buf.take n) := Nat.mul_le_mul_left _ hml
      rw [Nat.mul_add, Nat.mul_comm (𝔹 ^ j) (val (V.buf.take n))] at h5
      omega
    have hjn : j + n < U1.buf.length := by omega
    have hU1s := val_take_succ U1.buf (j + n) hjn
    have htop : U1.buf[j + n] = 0 := by
      by_contra hc
      have h5 : 𝔹 ^ (j + n) * 1 ≤ 𝔹 ^ (j + n) * U1.buf[j + n] := Nat.mul_le_mul_left _ (by omega)
      have h6 : val (V.buf.take n) * 𝔹 ^ j ≤ 𝔹 ^ n * 𝔹 ^ j := Nat.mul_le_mul_right _ (by omega)
      rw [← Nat.pow_add, Nat.add_comm n j] at h6
      omega
    rw [htop] at hU1s
    have hd1 : U1.buf.drop (j + 1 + n) = U.buf.drop (j + 1 + n) := by
      have := drop_spliceL hfit
      rw [hlz, ← hU1b] at this
      rwa [show j + 1 + n = j + (n + 1) by omega]
    have hK1l : K1.buf.length = K.buf.length := by rw [hK1b]; simp
    have hKd : K1.buf.drop (j + 1) = K.buf.drop (j + 1) := by
      have := drop_spliceL (l := K.buf) (j := j) (zs := [qd]) (by simp; omega)
      rw [hK1b]; simpa using this
    have hK1j : K1.buf[j]? = some qd := by
      rw [hK1b, getElem?_spliceL]
      have : j < K.buf.length := by omega
      simp [this]
    rw [show U.ptr = U1.ptr by rw [hU1]; rfl]
    have hv4 : upd (upd (upd s u (some U1)) q (some K1)) t (some T2) v = some V := by
      rw [upd_ne _ _ hvt, upd_ne _ _ hvq, upd_ne _ _ (Ne.symm huv)]; exact hv
    refine ih h4 (U := U1) (K := K1) (T := T2) (by rw [upd_ne _ _ hut, upd_ne _ _ huq]; exact upd_self _ _ _) hv4
      (by rw [upd_ne _ _ hqt]; exact upd_self _ _ _) (upd_self _ _ _) (by omega) (by omega) (by omega) (by omega)
      fun m' U' K' T' hr a1 a2 a3 a4 a5 a6 a7 a8 a9 a10 => ?_
    have e2 : upd (upd (upd (upd (upd (upd s u (some U1)) q (some K1)) t (some T2)) u (some U')) q (some K')) t (some T') =
        upd (upd (upd s u (some U')) q (some K')) t (some T') := by upd_tac
    rw [e2] at hr
    have hU'0 : U'.buf[j + n]? = some 0 := by
      rw [getElem?_of_drop_eq a5 (Nat.le_refl _), List.getElem?_eq_getElem hjn, htop]
    have hU's := val_take_succ' hU'0
    have hK'j : K'.buf[j]? = some qd := by rw [getElem?_of_drop_eq a8 (Nat.le_refl _)]; exact hK1j
    have hK's := val_take_succ' hK'j
    have e3 : j + 1 + n = j + n + 1 := by omega
    refine hQ m' U' K' T' hr (by omega) (by rw [a2, hU1]) (by rw [a3, hU1]) (by rw [a4, hU1]) ?_ (by omega) (by rw [a7, hK1]) ?_ ?_ ?_
    · rw [drop_of_drop_eq a5 (by omega)]; exact hd1
    · rw [drop_of_drop_eq a8 (by omega)]; exact hKd
    · rw [hK's, hUs, e3, hU's, ← hdm, Nat.mul_zero, Nat.add_zero]
      have h7 : val (U1.buf.take (j + n)) = val (U.buf.take j) + 𝔹 ^ j * rm := by omega
      have h8 : val (V.buf.take n) * (val (K'.buf.take j) + 𝔹 ^ j * qd) =
          val (V.buf.take n) * val (K'.buf.take j) + 𝔹 ^ j * (val (V.buf.take n) * qd) := by ring
      rw [h8, Nat.mul_add]
      omega
    · rw [e3, hU's]; omega

end Imath
