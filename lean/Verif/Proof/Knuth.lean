import Verif.Proof.Shift3
import Verif.Proof.Add

/-! # Long division: `s_udiv_knuth` -/

namespace Imath

variable {env : Env} {E : Fault → Prop} {m : Mem} {s : Id → Option Cell} {u v q t : Id} {U V T : Cell}

theorem cmpN_pos {x y : Nat} : cmpN x y > 0 ↔ y < x := by
  rw [cmpN_eq]; split
  · simp; omega
  · split
    · simp; omega
    · simp; omega

theorem At.congr_len {p : Ptr} {xs : List Nat} (h : At m p xs) {j n : Nat} :
    At m (p.add j) ((xs.drop j).take n) := (h.drop j).take n

/-! ### The trial product -/

theorem knuthMul_rep {Q : Unit → Mem → Prop} {n qhat : Nat} (h : Rep m s) (hv : s v = some V) (ht : s t = some T)
    (hvt : v ≠ t) (hlv : n + 1 ≤ V.buf.length) (hlt : n + 1 ≤ T.buf.length) (hq : qhat < 𝔹)
    (hlt2 : val (V.buf.take (n + 1)) * qhat < 𝔹 ^ (n + 1))
    (hQ : ∀ m' T', Rep m' (upd s t (some T')) → Norm T' → T'.used ≤ n + 1 → T'.buf.length = T.buf.length →
      T'.mag = val (V.buf.take (n + 1)) * qhat → Q () m') :
    wp env E (knuthMul v t qhat n) Q m := by
  unfold knuthMul s_dbmul
  have hmax := (h.okl ht).2
  have hbase : V.base ≠ T.base := fun e => hvt (h.inj hv ht e)
  refine wp_bind (wp_DIGITS h hv ?_)
  refine wp_bind (wp_DIGITS h ht ?_)
  rw [u32_of_lt (show n + 1 < 4294967296 by omega), u32_of_lt hq]
  refine wp_bind (wp_bind (dmulLoop_spec ((h.at hv).take (n + 1)) ((h.at ht).take (n + 1))
    (by rw [List.length_take]; omega) (by rw [List.length_take]; omega) ((h.okd hv).take _)
    (fun e => absurd e.symm hbase) hq (by norm_num) fun zs w' hl hd hw hval => ?_))
  have hw0 : w' = 0 := by
    by_contra hc
    have : 𝔹 ^ (n + 1) * 1 ≤ 𝔹 ^ (n + 1) * w' := Nat.mul_le_mul_left _ (by omega)
    omega
  subst hw0
  refine wp_if_neg (by simp) (wp_pure ?_)
  have h1 := h.write ht (k := 0) hd
  rw [Ptr.add_zero] at h1
  refine wp_bind (wp_setUsed h1 (upd_self _ _ _) fun m2 h2 => ?_)
  rw [upd_upd] at h2
  refine CLAMP_spec h2 (upd_self _ _ _) (by simpa using hlt) fun m3 h3 => ?_
  rw [upd_upd] at h3
  have hcl := clampLen_le (spliceL T.buf 0 zs) (n + 1)
  refine hQ m3 _ h3 (Norm.clamp (C := { T with buf := spliceL T.buf 0 zs }) (u := n + 1) (n := T.neg) (by omega) (by simpa using hlt))
    hcl (by simp) ?_
  show val ((spliceL T.buf 0 zs).take (clampLen (spliceL T.buf 0 zs) (n + 1))) = _
  rw [val_take_clampLen _ _ (by simpa using hlt), take_splice0 _ _ hl hlt]
  simpa using hval

/-! ### Comparison with the current window -/

theorem ucmpRaw_rep {Q : Int → Mem → Prop} {p : Ptr} {xs : List Nat} (h : Rep m s) (ht : s t = some T)
    (nT : Norm T) (hx : At m p xs) (hd : Dig xs) (hl : 1 ≤ xs.length)
    (hQ : Q (cmpN T.mag (val xs)) m) : wp env E (ucmpRaw t p (clampLen xs xs.length)) Q m := by
  unfold ucmpRaw
  have nR : Norm (⟨.heap 0, xs, clampLen xs xs.length, false⟩ : Cell) :=
    Norm.clamp (C := ⟨.heap 0, xs, 1, false⟩) (u := xs.length) (n := false) hl (Nat.le_refl _)
  have hR : Cell.mag ⟨.heap 0, xs, clampLen xs xs.length, false⟩ = val xs := by
    show val (xs.take (clampLen xs xs.length)) = _
    rw [val_take_clampLen _ _ (Nat.le_refl _), List.take_length]
  have hcl := clampLen_le xs xs.length
  refine wp_bind (wp_USED h ht ?_)
  rw [cmpN_eq] at hQ
  refine wp_ite (fun h1 => ?_) (fun h1 => wp_ite (fun h2 => ?_) (fun h2 => ?_))
  · have := nR.lt_of_used nT hd h1
    rw [hR] at this
    rw [if_neg (by omega), if_neg (by omega)] at hQ
    exact wp_pure hQ
  · have := nT.lt_of_used nR (h.okd ht) h2
    rw [hR] at this
    rw [if_pos (by omega)] at hQ
    exact wp_pure hQ
  · have h3 : T.used = clampLen xs xs.length := by omega
    refine wp_bind (wp_DIGITS h ht ?_)
    refine s_cdig_spec (h.at ht) hx nT.le (by omega) (h.okd ht) hd ?_
    rw [← cmpN_eq] at hQ
    have e : val (xs.take T.used) = val xs := by rw [h3]; exact hR
    rw [e]; exact hQ

/-! ### The quotient digit -/

theorem shl16_or {hi lo : Nat} (h1 : hi < 𝔹) (h2 : lo < 𝔹) :
    u64 (u64 (hi <<< 16) <<< 16) ||| lo = 𝔹 * hi + lo := by
  rw [Nat.shiftLeft_eq, Nat.shiftLeft_eq, u64_of_lt (x := hi * 2 ^ 16) (by omega), u64_of_lt (by omega)]
  have := Nat.two_pow_add_eq_or_of_lt (i := 32) (b := lo) h2 hi
  rw [show hi * 2 ^ 16 * 2 ^ 16 = 2 ^ 32 * hi by ring, ← this]

theorem le_of_mul_lt_mul {a b c : Nat} (h : a * b < a * c) : b < c := Nat.lt_of_mul_lt_mul_left h

/-- Theorem B of Knuth, TAOCP volume 2, section 4.3.1, in the form used here. -/
theorem knuth_bound {R W P p vn r0 w0 : Nat} (hR : R = r0 + P * p) (hr0 : r0 < P)
    (hW : W = w0 + P * vn) (hw0 : w0 < P) (hvn : 𝔹 ≤ 2 * vn) (hlt : R < W * 𝔹) :
    R / W ≤ min (p / vn) (𝔹 - 1) ∧ min (p / vn) (𝔹 - 1) ≤ R / W + 2 := by
  have hW0 : 0 < W := by
    have : P * 1 ≤ P * vn := Nat.mul_le_mul_left _ (by omega)
    omega
  have hqW : R / W * W ≤ R := Nat.div_mul_le_self _ _
  have hqW1 : R < (R / W + 1) * W := by
    have := Nat.lt_mul_div_succ R hW0
    rwa [Nat.mul_comm] at this
  have hq : R / W < 𝔹 := (Nat.div_lt_iff_lt_mul hW0).2 (by rwa [Nat.mul_comm])
  generalize R / W = q at *
  constructor
  · refine Nat.le_min.2 ⟨?_, by omega⟩
    rw [Nat.le_div_iff_mul_le (by omega)]
    have h1 : P * (q * vn) ≤ q * W := by
      rw [hW, Nat.mul_add, show q * (P * vn) = P * (q * vn) by ring]; omega
    have h2 : P * (q * vn) < P * (p + 1) := by rw [Nat.mul_add]; omega
    have := Nat.lt_of_mul_lt_mul_left h2
    omega
  · by_contra hc
    have hx : min (p / vn) (𝔹 - 1) * vn ≤ p :=
      Nat.le_trans (Nat.mul_le_mul_right _ (Nat.min_le_left _ _)) (Nat.div_mul_le_self _ _)
    have hx2 : min (p / vn) (𝔹 - 1) ≤ 𝔹 - 1 := Nat.min_le_right _ _
    generalize min (p / vn) (𝔹 - 1) = x at *
    obtain ⟨y, rfl⟩ : ∃ y, x = q + 3 + y := ⟨x - (q + 3), by omega⟩
    have h1 : P * ((q + 3 + y) * vn) ≤ R := by
      have := Nat.mul_le_mul_left P hx
      omega
    have h2 : (q + 3 + y) * W ≤ (q + 3 + y) * (P * vn) + (q + 3 + y) * P := by
      rw [← Nat.mul_add]; exact Nat.mul_le_mul_left _ (by omega)
    have h3 : (q + 3 + y) * (P * vn) = P * ((q + 3 + y) * vn) := by ring
    have h4 : (q + 3 + y) * P < 2 * W := by
      have h5 : (q + 3 + y) * P ≤ (𝔹 - 1) * P := Nat.mul_le_mul_right _ hx2
      have h6 : 𝔹 * P ≤ 2 * vn * P := Nat.mul_le_mul_right _ hvn
      have h7 : 2 * vn * P = 2 * (P * vn) := by ring
      have h8 : (𝔹 - 1) * P + P = 𝔹 * P := by
        rw [← Nat.succ_mul]
      omega
    have h9 : (q + 3 + y) * W = (q + 1) * W + 2 * W + y * W := by ring
    have : 0 ≤ y * W := Nat.zero_le _
    omega

theorem knuthDigit_rep {Q : Nat → Mem → Prop} {n j : Nat} (h : Rep m s) (hu : s u = some U) (hv : s v = some V)
    (ht : s t = some T) (hut : u ≠ t) (hvt : v ≠ t) (hn : 1 ≤ n)
    (hlu : j + n + 1 ≤ U.buf.length) (hlv : n + 1 ≤ V.buf.length) (hlt : n + 1 ≤ T.buf.length)
    (hv0 : V.buf[n]? = some 0) (hnorm : 𝔹 ^ n ≤ 2 * val (V.buf.take n))
    (hlt2 : val ((U.buf.drop j).take (n + 1)) < val (V.buf.take n) * 𝔹)
    (hQ : ∀ m' T', Rep m' (upd s t (some T')) → Norm T' → T'.used ≤ n + 1 → T'.buf.length = T.buf.length →
      T'.mag = val (V.buf.take n) * (val ((U.buf.drop j).take (n + 1)) / val (V.buf.take n)) →
      Q (val ((U.buf.drop j).take (n + 1)) / val (V.buf.take n)) m') :
    wp env E (knuthDigit v t (U.ptr.add j) n) Q m := by
  unfold knuthDigit
  have hW : val (V.buf.take (n + 1)) = val (V.buf.take n) := by
    rw [val_take_succ V.buf n (by omega)]
    rw [List.getElem?_eq_getElem (by omega)] at hv0
    have := Option.some.inj hv0
    rw [this]; omega
  -- the window
  obtain ⟨xs, hxs⟩ : ∃ xs, xs = (U.buf.drop j).take (n + 1) := ⟨_, rfl⟩
  rw [← hxs] at hlt2 hQ
  have hlx : xs.length = n + 1 := by rw [hxs, List.length_take, List.length_drop]; omega
  have hdx : Dig xs := by rw [hxs]; exact ((h.okd hu).drop j).take _
  have hxAt : ∀ {m' s'}, Rep m' s' → s' u = some U → At m' (U.ptr.add j) xs := fun h' hu' => by
    rw [hxs]; exact (h'.at hu').congr_len
  obtain ⟨n, rfl⟩ : ∃ k, n = k + 1 := ⟨n - 1, by omega⟩
  simp only [Nat.add_sub_cancel]
  have hhi : xs[n + 1]'(by omega) < 𝔹 := hdx _ (List.getElem_mem _)
  have hlo : xs[n]'(by omega) < 𝔹 := hdx _ (List.getElem_mem _)
  have hRv : val xs = val (xs.take n) + 𝔹 ^ n * (𝔹 * xs[n + 1]'(by omega) + xs[n]'(by omega)) := by
    have h1 := val_take_succ xs (n + 1) (by omega)
    have h2 := val_take_succ xs n (by omega)
    rw [show n + 1 + 1 = xs.length by omega, List.take_length] at h1
    rw [h1, h2, Nat.mul_add, Nat.pow_succ, Nat.mul_assoc]; omega
  have hr0 : val (xs.take n) < 𝔹 ^ n := by
    have := val_lt (hdx.take n)
    rwa [List.length_take, Nat.min_eq_left (by omega)] at this
  have hvlen : n < V.buf.length := by omega
  have hWv : val (V.buf.take (n + 1)) = val (V.buf.take n) + 𝔹 ^ n * V.buf[n] := val_take_succ _ _ hvlen
  have hw0 : val (V.buf.take n) < 𝔹 ^ n := by
    have := val_lt ((h.okd hv).take n)
    rwa [List.length_take, Nat.min_eq_left (by omega)] at this
  have hvnd : V.buf[n] < 𝔹 := (h.okd hv) _ (List.getElem_mem _)
  have hvn : 𝔹 ≤ 2 * V.buf[n] := by
    have h1 : 𝔹 ^ n * 𝔹 < 𝔹 ^ n * (2 * V.buf[n] + 2) := by
      rw [← Nat.pow_succ, Nat.mul_add, show 𝔹 ^ n * (2 * V.buf[n]) = 2 * (𝔹 ^ n * V.buf[n]) by ring]
      refine Nat.lt_of_le_of_lt hnorm ?_
      rw [hWv, Nat.mul_add]; omega
    have := Nat.lt_of_mul_lt_mul_left h1
    omega
  refine wp_bind (wp_rd ((hxAt h hu).get (i := n + 1) (by omega)) ?_)
  refine wp_bind (wp_rd ((hxAt h hu).get (i := n) (by omega)) ?_)
  refine wp_bind (wp_DIGITS h hv ?_)
  refine wp_bind (wp_rdz h hv (List.getElem?_eq_getElem hvlen) ?_)
  refine wp_if_neg (by omega) ?_
  rw [shl16_or hhi hlo]
  obtain ⟨hb1, hb2⟩ := knuth_bound hRv hr0 hWv hw0 hvn hlt2
  have hqe : (if (𝔹 * xs[n + 1]'(by omega) + xs[n]'(by omega)) / V.buf[n] > 4294967295 then 4294967295
      else (𝔹 * xs[n + 1]'(by omega) + xs[n]'(by omega)) / V.buf[n]) =
      min ((𝔹 * xs[n + 1]'(by omega) + xs[n]'(by omega)) / V.buf[n]) (𝔹 - 1) := by
    split <;> omega
  rw [hqe]
  have hx2 : min ((𝔹 * xs[n + 1]'(by omega) + xs[n]'(by omega)) / V.buf[n]) (𝔹 - 1) ≤ 𝔹 - 1 := Nat.min_le_right _ _
  generalize min ((𝔹 * xs[n + 1]'(by omega) + xs[n]'(by omega)) / V.buf[n]) (𝔹 - 1) = x at *
  -- facts about the value level
  generalize hR : val xs = R at *
  generalize hWW : val (V.buf.take (n + 1)) = W at *
  have hWlt : W < 𝔹 ^ (n + 1) := by
    rw [← hWW]
    have := val_lt ((h.okd hv).take (n + 1))
    rwa [List.length_take, Nat.min_eq_left (by omega)] at this
  have hW0 : 0 < W := by have := pow_pos' (n + 1); omega
  have hprod : ∀ y, y < 𝔹 → W * y < 𝔹 ^ (n + 1 + 1) := fun y hy => by
    rw [Nat.pow_succ]
    calc W * y ≤ W * 𝔹 := Nat.mul_le_mul_left _ (by omega)
      _ < 𝔹 ^ (n + 1) * 𝔹 := Nat.mul_lt_mul_of_pos_right hWlt (by norm_num)
  have hqW : W * (R / W) ≤ R := Nat.mul_div_le _ _
  have hqW1 : ∀ y, R / W < y → R < W * y := fun y hy => by
    have h1 := Nat.lt_mul_div_succ R hW0
    exact Nat.lt_of_lt_of_le h1 (Nat.mul_le_mul_left _ hy)
  have hmono : ∀ y, y ≤ R / W → W * y ≤ R := fun y hy => Nat.le_trans (Nat.mul_le_mul_left _ hy) hqW
  generalize R / W = y at *
  -- first trial
  refine wp_bind (knuthMul_rep h hv ht hvt hlv hlt (by omega) (by rw [hW]; exact hprod _ (by omega))
    fun m1 T1 h1 n1 u1 l1 g1 => ?_)
  rw [hW] at g1
  have hu1 : upd s t (some T1) u = some U := by rw [upd_ne _ _ hut]; exact hu
  have hv1 : upd s t (some T1) v = some V := by rw [upd_ne _ _ hvt]; exact hv
  refine wp_bind (clampLoop_spec (hxAt h1 hu1) (n := n + 1 + 1) (by omega) ?_)
  rw [show n + 1 + 1 = xs.length by omega]
  refine wp_bind (ucmpRaw_rep h1 (upd_self _ _ _) n1 (hxAt h1 hu1) hdx (by omega) ?_)
  rw [hR, g1]
  refine wp_ite (fun hc => ?_) (fun hc => ?_)
  · rw [cmpN_pos] at hc
    have hx1 : y < x := by
      by_contra hcc
      have := hmono x (by omega)
      omega
    rw [sub64_of_le (x := x) (y := 1) (by omega) (by omega)]
    refine wp_bind (knuthMul_rep h1 hv1 (upd_self _ _ _) hvt hlv (by omega) (by omega)
      (by rw [hW]; exact hprod _ (by omega)) fun m2 T2 h2 n2 u2 l2 g2 => ?_)
    rw [upd_upd] at h2
    rw [hW] at g2
    have hu2 : upd s t (some T2) u = some U := by rw [upd_ne _ _ hut]; exact hu
    have hv2 : upd s t (some T2) v = some V := by rw [upd_ne _ _ hvt]; exact hv
    refine wp_bind (ucmpRaw_rep h2 (upd_self _ _ _) n2 (hxAt h2 hu2) hdx (by omega) ?_)
    rw [hR, g2]
    refine wp_ite (fun hc2 => ?_) (fun hc2 => ?_)
    · rw [cmpN_pos] at hc2
      have hx3 : y < x - 1 := by
        by_contra hcc
        have := hmono (x - 1) (by omega)
        omega
      refine wp_bind (wp_cassert (by simp; omega) ?_)
      rw [sub64_of_le (x := x - 1) (y := 1) (by omega) (by omega)]
      refine wp_bind (knuthMul_rep h2 hv2 (upd_self _ _ _) hvt hlv (by omega) (by omega)
        (by rw [hW]; exact hprod _ (by omega)) fun m3 T3 h3 n3 u3 l3 g3 => ?_)
      rw [upd_upd] at h3
      rw [hW] at g3
      have hu3 : upd s t (some T3) u = some U := by rw [upd_ne _ _ hut]; exact hu
      have hx4 : x - 1 - 1 = y := by omega
      rw [hx4] at g3 ⊢
      refine wp_bind (ucmpRaw_rep h3 (upd_self _ _ _) n3 (hxAt h3 hu3) hdx (by omega) ?_)
      rw [hR, g3]
      refine wp_bind (wp_cassert ?_ (wp_pure (hQ m3 T3 h3 n3 u3 (by omega) g3)))
      have : ¬ cmpN (W * (y)) R > 0 := by rw [cmpN_pos]; omega
      simpa using this
    · rw [cmpN_pos] at hc2
      have hx4 : x - 1 = y := by
        by_contra hcc
        have := hqW1 (x - 1) (by omega)
        omega
      rw [hx4] at g2 ⊢
      refine wp_bind (ucmpRaw_rep h2 (upd_self _ _ _) n2 (hxAt h2 hu2) hdx (by omega) ?_)
      rw [hR, g2]
      refine wp_bind (wp_cassert ?_ (wp_pure (hQ m2 T2 h2 n2 u2 (by omega) g2)))
      have : ¬ cmpN (W * (y)) R > 0 := by rw [cmpN_pos]; omega
      simpa using this
  · rw [cmpN_pos] at hc
    have hx4 : x = y := by
      by_contra hcc
      have := hqW1 x (by omega)
      omega
    rw [hx4] at g1 ⊢
    exact wp_pure (hQ m1 T1 h1 n1 u1 l1 g1)

end Imath
