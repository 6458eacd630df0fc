import Verif.Proof.Temps
import Mathlib.Data.Int.GCD
import Mathlib.Data.Nat.Prime.Basic
import Mathlib.Data.Nat.Factorization.Basic

/-! # Greatest common divisors -/

namespace Imath

variable {env : Env} {E : Fault → Prop} {m : Mem} {s : Id → Option Cell} {σ σ' : Id → Option Int}
  {z a b c : Id} {A B C : Cell} {x y w v : Int} {T : Nat → Id} {V : Nat → Int}

theorem s_dp2k_spec {Q : Int → Mem → Prop} (h : R2 m σ) (hz : σ z = some v) (h0 : v ≠ 0)
    (hQ : ∀ k o : Nat, v.natAbs = 2 ^ k * (2 * o + 1) → k < 2147483648 → Q k m) :
    wp env E (s_dp2k z) Q m := by
  obtain ⟨s, r, g⟩ := h
  obtain ⟨C, hC, gC⟩ := g.get hz
  have hm := gC.natAbs
  exact s_dp2k_rep r hC gC.norm (by omega) fun k o hk h1 => hQ k o (by omega) h1

theorem gcd_strip {k o n : Nat} (hn : n % 2 = 1) : Nat.gcd (2 ^ k * o) n = Nat.gcd o n := by
  refine Nat.Coprime.gcd_mul_left_cancel o ?_
  refine Nat.Coprime.pow_left k ?_
  exact Nat.coprime_two_left.2 (Nat.odd_iff.2 hn)

/-- Invariant of the loop of `mp_int_gcd` (`u`, `v`, `t` are the three temporaries): `g` is the greatest common divisor
of the value that will be replaced and of the other one, which is odd; `p` bounds the product of the odd parts. -/
structure GcdInv (u v t : Int) (g p : Nat) : Prop where
  hu : 0 < u
  hv : 0 < v
  ht : t ≠ 0
  pos : 0 < t → v % 2 = 1 ∧ Nat.gcd t.natAbs v.natAbs = g ∧ ∀ k o, t.natAbs = 2 ^ k * (2 * o + 1) → (2 * o + 1) * v.natAbs < p
  neg : t < 0 → u % 2 = 1 ∧ Nat.gcd t.natAbs u.natAbs = g ∧ ∀ k o, t.natAbs = 2 ^ k * (2 * o + 1) → (2 * o + 1) * u.natAbs < p

/-- The arithmetic of one subtraction step of the binary algorithm. -/
theorem gcd_step {o n p g : Nat} (hn : n % 2 = 1) (hg : Nat.gcd (2 * o + 1) n = g) (hp : (2 * o + 1) * n < 2 * p)
    (hlt : n < 2 * o + 1) : Nat.gcd (2 * o + 1 - n) n = g ∧
      ∀ k o', 2 * o + 1 - n = 2 ^ k * (2 * o' + 1) → (2 * o' + 1) * n < p := by
  refine ⟨by rw [Nat.gcd_sub_self_left (by omega)]; exact hg, fun k o' hk => ?_⟩
  have hk1 : k ≠ 0 := by
    rintro rfl; rw [pow_zero, one_mul] at hk; omega
  obtain ⟨j, rfl⟩ : ∃ j, k = j + 1 := ⟨k - 1, by omega⟩
  have h1 : 2 * (2 * o' + 1) ≤ 2 * o + 1 := by
    have : 2 * (2 * o' + 1) ≤ 2 ^ (j + 1) * (2 * o' + 1) :=
      Nat.mul_le_mul_right _ (by rw [Nat.pow_succ]; have := Nat.pow_pos (n := j) (show 0 < 2 by decide); omega)
    omega
  have h2 : 2 * (2 * o' + 1) * n ≤ (2 * o + 1) * n := Nat.mul_le_mul_right _ h1
  rw [Nat.mul_assoc] at h2
  omega

theorem gcdLoop_spec {Q : Int → Mem → Prop} {k : M Int} {g f : Nat} (hE : Ref env E)
    (hk : ∀ m' σ' V, R2 m' σ' → Tmps σ 3 T V σ' → V 0 = g → wp env E k Q m')
    (hI : GcdInv (V 0) (V 1) (V 2) g (2 ^ f)) (h : R2 m σ') (gT : Tmps σ 3 T V σ') :
    wp env E (gcdLoop (T 0) (T 1) (T 2) k (f + 1)) Q m := by
  induction f generalizing V σ' m with
  | zero =>
    exfalso
    have hu := hI.hu; have hv := hI.hv; have ht := hI.ht
    obtain ⟨k, o, ho⟩ : ∃ k o, (V 2).natAbs = 2 ^ k * (2 * o + 1) := by
      obtain ⟨k, q, hq, e⟩ := Nat.exists_eq_two_pow_mul_odd (n := (V 2).natAbs) (by omega)
      obtain ⟨o, rfl⟩ := hq
      exact ⟨k, o, e⟩
    rcases lt_or_gt_of_ne ht with h1 | h1
    · have := (hI.neg h1).2.2 k o ho
      have h2 : 1 * 1 ≤ (2 * o + 1) * (V 0).natAbs := Nat.mul_le_mul (by omega) (by omega)
      omega
    · have := (hI.pos h1).2.2 k o ho
      have h2 : 1 * 1 ≤ (2 * o + 1) * (V 1).natAbs := Nat.mul_le_mul (by omega) (by omega)
      omega
  | succ f ih =>
    unfold gcdLoop
    have hu := hI.hu; have hv := hI.hv; have ht := hI.ht
    refine wp_bind (s_dp2k_spec h (gT.get 2) hI.ht fun j o hj hjl => ?_)
    rw [intU32_of_nat (by omega)]
    refine wp_bind (s_qdiv_spec h (gT.get 2) fun m1 h1 => ?_)
    have e1 : (V 2).natAbs / 2 ^ j = 2 * o + 1 := by
      rw [hj, Nat.mul_div_cancel_left _ (Nat.pow_pos (by decide))]
    rw [e1] at h1
    have g1 := gT.upd 2 (sval (decide (V 2 < 0)) (2 * o + 1))
    have rest : ∀ (m2 : Mem) (σ2 : Id → Option Int) (V2 : Nat → Int), R2 m2 σ2 → Tmps σ 3 T V2 σ2 →
        0 < V2 0 → 0 < V2 1 → V2 0 % 2 = 1 → V2 1 % 2 = 1 → Nat.gcd (V2 0).natAbs (V2 1).natAbs = g →
        (V2 0).natAbs * (V2 1).natAbs < 2 * 2 ^ f →
        wp env E (REQUIRE (mp_int_sub (T 0) (T 1) (T 2)) do
          if (← CMPZ (T 2)) = 0 then k else gcdLoop (T 0) (T 1) (T 2) k (f + 1)) Q m2 := by
      intro m2 σ2 V2 h2 g2 hu2 hv2 ou ov hg hp
      refine wp_require (mp_int_sub_spec hE h2 (g2.get 0) (g2.get 1) (g2.get 2) (g2.ow 2) fun m3 h3 => ⟨rfl, ?_⟩)
      have g3 := g2.upd 2 (V2 0 - V2 1)
      refine wp_bind (CMPZ_spec h3 (g3.get 2) ?_)
      simp only [nset_apply, if_true]
      refine wp_ite (fun hz => ?_) (fun hz => ?_)
      · refine hk m3 _ _ h3 g3 ?_
        have : V2 0 - V2 1 = 0 := Int.sign_eq_zero_iff_zero.1 hz
        have h4 : V2 1 = V2 0 := by omega
        rw [h4, Nat.gcd_self] at hg
        simp; omega
      · have hne : V2 0 - V2 1 ≠ 0 := fun h0 => hz (by rw [h0]; rfl)
        refine ih ⟨by simpa using hu2, by simpa using hv2, by simpa using hne, fun hpos => ?_, fun hneg => ?_⟩ h3 g3
        · simp at hpos ⊢
          obtain ⟨o', ho'⟩ : ∃ o', (V2 0).natAbs = 2 * o' + 1 := ⟨(V2 0).natAbs / 2, by omega⟩
          rw [ho'] at hg hp
          have := gcd_step (o := o') (n := (V2 1).natAbs) (by omega) hg hp (by omega)
          rw [show (V2 0 - V2 1).natAbs = 2 * o' + 1 - (V2 1).natAbs by omega]
          exact ⟨ov, this.1, this.2⟩
        · simp at hneg ⊢
          obtain ⟨o', ho'⟩ : ∃ o', (V2 1).natAbs = 2 * o' + 1 := ⟨(V2 1).natAbs / 2, by omega⟩
          rw [Nat.gcd_comm, ho'] at hg
          rw [Nat.mul_comm, ho'] at hp
          have := gcd_step (o := o') (n := (V2 0).natAbs) (by omega) hg hp (by omega)
          rw [show (V2 0 - V2 1).natAbs = 2 * o' + 1 - (V2 0).natAbs by omega]
          exact ⟨ou, this.1, this.2⟩
    refine wp_bind (CMPZ_spec h1 (g1.get 2) ?_)
    simp only [nset_apply, if_true]
    refine wp_ite (fun hs => ?_) (fun hs => ?_)
    · have hpos : 0 < V 2 := by
        by_contra hc
        have : V 2 < 0 := by omega
        rw [decide_eq_true this] at hs
        simp [sval] at hs
        omega
      rw [decide_eq_false (by omega)] at h1 g1
      obtain ⟨i1, i2, i3⟩ := hI.pos hpos
      refine wp_require (mp_int_copy_spec hE h1 (g1.get 2) (g1.get 0) (g1.ow 0) fun m2 h2 => ⟨rfl, ?_⟩)
      refine rest m2 _ _ h2 (g1.upd 0 _) ?_ ?_ ?_ ?_ ?_ ?_
      · simp [sval]; omega
      · simpa using hv
      · simp [sval]
      · simpa using i1
      · simp [sval]
        rw [show (2 * (o : Int) + 1).natAbs = 2 * o + 1 by omega, ← i2, hj, gcd_strip (by omega)]
      · simp [sval]
        have := i3 j o hj
        rw [show (2 * (o : Int) + 1).natAbs = 2 * o + 1 by omega]
        rw [Nat.pow_succ] at this; omega
    · have hneg : V 2 < 0 := by
        by_contra hc
        rw [decide_eq_false hc] at hs
        simp [sval] at hs
        omega
      rw [decide_eq_true hneg] at h1 g1
      obtain ⟨i1, i2, i3⟩ := hI.neg hneg
      refine wp_require (mp_int_neg_spec hE h1 (g1.get 2) (g1.get 1) (g1.ow 1) fun m2 h2 => ⟨rfl, ?_⟩)
      refine rest m2 _ _ h2 (g1.upd 1 _) ?_ ?_ ?_ ?_ ?_ ?_
      · simpa using hu
      · simp [sval]; omega
      · simpa using i1
      · simp [sval]
      · simp [sval]
        rw [show (2 * (o : Int) + 1).natAbs = 2 * o + 1 by omega, ← i2, hj, gcd_strip (by omega), Nat.gcd_comm]
      · simp [sval]
        have := i3 j o hj
        rw [show (2 * (o : Int) + 1).natAbs = 2 * o + 1 by omega, Nat.mul_comm]
        rw [Nat.pow_succ] at this; omega

theorem split_two (n : Nat) (h : n ≠ 0) : ∃ k o, n = 2 ^ k * (2 * o + 1) := by
  obtain ⟨k, q, hq, e⟩ := Nat.exists_eq_two_pow_mul_odd h
  obtain ⟨o, rfl⟩ := hq
  exact ⟨k, o, e⟩

theorem lt_two_pow_ndig (v : Int) : v.natAbs < 2 ^ (32 * ndig v) := by
  rw [Nat.pow_mul]; exact lt_pow_ndig v

/-- The values with which the loop of `mp_int_gcd` starts. -/
theorem gcd_start {X Y p q o o' k f : Nat} (hX : X = 2 ^ p * (2 * o + 1)) (hY : Y = 2 ^ q * (2 * o' + 1)) (hk : k = min p q)
    (hf : X * Y < 2 ^ f) : Nat.gcd X Y = 2 ^ k * Nat.gcd (X / 2 ^ k) (Y / 2 ^ k) ∧ 0 < X / 2 ^ k ∧ 0 < Y / 2 ^ k ∧
      X / 2 ^ k * (Y / 2 ^ k) < 2 ^ f ∧ ((X / 2 ^ k) % 2 = 0 → (Y / 2 ^ k) % 2 = 1) := by
  have h2 : 0 < 2 ^ k := Nat.pow_pos (by decide)
  have eX : X = 2 ^ k * (2 ^ (p - k) * (2 * o + 1)) := by
    rw [← Nat.mul_assoc, ← Nat.pow_add, show k + (p - k) = p by omega]; exact hX
  have eY : Y = 2 ^ k * (2 ^ (q - k) * (2 * o' + 1)) := by
    rw [← Nat.mul_assoc, ← Nat.pow_add, show k + (q - k) = q by omega]; exact hY
  have dX : X / 2 ^ k = 2 ^ (p - k) * (2 * o + 1) := by rw [eX, Nat.mul_div_cancel_left _ h2]
  have dY : Y / 2 ^ k = 2 ^ (q - k) * (2 * o' + 1) := by rw [eY, Nat.mul_div_cancel_left _ h2]
  refine ⟨?_, ?_, ?_, ?_, ?_⟩
  · rw [dX, dY, ← Nat.gcd_mul_left, ← eX, ← eY]
  · rw [dX]; exact Nat.mul_pos (Nat.pow_pos (by decide)) (by omega)
  · rw [dY]; exact Nat.mul_pos (Nat.pow_pos (by decide)) (by omega)
  · exact lt_of_le_of_lt (Nat.mul_le_mul (Nat.div_le_self _ _) (Nat.div_le_self _ _)) hf
  · intro he
    rcases Nat.le_total p q with h | h
    · rw [dX, show p - k = 0 by omega, pow_zero, one_mul] at he; omega
    · rw [dY, show q - k = 0 by omega, pow_zero, one_mul]; omega

theorem gcd_init {U W : Int} {f : Nat} (hU : 0 < U) (hW : 0 < W) (hf : U.natAbs * W.natAbs < 2 ^ f)
    (ho : U % 2 = 0 → W % 2 = 1) :
    GcdInv U W (if U % 2 ≠ 0 then -W else U) (Nat.gcd U.natAbs W.natAbs) (2 ^ f) := by
  refine ⟨hU, hW, by split <;> omega, ?_, ?_⟩
  · split
    · intro; omega
    · intro _
      refine ⟨ho (by omega), rfl, fun k o hk => lt_of_le_of_lt (Nat.mul_le_mul_right _ ?_) hf⟩
      rw [hk]; exact Nat.le_mul_of_pos_left _ (Nat.pow_pos (by decide))
  · split
    · intro _
      refine ⟨by omega, by rw [Int.natAbs_neg, Nat.gcd_comm], fun k o hk => lt_of_le_of_lt (Nat.mul_le_mul_right _ ?_) (Nat.mul_comm _ _ ▸ hf)⟩
      rw [Int.natAbs_neg] at hk
      rw [hk]; exact Nat.le_mul_of_pos_left _ (Nat.pow_pos (by decide))
    · intro; omega

theorem s_qdiv_nat {Q : Unit → Mem → Prop} {p2 n : Nat} (h : R2 m σ) (hz : σ z = some (n : Int))
    (hQ : ∀ m', R2 m' (upd σ z (some ((n / 2 ^ p2 : Nat) : Int))) → Q () m') : wp env E (s_qdiv z p2) Q m := by
  refine s_qdiv_spec h hz fun m' h' => hQ m' ?_
  rw [decide_eq_false (not_lt.2 (Int.natCast_nonneg _)), Int.natAbs_natCast] at h'
  exact h'

theorem MIN_nat (p q : Nat) : MIN (p : Int) (q : Int) = ((min p q : Nat) : Int) := by
  unfold MIN; split <;> omega

theorem gcd_tail {Q : Int → Mem → Prop} {k F G U W : Nat} {t : Int} (hE : Ref env E) (hc : σ c = some w)
    (ho : c.own = true) (hk : k < 4294967296) (hI : GcdInv U W t (Nat.gcd U W) (2 ^ F))
    (h : R2 m σ') (g : Tmps σ 3 T (L [(U : Int), W, t]) σ') (hG : G = 2 ^ k * Nat.gcd U W)
    (hQ : ∀ m', R2 m' (upd σ c (some (G : Int))) → Q MP_OK m') :
    wp env E (gcdLoop (T 0) (T 1) (T 2)
      (REQUIRE (mp_int_abs (T 0) c) do
        if (← s_qmul c k) then pure MP_OK else pure MP_MEMORY) (F + 1)) (fun r m'' => TDone 3 T Q r m'') m := by
  refine gcdLoop_spec (g := Nat.gcd U W) hE (fun m9 σ9 V9 r9 g9 hV9 => ?_) (by tsimp; exact hI) h g
  refine wp_require (mp_int_abs_spec hE r9 (g9.get 0) (g9.out hc) ho fun m10 r10 => ⟨rfl, ?_⟩)
  obtain ⟨σ10, r10, g10⟩ := g9.up_out hc r10
  have hc10 : upd σ c (some |V9 0|) c = some |V9 0| := upd_self _ _ _
  refine wp_bind (s_qmul_spec hE r10 (g10.out hc10) ho hk fun m11 r11 => wp_if_pos rfl (wp_pure ?_))
  obtain ⟨σ11, r11, g11⟩ := g10.up_out hc10 r11
  refine .mk g11 r11 fun m12 r12 => hQ m12 ?_
  rw [upd_upd] at r12
  have e : |V9 0| * 2 ^ k = (G : Int) := by
    rw [hV9, hG]; push_cast
    rw [abs_of_nonneg (by positivity), Int.mul_comm]
  rw [e] at r12; exact r12

theorem mp_int_gcd_spec {Q : Int → Mem → Prop} (hE : Ref env E) (h : R2 m σ)
    (ha : σ a = some x) (hb : σ b = some y) (hc : σ c = some w) (ho : c.own = true)
    (hQ0 : x = 0 → y = 0 → Q MP_UNDEF m)
    (hQ : ¬ (x = 0 ∧ y = 0) → ∀ m', R2 m' (upd σ c (some (Int.gcd x y : Int))) → Q MP_OK m') :
    wp env E (mp_int_gcd a b c) Q m := by
  unfold mp_int_gcd
  refine wp_bind (CMPZ_spec h ha ?_)
  refine wp_bind (CMPZ_spec h hb ?_)
  have sx : x.sign = 0 ↔ x = 0 := Int.sign_eq_zero_iff_zero
  have sy : y.sign = 0 ↔ y = 0 := Int.sign_eq_zero_iff_zero
  refine wp_ite (fun h0 => wp_pure (hQ0 (sx.1 h0.1) (sy.1 h0.2))) (fun h0 => ?_)
  rw [sx, sy] at h0
  refine wp_ite (fun h1 => ?_) (fun h1 => ?_)
  · rw [sx] at h1
    refine mp_int_abs_spec hE h hb hc ho fun m' h' => hQ h0 m' ?_
    rw [h1, Int.gcd_zero_left, ← Int.abs_eq_natAbs]; exact h'
  rw [sx] at h1
  refine wp_ite (fun h2 => ?_) (fun h2 => ?_)
  · rw [sy] at h2
    refine mp_int_abs_spec hE h ha hc ho fun m' h' => hQ h0 m' ?_
    rw [h2, Int.gcd_zero_right, ← Int.abs_eq_natAbs]; exact h'
  rw [sy] at h2
  refine wp_bind (MP_USED_val h ha fun _ => ?_)
  refine wp_bind (MP_USED_val h hb fun _ => ?_)
  refine withTemp3_spec h fun T V σ1 m1 g1 r1 hV => ?_
  replace g1 := g1.start [0, 0, 0] hV
  refine wp_require (mp_int_copy_spec hE r1 (g1.out ha) (g1.get 0) (g1.ow 0) fun m2 r2 => ⟨rfl, ?_⟩)
  obtain ⟨σ2, r2, g2⟩ := g1.up 0 r2
  tsimp at g2
  refine wp_require (mp_int_copy_spec hE r2 (g2.out hb) (g2.get 1) (g2.ow 1) fun m3 r3 => ⟨rfl, ?_⟩)
  obtain ⟨σ3, r3, g3⟩ := g2.up 1 r3
  tsimp at g3
  refine wp_bind (setSign_spec r3 (g3.get 0) (by simp) fun m4 r4 => ?_)
  obtain ⟨σ4, r4, g4⟩ := g3.up 0 r4
  tsimp at g4
  refine wp_bind (setSign_spec r4 (g4.get 1) (by simp) fun m5 r5 => ?_)
  obtain ⟨σ5, r5, g5⟩ := g4.up 1 r5
  tsimp at g5
  simp only [sval, Bool.false_eq_true, if_false] at g5
  refine wp_bind (s_dp2k_spec r5 (g5.get 0) (by tsimp; omega) fun p o hp hpl => ?_)
  refine wp_bind (s_dp2k_spec r5 (g5.get 1) (by tsimp; omega) fun q o' hq hql => ?_)
  tsimp at hp hq
  rw [Int.natAbs_natCast] at hp hq
  simp only [MIN_nat]
  obtain ⟨k, hk⟩ : ∃ k, k = min p q := ⟨_, rfl⟩
  have hk32 : k < 4294967296 := by omega
  rw [← hk, intU32_of_nat hk32]
  have hf : x.natAbs * y.natAbs < 2 ^ (32 * (ndig x + ndig y) + 1) := by
    have h1 := Nat.mul_lt_mul'' (lt_two_pow_ndig x) (lt_two_pow_ndig y)
    rw [← Nat.pow_add] at h1
    exact lt_of_lt_of_le h1 (Nat.pow_le_pow_right (by decide) (by omega))
  obtain ⟨k1, k2, k3, k4, k5⟩ := gcd_start hp hq hk hf
  refine wp_bind (s_qdiv_nat (n := x.natAbs) r5 (g5.get 0) fun m6 r6 => ?_)
  obtain ⟨σ6, r6, g6⟩ := g5.up 0 r6
  tsimp at g6
  refine wp_bind (s_qdiv_nat (n := y.natAbs) r6 (g6.get 1) fun m7 r7 => ?_)
  obtain ⟨σ7, r7, g7⟩ := g6.up 1 r7
  tsimp at g7
  obtain ⟨U, hU⟩ : ∃ U : Nat, U = x.natAbs / 2 ^ k := ⟨_, rfl⟩
  obtain ⟨W, hW⟩ : ∃ W : Nat, W = y.natAbs / 2 ^ k := ⟨_, rfl⟩
  rw [← hU, ← hW] at k1 g7 k4 k5
  rw [← hU] at k2
  rw [← hW] at k3
  have hI := gcd_init (U := U) (W := W) (f := 32 * (ndig x + ndig y) + 1) (by omega) (by omega) (by simpa using k4) (by omega)
  refine wp_bind (mp_int_is_odd_spec r7 (g7.get 0) ?_)
  tsimp
  refine wp_require ?_
  rw [show Int.gcd x y = 2 ^ k * Nat.gcd U W by rw [Int.gcd_def, k1]] at hQ
  refine wp_ite (fun hodd => ?_) (fun hodd => ?_)
  · rw [if_pos (of_decide_eq_true hodd)] at hI
    refine mp_int_neg_spec hE r7 (g7.get 1) (g7.get 2) (g7.ow 2) fun m8 r8 => ⟨rfl, ?_⟩
    obtain ⟨σ8, r8, g8⟩ := g7.up 2 r8
    tsimp at g8
    exact gcd_tail hE hc ho hk32 hI r8 g8 rfl (hQ h0)
  · rw [if_neg (fun hh => hodd (decide_eq_true hh))] at hI
    refine mp_int_copy_spec hE r7 (g7.get 0) (g7.get 2) (g7.ow 2) fun m8 r8 => ⟨rfl, ?_⟩
    obtain ⟨σ8, r8, g8⟩ := g7.up 2 r8
    tsimp at g8
    exact gcd_tail hE hc ho hk32 hI r8 g8 rfl (hQ h0)

theorem mp_int_lcm_spec {Q : Int → Mem → Prop} (hE : Ref env E) (h : R2 m σ)
    (ha : σ a = some x) (hb : σ b = some y) (hc : σ c = some w) (ho : c.own = true)
    (hQ0 : x = 0 → y = 0 → ∀ m', R2 m' σ → Q MP_UNDEF m')
    (hQ : ¬ (x = 0 ∧ y = 0) → ∀ m', R2 m' (upd σ c (some (x.tdiv (Int.gcd x y) * y))) → Q MP_OK m') :
    wp env E (mp_int_lcm a b c) Q m := by
  unfold mp_int_lcm
  refine withTemp1_spec h fun T V σ1 m1 g1 r1 hV => ?_
  replace g1 := g1.start [0] hV
  unfold REQUIRE
  refine wp_bind (mp_int_gcd_spec hE r1 (g1.out ha) (g1.out hb) (g1.get 0) (g1.ow 0) (fun h1 h2 => ?_) fun h0 m2 r2 => ?_)
  · refine wp_if_pos (by decide) (wp_pure (.mk g1 r1 (hQ0 h1 h2)))
  refine wp_if_neg (by simp) ?_
  obtain ⟨σ2, r2, g2⟩ := g1.up 0 r2
  tsimp at g2
  have hg : (Int.gcd x y : Int) ≠ 0 := by
    intro hg
    have : Int.gcd x y = 0 := by exact_mod_cast hg
    exact h0 (Int.gcd_eq_zero_iff.1 this)
  refine wp_bind (mp_int_div_spec hE r2 (g2.out ha) (g2.get 0) (by simp) (fun z hz => ?_) (by simp) (fun h1 => absurd h1 hg) fun _ m3 r3 => ?_)
  · cases hz; exact ⟨⟨_, g2.get 0⟩, g2.ow 0⟩
  refine wp_if_neg (by simp) ?_
  simp only [updO] at r3
  obtain ⟨σ3, r3, g3⟩ := g2.up 0 r3
  tsimp at g3
  refine wp_bind (mp_int_mul_spec hE r3 (g3.get 0) (g3.out hb) (g3.get 0) (g3.ow 0) fun m4 r4 => wp_if_neg (by simp) ?_)
  obtain ⟨σ4, r4, g4⟩ := g3.up 0 r4
  tsimp at g4
  refine wp_bind (mp_int_copy_spec hE r4 (g4.get 0) (g4.out hc) ho fun m5 r5 => wp_if_neg (by simp) (wp_pure ?_))
  obtain ⟨σ5, r5, g5⟩ := g4.up_out hc r5
  exact .mk g5 r5 (hQ h0)

end Imath
