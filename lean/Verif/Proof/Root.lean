import Verif.Proof.Temps

/-! # Integer roots -/

namespace Imath

variable {env : Env} {E : Fault → Prop} {m : Mem} {σ σ' : Id → Option Int}
  {z a b c : Id} {x y w v : Int} {T : Nat → Id} {V : Nat → Int}

/-- `t^b - r^b ≤ b (t - r) t^(b-1)`. -/
theorem pow_sub_le {r t : Int} (hr : 0 ≤ r) (hrt : r ≤ t) (b : Nat) : t ^ (b + 1) - r ^ (b + 1) ≤ (b + 1) * (t - r) * t ^ b := by
  induction b with
  | zero => simp
  | succ b ih =>
    have h1 : t * (t ^ (b + 1) - r ^ (b + 1)) ≤ t * ((b + 1) * (t - r) * t ^ b) := Int.mul_le_mul_of_nonneg_left ih (by omega)
    have h2 : (t - r) * r ^ (b + 1) ≤ (t - r) * t ^ (b + 1) :=
      Int.mul_le_mul_of_nonneg_left (pow_le_pow_left₀ hr hrt _) (by omega)
    have e1 : t ^ (b + 1 + 1) - r ^ (b + 1 + 1) = t * (t ^ (b + 1) - r ^ (b + 1)) + (t - r) * r ^ (b + 1) := by ring
    have e2 : (((b + 1 : Nat) : Int) + 1) * (t - r) * t ^ (b + 1) = t * ((b + 1) * (t - r) * t ^ b) + (t - r) * t ^ (b + 1) := by
      push_cast; ring
    rw [e1, e2]; omega

/-- One Newton step from above does not go below the root, even if it is shortened. -/
theorem newton_step {r t N d : Int} {b : Nat} (hr : 0 ≤ r) (hrt : r ≤ t) (ht : 0 < t) (hN : r ^ (b + 1) ≤ N) (hd : (b : Int) + 1 ≤ d) :
    r ≤ t - (t ^ (b + 1) - N) / (t ^ b * d) := by
  have hp : 0 < t ^ b * d := Int.mul_pos (Int.pow_pos ht) (by omega)
  have h1 := pow_sub_le hr hrt b
  have : (t ^ (b + 1) - N) / (t ^ b * d) ≤ t - r := by
    refine Int.ediv_le_of_le_mul hp ?_
    have h2 : (t - r) * (t ^ b * (b + 1)) = (b + 1) * (t - r) * t ^ b := by ring
    have h3 : (t - r) * (t ^ b * (b + 1)) ≤ (t - r) * (t ^ b * d) :=
      Int.mul_le_mul_of_nonneg_left (Int.mul_le_mul_of_nonneg_left hd (Int.pow_nonneg ht.le)) (by omega)
    omega
  omega

/-- The powers are computed with the exponent `d` modulo 2^32, and the steps of the iteration are shorter than they should be
if `d` is not less than that. -/
theorem rootLoop_spec {Q : Int → Mem → Prop} {k : M Int} {f B : Nat} {d r N t0 v2 v3 v4 : Int} (hE : Ref env E)
    (hd1 : 0 < d) (hd2 : d < 2 ^ 63) (hdB : d % 2 ^ 32 = B + 1) (hr : 0 ≤ r) (hrN : r ^ (B + 1) ≤ N) (hNr : N < (r + 1) ^ (B + 1))
    (hk : ∀ m' σ' V, R2 m' σ' → Tmps σ 5 T V σ' → V 1 = r → wp env E k Q m')
    (ht : r ≤ t0) (hf : t0 < f) (h : R2 m σ') (gT : Tmps σ 5 T (L [N, t0, v2, v3, v4]) σ') :
    wp env E (rootLoop d (T 0) (T 1) (T 2) (T 3) (T 4) k f) Q m := by
  have hN0 : 0 ≤ N := le_trans (Int.pow_nonneg hr) hrN
  induction f generalizing t0 v2 v3 v4 σ' m with
  | zero => exfalso; omega
  | succ f ih =>
    have ht0 : 0 ≤ t0 := by omega
    rw [rootLoop]
    refine wp_require (mp_int_expt_spec hE h (gT.get 1) (gT.get 2) (gT.ow 2) (fun e => by omega) fun _ m1 r1 => ⟨rfl, ?_⟩)
    obtain ⟨σ1, r1, g1⟩ := gT.up 2 r1
    tsimp at g1
    rw [show Int.toNat (d % 2 ^ 32) = B + 1 by omega] at g1
    have hp0 : 0 ≤ t0 ^ (B + 1) := Int.pow_nonneg ht0
    refine wp_bind (mp_int_compare_unsigned_spec r1 (g1.get 2) (g1.get 0) ?_)
    have hab : cmpZ |t0 ^ (B + 1)| |N| = cmpZ (t0 ^ (B + 1)) N := by rw [abs_of_nonneg hp0, abs_of_nonneg hN0]
    refine wp_ite (fun hc => ?_) (fun hc => ?_) <;> tsimp at hc <;> rw [hab] at hc
    · have hle : t0 ^ (B + 1) ≤ N := by
        by_contra hlt
        have := cmpZ_pos.2 (not_le.1 hlt)
        omega
      refine hk m1 σ1 _ r1 g1 ?_
      tsimp
      have : t0 < r + 1 := lt_of_pow_lt_pow_left₀ (B + 1) (by omega) (lt_of_le_of_lt hle hNr)
      omega
    · have hgt : N < t0 ^ (B + 1) := cmpZ_pos.1 (by omega)
      have hrt : r < t0 := by
        by_contra hle
        have : t0 = r := by omega
        rw [this] at hgt; omega
      refine wp_require (mp_int_sub_spec hE r1 (g1.get 2) (g1.get 0) (g1.get 2) (g1.ow 2) fun m2 r2 => ⟨rfl, ?_⟩)
      obtain ⟨σ2, r2, g2⟩ := g1.up 2 r2
      tsimp at g2
      refine wp_require (mp_int_expt_spec hE r2 (g2.get 1) (g2.get 3) (g2.ow 3) (fun e => by omega) fun _ m3 r3 => ⟨rfl, ?_⟩)
      obtain ⟨σ3, r3, g3⟩ := g2.up 3 r3
      tsimp at g3
      rw [show Int.toNat ((d - 1) % 2 ^ 32) = B by omega] at g3
      refine wp_require (mp_int_mul_value_spec hE (by omega) (by omega) r3 (g3.get 3) (g3.get 3) (g3.ow 3) fun m4 r4 => ⟨rfl, ?_⟩)
      obtain ⟨σ4, r4, g4⟩ := g3.up 3 r4
      tsimp at g4
      have hd : 0 < t0 ^ B * d := Int.mul_pos (Int.pow_pos (by omega)) (by omega)
      refine wp_require (mp_int_div_spec hE r4 (g4.get 2) (g4.get 3) (by simp) ?_ (by simp) (fun e => ?_) fun _ m5 r5 => ⟨rfl, ?_⟩)
      · rintro z ⟨⟩; exact ⟨⟨_, g4.get 4⟩, g4.ow 4⟩
      · tsimp at e; omega
      simp only [updO] at r5
      obtain ⟨σ5, r5, g5⟩ := g4.up 4 r5
      tsimp at g5
      rw [Int.tdiv_eq_ediv_of_nonneg (by omega)] at g5
      refine wp_require (mp_int_sub_spec hE r5 (g5.get 1) (g5.get 4) (g5.get 4) (g5.ow 4) fun m6 r6 => ⟨rfl, ?_⟩)
      obtain ⟨σ6, r6, g6⟩ := g5.up 4 r6
      tsimp at g6
      have hs := newton_step (b := B) (d := d) hr (le_of_lt hrt) (by omega) hrN (by omega)
      obtain ⟨q, hq⟩ : ∃ q, q = (t0 ^ (B + 1) - N) / (t0 ^ B * d) := ⟨_, rfl⟩
      have hq0 : 0 ≤ q := by rw [hq]; exact Int.ediv_nonneg (by omega) (by omega)
      rw [← hq] at hs
      rw [← hq] at g6
      refine wp_bind (mp_int_compare_unsigned_spec r6 (g6.get 1) (g6.get 4) ?_)
      have hab2 : cmpZ |t0| |t0 - q| = cmpZ t0 (t0 - q) := by rw [abs_of_nonneg ht0, abs_of_nonneg (by omega)]
      refine wp_ite (fun he => ?_) (fun he => ?_) <;> tsimp at he <;> rw [hab2] at he
      · have e : t0 = t0 - q := by
          unfold cmpZ at he
          revert he
          split
          · simp
          · split
            · intro _; assumption
            · simp
        refine wp_require (mp_int_sub_value_spec hE (by decide) (by decide) r6 (g6.get 4) (g6.get 4) (g6.ow 4) fun m7 r7 => ⟨rfl, ?_⟩)
        obtain ⟨σ7, r7, g7⟩ := g6.up 4 r7
        tsimp at g7
        refine wp_require (mp_int_copy_spec hE r7 (g7.get 4) (g7.get 1) (g7.ow 1) fun m8 r8 => ⟨rfl, ?_⟩)
        obtain ⟨σ8, r8, g8⟩ := g7.up 1 r8
        tsimp at g8
        exact ih (by omega) (by omega) r8 g8
      · have e : q ≠ 0 := by
          rintro rfl
          rw [Int.sub_zero] at he
          simp [cmpZ] at he
        refine wp_require (mp_int_copy_spec hE r6 (g6.get 4) (g6.get 1) (g6.ow 1) fun m8 r8 => ⟨rfl, ?_⟩)
        obtain ⟨σ8, r8, g8⟩ := g6.up 1 r8
        tsimp at g8
        exact ih (by omega) (by omega) r8 g8

theorem exists_root (N b : Nat) (hb : 0 < b) : ∃ r : Nat, r ^ b ≤ N ∧ N < (r + 1) ^ b := by
  induction N with
  | zero => exact ⟨0, by rw [Nat.zero_pow hb], by simp⟩
  | succ N ih =>
    obtain ⟨r, h1, h2⟩ := ih
    by_cases h : N + 1 < (r + 1) ^ b
    · exact ⟨r, by omega, h⟩
    · refine ⟨r + 1, by omega, ?_⟩
      have := Nat.pow_lt_pow_left (show r + 1 < r + 1 + 1 by omega) (show b ≠ 0 by omega)
      omega

/-- All degrees: the root is taken of the degree modulo 2^32.  If this is 0, the first approximation (which is the number itself) is
taken to be good enough, except that 0 leads to a division by zero. -/
theorem mp_int_root_gen {Q : Int → Mem → Prop} {D B : Nat} (hE : Ref env E) (h : R2 m σ)
    (ha : σ a = some x) (hc : σ c = some w) (ho : c.own = true) (hD0 : 0 < D) (hD : D < 2 ^ 63) (hDB : D % 2 ^ 32 = B)
    (hQ0 : x < 0 → D % 2 = 0 → Q MP_UNDEF m)
    (hQz : B = 0 → x = 0 → ∀ m', R2 m' σ → Q MP_UNDEF m')
    (hQe : B = 0 → 0 < x → ∀ m', R2 m' (upd σ c (some x)) → Q MP_OK m')
    (hQ : ¬ (x < 0 ∧ D % 2 = 0) → 0 < B → ∀ r : Nat, r ^ B ≤ x.natAbs → x.natAbs < (r + 1) ^ B →
      ∀ m', R2 m' (upd σ c (some (if x < 0 then -(r : Int) else r))) → Q MP_OK m') :
    wp env E (mp_int_root a (D : Int) c) Q m := by
  unfold mp_int_root
  refine wp_bind (wp_cassert (by simp; omega) ?_)
  refine wp_ite (fun h1 => ?_) (fun h1 => ?_)
  · have e1 : D = 1 := by omega
    have e2 : B = 1 := by omega
    subst e2
    refine mp_int_copy_spec hE h ha hc ho fun m' h' => hQ (by omega) (by omega) x.natAbs (by simp) (by simp) m' ?_
    rw [show (if x < 0 then -(x.natAbs : Int) else x.natAbs) = x by split <;> omega]
    exact h'
  refine wp_bind (MP_SIGN_spec h ha ?_)
  refine wp_ite (fun h2 => ?_) (fun h2 => ?_)
  · rw [decide_eq_true_eq] at h2
    exact wp_pure (hQ0 h2.1 (by omega))
  rw [decide_eq_true_eq] at h2
  refine wp_bind (MP_USED_val h ha fun _ => ?_)
  refine withTemp5_spec h fun T V σ1 m1 g1 r1 hV => ?_
  replace g1 := g1.start [0, 0, 0, 0, 0] hV
  refine wp_require (mp_int_copy_spec hE r1 (g1.out ha) (g1.get 0) (g1.ow 0) fun m2 r2 => ⟨rfl, ?_⟩)
  obtain ⟨σ2, r2, g2⟩ := g1.up 0 r2
  tsimp at g2
  refine wp_require (mp_int_copy_spec hE r2 (g2.out ha) (g2.get 1) (g2.ow 1) fun m3 r3 => ⟨rfl, ?_⟩)
  obtain ⟨σ3, r3, g3⟩ := g2.up 1 r3
  tsimp at g3
  refine wp_bind (setSign_spec r3 (g3.get 0) (by simp) fun m4 r4 => ?_)
  obtain ⟨σ4, r4, g4⟩ := g3.up 0 r4
  tsimp at g4
  refine wp_bind (setSign_spec r4 (g4.get 1) (by simp) fun m5 r5 => ?_)
  obtain ⟨σ5, r5, g5⟩ := g4.up 1 r5
  tsimp at g5
  simp only [sval, Bool.false_eq_true, if_false] at g5
  rcases Nat.eq_zero_or_pos B with hB0 | hB0
  · have hx : 0 ≤ x := by by_contra; exact h2 ⟨by omega, by omega⟩
    obtain ⟨f, hf⟩ : ∃ f, f = 𝔹 ^ ndig x := ⟨_, rfl⟩
    rw [← hf, rootLoop]
    refine wp_require (mp_int_expt_spec hE r5 (g5.get 1) (g5.get 2) (g5.ow 2) (fun e => by omega) fun _ m6 s6 => ⟨rfl, ?_⟩)
    obtain ⟨σ6, r6, g6⟩ := g5.up 2 s6
    tsimp at g6
    rw [show Int.toNat ((D : Int) % 2 ^ 32) = 0 by omega, pow_zero] at g6
    refine wp_bind (mp_int_compare_unsigned_spec r6 (g6.get 2) (g6.get 0) ?_)
    tsimp
    rcases Int.lt_or_eq_of_le hx with hx | hx
    · refine wp_if_pos ?_ ?_
      · have : ¬ (cmpZ |1| |((x.natAbs : Nat) : Int)| > 0) := by
          intro h; rw [cmpZ_pos, abs_one, abs_of_nonneg (by omega)] at h; omega
        omega
      · refine wp_require (mp_int_copy_spec hE r6 (g6.get 1) (g6.out hc) ho fun m7 r7 => ⟨rfl, ?_⟩)
        obtain ⟨σ7, r7, g7⟩ := g6.up_out hc r7
        tsimp at g7
        refine wp_if_neg (by rw [decide_eq_true_eq]; omega) ?_
        refine wp_pure (.mk g7 r7 fun m9 r9 => hQe hB0 hx m9 ?_)
        rw [show ((x.natAbs : Nat) : Int) = x by omega] at r9; exact r9
    · subst hx
      refine wp_if_neg (by decide) ?_
      refine wp_require (mp_int_sub_spec hE r6 (g6.get 2) (g6.get 0) (g6.get 2) (g6.ow 2) fun m7 r7 => ⟨rfl, ?_⟩)
      obtain ⟨σ7, r7, g7⟩ := g6.up 2 r7
      tsimp at g7
      refine wp_require (mp_int_expt_spec hE r7 (g7.get 1) (g7.get 3) (g7.ow 3) (fun e => by omega) fun _ m8 r8 => ⟨rfl, ?_⟩)
      obtain ⟨σ8, r8, g8⟩ := g7.up 3 r8
      tsimp at g8
      rw [show Int.toNat (((D : Int) - 1) % 2 ^ 32) = 4294967294 + 1 by omega, show ((Int.natAbs 0 : Nat) : Int) = 0 by rfl,
        pow_succ, mul_zero] at g8
      refine wp_require (mp_int_mul_value_spec hE (by omega) (by omega) r8 (g8.get 3) (g8.get 3) (g8.ow 3) fun m9 r9 => ⟨rfl, ?_⟩)
      obtain ⟨σ9, r9, g9⟩ := g8.up 3 r9
      tsimp at g9
      rw [zero_mul] at g9
      refine wp_bind (mp_int_div_spec hE r9 (g9.get 2) (g9.get 3) (by simp) ?_ (by simp) (fun e => wp_if_pos (by decide) ?_) fun e => ?_)
      · rintro z ⟨⟩; exact ⟨⟨_, g9.get 4⟩, g9.ow 4⟩
      · exact wp_pure (.mk g9 r9 fun m10 r10 => hQz hB0 rfl m10 r10)
      · tsimp at e; omega
  obtain ⟨r, hr1, hr2⟩ := exists_root x.natAbs B hB0
  obtain ⟨F, hF⟩ : ∃ F, F = 𝔹 ^ ndig x + 1 := ⟨_, rfl⟩
  have hlt := lt_pow_ndig x
  rw [← hF]
  obtain ⟨B', rfl⟩ : ∃ B', B = B' + 1 := ⟨B - 1, by omega⟩
  refine rootLoop_spec (B := B') (r := r) (N := x.natAbs) (t0 := x.natAbs) hE (by omega) (by omega) (by omega) (by omega)
    (by exact_mod_cast hr1) (by exact_mod_cast hr2)
    (fun m6 σ6 V6 r6 g6 hV6 => ?_) ?_ (by rw [hF]; omega) r5 g5
  · refine wp_require (mp_int_copy_spec hE r6 (g6.get 1) (g6.out hc) ho fun m7 r7 => ⟨rfl, ?_⟩)
    obtain ⟨σ7, r7, g7⟩ := g6.up_out hc r7
    rw [hV6] at g7
    refine wp_ite (fun h3 => ?_) (fun h3 => ?_)
    · rw [decide_eq_true_eq] at h3
      have hc7 : upd σ c (some (r : Int)) c = some (r : Int) := upd_self _ _ _
      refine wp_bind (mp_int_neg_spec hE r7 (g7.out hc7) (g7.out hc7) ho fun m8 r8 => wp_pure ?_)
      obtain ⟨σ8, r8, g8⟩ := g7.up_out hc7 r8
      refine .mk g8 r8 fun m9 r9 => hQ (by omega) (by omega) r hr1 hr2 m9 ?_
      rw [upd_upd] at r9
      rw [if_pos h3]; exact r9
    · rw [decide_eq_true_eq] at h3
      refine wp_pure (.mk g7 r7 fun m9 r9 => hQ (by omega) (by omega) r hr1 hr2 m9 ?_)
      rw [if_neg h3]; exact r9
  · have h1 : r ^ 1 ≤ r ^ (B' + 1) := by
      rcases Nat.eq_zero_or_pos r with e | e
      · rw [e]; simp
      · exact Nat.pow_le_pow_right e (by omega)
    rw [pow_one] at h1
    have := h1.trans hr1
    omega

theorem mp_int_root_spec {Q : Int → Mem → Prop} {B : Nat} (hE : Ref env E) (h : R2 m σ)
    (ha : σ a = some x) (hc : σ c = some w) (ho : c.own = true) (hB0 : 0 < B) (hB : B < 2 ^ 32)
    (hQ0 : x < 0 → B % 2 = 0 → Q MP_UNDEF m)
    (hQ : ¬ (x < 0 ∧ B % 2 = 0) → ∀ r : Nat, r ^ B ≤ x.natAbs → x.natAbs < (r + 1) ^ B →
      ∀ m', R2 m' (upd σ c (some (if x < 0 then -(r : Int) else r))) → Q MP_OK m') :
    wp env E (mp_int_root a (B : Int) c) Q m :=
  mp_int_root_gen hE h ha hc ho hB0 (by omega) (Nat.mod_eq_of_lt hB) hQ0 (fun e => by omega) (fun e => by omega) fun h1 _ => hQ h1

end Imath
