import Verif.Proof.Rat

/-! # Arithmetic and comparison of rationals -/

namespace Imath

variable {env : Env} {E : Fault → Prop} {m : Mem} {s : Id → Option Cell} {σ σ' : Id → Option Int}
  {z : Id} {a b c : MpQ} {x y w v : Int} {p q o : ℚ} {Q : Int → Mem → Prop}

theorem SepQ.dn (h : SepQ a c) (hc : OutQ σ c) : a.den ≠ c.num := by
  rcases h with rfl | h
  · exact hc.ne.symm
  · exact h.2.2.1

theorem SepQ.nd (h : SepQ a c) (hc : OutQ σ c) : a.num ≠ c.den := by
  rcases h with rfl | h
  · exact hc.ne
  · exact h.2.1

theorem HasQ2.out {n : Nat} {T : Nat → Id} {V : Nat → Int} (h : HasQ2 σ a q) (g : Tmps σ n T V σ') : HasQ2 σ' a q :=
  ⟨g.out h.1, g.out h.2⟩

theorem updQ_clean (hne : c.num ≠ c.den) (u v : Option Int) : updQ (upd (upd σ c.num u) c.den v) c q = updQ σ c q := by
  rw [updQ_updd hne, updQ_updn hne]

theorem updQ_has (hc : c.num ≠ c.den) : HasQ2 (updQ σ c q) c q := by
  unfold updQ
  exact ⟨by rw [upd_ne _ _ hc, upd_self], upd_self ..⟩

theorem den_ne (q : ℚ) : (q.den : Int) ≠ 0 := by exact_mod_cast q.den_nz

/-! ### Identities -/

theorem divInt_self_q (p : ℚ) : Rat.divInt p.num p.den = p := Rat.num_divInt_den p

theorem q_add (p q : ℚ) (e : Int) :
    Rat.divInt (p.num * q.den + e * (q.num * p.den)) (p.den * q.den) = p + e * q := by
  have h1 : (p.den : ℚ) ≠ 0 := by exact_mod_cast p.den_nz
  have h2 : (q.den : ℚ) ≠ 0 := by exact_mod_cast q.den_nz
  rw [Rat.divInt_eq_div]
  conv_rhs => rw [← Rat.num_div_den p, ← Rat.num_div_den q]
  push_cast; field_simp

theorem q_add_same (p q : ℚ) (e : Int) (h : (p.den : Int) = q.den) :
    Rat.divInt (p.num + e * q.num) p.den = p + e * q := by
  have h1 : (p.den : ℚ) ≠ 0 := by exact_mod_cast p.den_nz
  have h2 : (p.den : ℚ) = q.den := by exact_mod_cast h
  rw [Rat.divInt_eq_div]
  conv_rhs => rw [← Rat.num_div_den p, ← Rat.num_div_den q, ← h2]
  push_cast; field_simp

theorem q_mul (p q : ℚ) : Rat.divInt (p.num * q.num) (p.den * q.den) = p * q := by
  have h1 : (p.den : ℚ) ≠ 0 := by exact_mod_cast p.den_nz
  have h2 : (q.den : ℚ) ≠ 0 := by exact_mod_cast q.den_nz
  rw [Rat.divInt_eq_div]
  conv_rhs => rw [← Rat.num_div_den p, ← Rat.num_div_den q]
  push_cast; field_simp

theorem q_div (p : ℚ) (hq : q ≠ 0) : Rat.divInt (p.num * q.den) (p.den * q.num) = p / q := by
  have h1 : (p.den : ℚ) ≠ 0 := by exact_mod_cast p.den_nz
  have h2 : (q.den : ℚ) ≠ 0 := by exact_mod_cast q.den_nz
  have h3 : (q.num : ℚ) ≠ 0 := by exact_mod_cast Rat.num_ne_zero.2 hq
  rw [Rat.divInt_eq_div]
  conv_rhs => rw [← Rat.num_div_den p, ← Rat.num_div_den q]
  push_cast; field_simp

theorem q_add_int (p : ℚ) (y e : Int) : Rat.divInt (p.num + e * (y * p.den)) p.den = p + e * y := by
  have h1 : (p.den : ℚ) ≠ 0 := by exact_mod_cast p.den_nz
  rw [Rat.divInt_eq_div]
  conv_rhs => rw [← Rat.num_div_den p]
  push_cast; field_simp

theorem q_mul_int (p : ℚ) (y : Int) : Rat.divInt (p.num * y) p.den = p * y := by
  have h1 : (p.den : ℚ) ≠ 0 := by exact_mod_cast p.den_nz
  rw [Rat.divInt_eq_div]
  conv_rhs => rw [← Rat.num_div_den p]
  push_cast; field_simp

theorem q_div_int (p : ℚ) (hy : y ≠ 0) : Rat.divInt p.num (p.den * y) = p / y := by
  have h1 : (p.den : ℚ) ≠ 0 := by exact_mod_cast p.den_nz
  have h2 : (y : ℚ) ≠ 0 := by exact_mod_cast hy
  rw [Rat.divInt_eq_div]
  conv_rhs => rw [← Rat.num_div_den p]
  push_cast; field_simp

/-! ### Assignment -/

theorem mp_rat_copy_spec (hE : Ref env E) (h : R2 m σ) (ha : HasQ2 σ a p) (hc : OutQ σ c) (sa : SepQ a c)
    (hQ : ∀ m', R2 m' (updQ σ c p) → Q MP_OK m') : wp env E (mp_rat_copy a c) Q m := by
  obtain ⟨w1, hw1⟩ := hc.num
  obtain ⟨w2, hw2⟩ := hc.den
  unfold mp_rat_copy REQUIRE
  refine wp_bind (mp_int_copy_spec hE h ha.1 hw1 hc.onum fun m1 h1 => wp_if_neg (by simp) ?_)
  exact mp_int_copy_spec hE h1 (by rw [upd_ne _ _ (sa.dn hc)]; exact ha.2) (by rw [upd_ne _ _ hc.ne.symm]; exact hw2) hc.oden hQ

theorem mp_rat_abs_spec (hE : Ref env E) (h : R2 m σ) (ha : HasQ2 σ a p) (hc : OutQ σ c) (sa : SepQ a c)
    (hQ : ∀ m', R2 m' (updQ σ c |p|) → Q MP_OK m') : wp env E (mp_rat_abs a c) Q m := by
  obtain ⟨w1, hw1⟩ := hc.num
  obtain ⟨w2, hw2⟩ := hc.den
  unfold mp_rat_abs REQUIRE
  refine wp_bind (mp_int_abs_spec hE h ha.1 hw1 hc.onum fun m1 h1 => wp_if_neg (by simp) ?_)
  refine mp_int_abs_spec hE h1 (by rw [upd_ne _ _ (sa.dn hc)]; exact ha.2) (by rw [upd_ne _ _ hc.ne.symm]; exact hw2) hc.oden
    fun m2 h2 => hQ m2 ?_
  unfold updQ
  rw [Rat.num_abs_eq_abs_num, Rat.den_abs_eq_den]
  rwa [Nat.abs_cast] at h2

theorem mp_rat_neg_spec (hE : Ref env E) (h : R2 m σ) (ha : HasQ2 σ a p) (hc : OutQ σ c) (sa : SepQ a c)
    (hQ : ∀ m', R2 m' (updQ σ c (-p)) → Q MP_OK m') : wp env E (mp_rat_neg a c) Q m := by
  obtain ⟨w1, hw1⟩ := hc.num
  obtain ⟨w2, hw2⟩ := hc.den
  unfold mp_rat_neg REQUIRE
  refine wp_bind (mp_int_neg_spec hE h ha.1 hw1 hc.onum fun m1 h1 => wp_if_neg (by simp) ?_)
  exact mp_int_copy_spec hE h1 (by rw [upd_ne _ _ (sa.dn hc)]; exact ha.2) (by rw [upd_ne _ _ hc.ne.symm]; exact hw2) hc.oden hQ

theorem mp_rat_zero_spec {Q : Unit → Mem → Prop} (hE : Ref env E) (h : R2 m σ) (hc : OutQ σ c)
    (hQ : ∀ m', R2 m' (updQ σ c 0) → Q () m') : wp env E (mp_rat_zero c) Q m := by
  obtain ⟨w1, hw1⟩ := hc.num
  obtain ⟨w2, hw2⟩ := hc.den
  unfold mp_rat_zero
  refine wp_bind (mp_int_zero_spec h hw1 fun m1 h1 => ?_)
  exact wp_bind (mp_int_set_value_spec hE (by decide) (by decide) h1 (by rw [upd_ne _ _ hc.ne.symm]; exact hw2) hc.oden
    fun m2 h2 => wp_pure (hQ m2 h2))

theorem mp_rat_reduce_spec (hE : Ref env E) (h : R2 m σ)
    (hn : σ c.num = some x) (hd : σ c.den = some y) (hy : x ≠ 0 → y ≠ 0) (hc : OutQ σ c)
    (hQ : ∀ m', R2 m' (updQ σ c (Rat.divInt x y)) → Q MP_OK m') :
    wp env E (mp_rat_reduce c) Q m := s_rat_reduce_spec hE h hn hd hy hc hQ

theorem mp_rat_set_value_spec (hE : Ref env E) (h : R2 m σ) (hx1 : SMALL_MIN < x) (hx2 : x ≤ SMALL_MAX)
    (hy1 : SMALL_MIN < y) (hy2 : y ≤ SMALL_MAX) (hc : OutQ σ c)
    (hQ0 : y = 0 → Q MP_UNDEF m) (hQ : y ≠ 0 → ∀ m', R2 m' (updQ σ c (Rat.divInt x y)) → Q MP_OK m') :
    wp env E (mp_rat_set_value c x y) Q m := by
  obtain ⟨w1, hw1⟩ := hc.num
  obtain ⟨w2, hw2⟩ := hc.den
  unfold mp_rat_set_value
  by_cases hy : y = 0
  · exact wp_if_pos hy (wp_pure (hQ0 hy))
  refine wp_if_neg hy ?_
  unfold REQUIRE
  refine wp_bind (mp_int_set_value_spec hE hx1 hx2 h hw1 hc.onum fun m1 h1 => wp_if_neg (by simp) ?_)
  refine wp_bind (mp_int_set_value_spec hE hy1 hy2 h1 (by rw [upd_ne _ _ hc.ne.symm]; exact hw2) hc.oden fun m2 h2 => wp_if_neg (by simp) ?_)
  refine s_rat_reduce_spec hE h2 (by rw [upd_ne _ _ hc.ne, upd_self]) (upd_self ..) (fun _ => hy) ((hc.upd _ _).upd _ _) fun m3 h3 => hQ hy m3 ?_
  rwa [updQ_clean hc.ne] at h3

theorem mp_rat_set_uvalue_spec {x y : Nat} (hE : Ref env E) (h : R2 m σ) (hx : x < 18446744073709551616)
    (hy' : y < 18446744073709551616) (hc : OutQ σ c)
    (hQ0 : y = 0 → Q MP_UNDEF m) (hQ : y ≠ 0 → ∀ m', R2 m' (updQ σ c (Rat.divInt x y)) → Q MP_OK m') :
    wp env E (mp_rat_set_uvalue c x y) Q m := by
  obtain ⟨w1, hw1⟩ := hc.num
  obtain ⟨w2, hw2⟩ := hc.den
  unfold mp_rat_set_uvalue
  by_cases hy : y = 0
  · exact wp_if_pos hy (wp_pure (hQ0 hy))
  refine wp_if_neg hy ?_
  unfold REQUIRE
  refine wp_bind (mp_int_set_uvalue_spec hE hx h hw1 hc.onum fun m1 h1 => wp_if_neg (by simp) ?_)
  refine wp_bind (mp_int_set_uvalue_spec hE hy' h1 (by rw [upd_ne _ _ hc.ne.symm]; exact hw2) hc.oden fun m2 h2 => wp_if_neg (by simp) ?_)
  refine s_rat_reduce_spec hE h2 (by rw [upd_ne _ _ hc.ne, upd_self]) (upd_self ..) (fun _ => by exact_mod_cast hy) ((hc.upd _ _).upd _ _) fun m3 h3 => hQ hy m3 ?_
  rwa [updQ_clean hc.ne] at h3

theorem mp_rat_recip_spec (hE : Ref env E) (h : R2 m σ) (ha : HasQ2 σ a p) (hc : OutQ σ c) (sa : SepQ a c)
    (hQ0 : p = 0 → Q MP_UNDEF m) (hQ : p ≠ 0 → ∀ m', R2 m' (updQ σ c p⁻¹) → Q MP_OK m') :
    wp env E (mp_rat_recip a c) Q m := by
  unfold mp_rat_recip mp_rat_compare_zero
  refine wp_bind (mp_int_compare_zero_spec h ha.1 ?_)
  by_cases hp : p = 0
  · exact wp_if_pos (by simp [hp]) (wp_pure (hQ0 hp))
  have hn : p.num ≠ 0 := Rat.num_ne_zero.2 hp
  refine wp_if_neg (by simpa [Int.sign_eq_zero_iff_zero] using hp) ?_
  unfold REQUIRE
  refine wp_bind (mp_rat_copy_spec hE h ha hc sa fun m1 h1 => wp_if_neg (by simp) ?_)
  have hh := updQ_has (σ := σ) (q := p) hc.ne
  refine wp_bind (mp_int_swap_spec h1 hh.1 hh.2 hc.onum hc.oden fun m2 h2 => ?_)
  unfold updQ at h2
  rw [upd_comm _ _ _ hc.ne.symm, upd_upd, upd_upd] at h2
  have e1 : upd (upd σ c.num (some (p.den : Int))) c.den (some p.num) c.num = some (p.den : Int) := by
    rw [upd_ne _ _ hc.ne, upd_self]
  have e2 : upd (upd σ c.num (some (p.den : Int))) c.den (some p.num) c.den = some p.num := upd_self ..
  unfold MP_NUMER_SIGN MP_DENOM_SIGN
  refine wp_bind (MP_SIGN_spec h2 e1 (wp_bind (MP_SIGN_spec h2 e2 ?_)))
  refine wp_bind (setSign_spec h2 e1 (fun _ => den_ne p) fun m3 h3 => ?_)
  refine wp_bind (setSign_spec h3 (v := p.num) (by rw [upd_ne _ _ hc.ne.symm]; exact e2) (fun _ => hn) fun m4 h4 => wp_pure (hQ hp m4 ?_))
  rw [upd_comm _ _ _ hc.ne.symm, upd_upd, upd_upd] at h4
  unfold updQ
  have e3 : p⁻¹ = Rat.divInt p.den p.num := by
    rw [Rat.divInt_eq_div]
    conv_lhs => rw [← Rat.num_div_den p]
    rw [inv_div]; simp
  have hg : Int.gcd (p.den : Int) p.num = 1 := by
    rw [Int.gcd_comm]; exact p.reduced
  obtain ⟨e4, e5⟩ := divInt_num_den (x := p.den) hn
  rw [hg, Nat.div_one] at e4 e5
  rw [e3, e4, e5]
  have : ¬ ((p.den : Int) < 0) := by omega
  simpa [this, sval] using h4

/-! ### Arithmetic -/

theorem s_rat_combine_spec {f : Id → Id → Id → M Int} {e : Int} (hE : Ref env E)
    (hf : ∀ {m : Mem} {σ : Id → Option Int} {a b c : Id} {x y w : Int} {Q : Int → Mem → Prop}, R2 m σ →
      σ a = some x → σ b = some y → σ c = some w → c.own = true →
      (∀ m', R2 m' (upd σ c (some (x + e * y))) → Q MP_OK m') → wp env E (f a b c) Q m)
    (h : R2 m σ) (ha : HasQ2 σ a p) (hb : HasQ2 σ b q) (hc : OutQ σ c) (sa : SepQ a c) (sb : SepQ b c)
    (hQ : ∀ m', R2 m' (updQ σ c (p + e * q)) → Q MP_OK m') :
    wp env E (s_rat_combine a b c f) Q m := by
  obtain ⟨w1, hw1⟩ := hc.num
  obtain ⟨w2, hw2⟩ := hc.den
  unfold s_rat_combine
  refine wp_bind (mp_int_compare_spec h ha.2 hb.2 ?_)
  by_cases hd : (p.den : Int) = q.den
  · refine wp_if_pos (cmpZ_eq_zero.2 hd) ?_
    unfold REQUIRE
    refine wp_bind (hf h ha.1 hb.1 hw1 hc.onum fun m1 h1 => wp_if_neg (by simp) ?_)
    refine wp_bind (mp_int_copy_spec hE h1 (x := p.den) (by rw [upd_ne _ _ (sa.dn hc)]; exact ha.2) (by rw [upd_ne _ _ hc.ne.symm]; exact hw2)
      hc.oden fun m2 h2 => wp_if_neg (by simp) ?_)
    refine s_rat_reduce_spec hE h2 (by rw [upd_ne _ _ hc.ne, upd_self]) (upd_self ..) (fun _ => den_ne p) ((hc.upd _ _).upd _ _) fun m3 h3 => hQ m3 ?_
    rwa [updQ_clean hc.ne, q_add_same _ _ _ hd] at h3
  refine wp_if_neg (mt cmpZ_eq_zero.1 hd) ?_
  unfold REQUIRE
  refine wp_bind (withCopy2_spec hE h ha.1 hb.1 fun T σ1 m1 g1 r1 => ?_)
  refine wp_bind (mp_int_mul_spec hE r1 (g1.get 0) (g1.out hb.2) (g1.get 0) (g1.ow 0) fun m2 r2 => wp_if_neg (by simp) ?_)
  obtain ⟨σ2, r2, g2⟩ := g1.up 0 r2
  tsimp at g2
  refine wp_bind (mp_int_mul_spec hE r2 (g2.get 1) (g2.out ha.2) (g2.get 1) (g2.ow 1) fun m3 r3 => wp_if_neg (by simp) ?_)
  obtain ⟨σ3, r3, g3⟩ := g2.up 1 r3
  tsimp at g3
  refine wp_bind (hf r3 (g3.get 0) (g3.get 1) (g3.out hw1) hc.onum fun m4 r4 => wp_if_neg (by simp) ?_)
  obtain ⟨σ4, r4, g4⟩ := g3.up_out hw1 r4
  tsimp at g4
  refine mp_int_mul_spec hE r4 (x := p.den) (y := q.den) (g4.out (by rw [upd_ne _ _ (sa.dn hc)]; exact ha.2)) (g4.out (by rw [upd_ne _ _ (sb.dn hc)]; exact hb.2))
    (g4.out (a := c.den) (by rw [upd_ne _ _ hc.ne.symm]; exact hw2)) hc.oden fun m5 r5 => ?_
  obtain ⟨σ5, r5, g5⟩ := g4.up_out (c := c.den) (by rw [upd_ne _ _ hc.ne.symm]; exact hw2) r5
  refine .mk g5 r5 fun m6 h6 => wp_if_neg (by simp) ?_
  refine s_rat_reduce_spec hE h6 (by rw [upd_ne _ _ hc.ne, upd_self]) (upd_self ..) (fun _ => mul_ne_zero (den_ne p) (den_ne q)) ((hc.upd _ _).upd _ _) fun m7 h7 => hQ m7 ?_
  rwa [updQ_clean hc.ne, q_add] at h7

theorem mp_rat_add_spec (hE : Ref env E) (h : R2 m σ) (ha : HasQ2 σ a p) (hb : HasQ2 σ b q) (hc : OutQ σ c)
    (sa : SepQ a c) (sb : SepQ b c) (hQ : ∀ m', R2 m' (updQ σ c (p + q)) → Q MP_OK m') :
    wp env E (mp_rat_add a b c) Q m :=
  s_rat_combine_spec (e := 1) hE (fun h ha hb hc ho hQ => mp_int_add_spec hE h ha hb hc ho fun m' h' => hQ m' (by rwa [one_mul]))
    h ha hb hc sa sb (by simpa using hQ)

theorem mp_rat_sub_spec (hE : Ref env E) (h : R2 m σ) (ha : HasQ2 σ a p) (hb : HasQ2 σ b q) (hc : OutQ σ c)
    (sa : SepQ a c) (sb : SepQ b c) (hQ : ∀ m', R2 m' (updQ σ c (p - q)) → Q MP_OK m') :
    wp env E (mp_rat_sub a b c) Q m :=
  s_rat_combine_spec (e := -1) hE (fun h ha hb hc ho hQ => mp_int_sub_spec hE h ha hb hc ho fun m' h' => hQ m' (by
    rwa [neg_one_mul, ← sub_eq_add_neg]))
    h ha hb hc sa sb (by simpa [sub_eq_add_neg] using hQ)

theorem mp_rat_mul_spec (hE : Ref env E) (h : R2 m σ) (ha : HasQ2 σ a p) (hb : HasQ2 σ b q) (hc : OutQ σ c)
    (sa : SepQ a c) (sb : SepQ b c) (hQ : ∀ m', R2 m' (updQ σ c (p * q)) → Q MP_OK m') :
    wp env E (mp_rat_mul a b c) Q m := by
  obtain ⟨w1, hw1⟩ := hc.num
  obtain ⟨w2, hw2⟩ := hc.den
  unfold mp_rat_mul REQUIRE
  refine wp_bind (mp_int_mul_spec hE h ha.1 hb.1 hw1 hc.onum fun m1 h1 => wp_if_neg (by simp) ?_)
  refine wp_bind (mp_int_compare_zero_spec h1 (upd_self ..) ?_)
  by_cases h0 : p.num * q.num = 0
  · refine wp_if_neg (by rw [h0]; simp) ?_
    refine s_rat_reduce_spec hE h1 (upd_self ..) (y := w2) (by rw [upd_ne _ _ hc.ne.symm]; exact hw2) (fun h => absurd h0 h) (hc.upd _ _) fun m3 h3 => hQ m3 ?_
    rw [h0, Rat.zero_divInt, updQ_updn hc.ne] at h3
    have : p * q = 0 := by
      rcases mul_eq_zero.1 h0 with h | h
      · rw [Rat.num_eq_zero.1 h, zero_mul]
      · rw [Rat.num_eq_zero.1 h, mul_zero]
    rwa [this]
  refine wp_if_pos (by simpa only [ne_eq, Int.sign_eq_zero_iff_zero] using h0) ?_
  refine wp_bind (mp_int_mul_spec hE h1 (x := p.den) (y := q.den) (by rw [upd_ne _ _ (sa.dn hc)]; exact ha.2) (by rw [upd_ne _ _ (sb.dn hc)]; exact hb.2)
    (by rw [upd_ne _ _ hc.ne.symm]; exact hw2) hc.oden fun m2 h2 => wp_if_neg (by simp) ?_)
  refine s_rat_reduce_spec hE h2 (by rw [upd_ne _ _ hc.ne, upd_self]) (upd_self ..) (fun _ => mul_ne_zero (den_ne p) (den_ne q)) ((hc.upd _ _).upd _ _) fun m3 h3 => hQ m3 ?_
  rwa [updQ_clean hc.ne, q_mul] at h3

theorem mp_rat_div_spec (hE : Ref env E) (h : R2 m σ) (ha : HasQ2 σ a p) (hb : HasQ2 σ b q) (hc : OutQ σ c)
    (sa : SepQ a c) (sb : SepQ b c)
    (hQ0 : q = 0 → Q MP_UNDEF m) (hQ : q ≠ 0 → ∀ m', R2 m' (updQ σ c (p / q)) → Q MP_OK m') :
    wp env E (mp_rat_div a b c) Q m := by
  obtain ⟨w1, hw1⟩ := hc.num
  obtain ⟨w2, hw2⟩ := hc.den
  unfold mp_rat_div mp_rat_compare_zero
  refine wp_bind (mp_int_compare_zero_spec h hb.1 ?_)
  by_cases hq : q = 0
  · exact wp_if_pos (by simp [hq]) (wp_pure (hQ0 hq))
  have hn : q.num ≠ 0 := Rat.num_ne_zero.2 hq
  refine wp_if_neg (by simpa [Int.sign_eq_zero_iff_zero] using hq) ?_
  unfold REQUIRE
  by_cases hal : c = a ∨ c = b
  · refine wp_if_pos hal (wp_bind (withInit_spec h fun T σ1 m1 g1 r1 => ?_))
    refine wp_bind (mp_int_mul_spec hE r1 (g1.out ha.1) (g1.out hb.2) (g1.get 0) (g1.ow 0) fun m2 r2 => wp_if_neg (by simp) ?_)
    obtain ⟨σ2, r2, g2⟩ := g1.up 0 r2
    tsimp at g2
    refine wp_bind (mp_int_mul_spec hE r2 (g2.out ha.2) (g2.out hb.1) (g2.out hw2) hc.oden fun m3 r3 => wp_if_neg (by simp) ?_)
    obtain ⟨σ3, r3, g3⟩ := g2.up_out hw2 r3
    have hw3 : upd σ c.den (some (p.den * q.num)) c.num = some w1 := by rw [upd_ne _ _ hc.ne]; exact hw1
    refine mp_int_copy_spec hE r3 (g3.get 0) (g3.out hw3) hc.onum fun m4 r4 => ?_
    obtain ⟨σ4, r4, g4⟩ := g3.up_out hw3 r4
    refine .mk g4 r4 fun m5 h5 => wp_if_neg (by simp) ?_
    refine s_rat_reduce_spec hE h5 (upd_self ..) (y := p.den * q.num) (by rw [upd_ne _ _ hc.ne.symm, upd_self])
      (fun _ => mul_ne_zero (den_ne p) hn) ((hc.upd _ _).upd _ _) fun m6 h6 => hQ hq m6 ?_
    rw [updQ_updn hc.ne, updQ_updd hc.ne] at h6
    rwa [show L [p.num * q.den] 0 = p.num * q.den from rfl, q_div p hq] at h6
  · have sa' : a.num ≠ c.num ∧ a.num ≠ c.den ∧ a.den ≠ c.num ∧ a.den ≠ c.den := sa.resolve_left fun e => hal (.inl e.symm)
    have sb' : b.num ≠ c.num ∧ b.num ≠ c.den ∧ b.den ≠ c.num ∧ b.den ≠ c.den := sb.resolve_left fun e => hal (.inr e.symm)
    refine wp_if_neg hal (wp_bind (mp_int_mul_spec hE h ha.1 hb.2 hw1 hc.onum fun m2 h2 => wp_if_neg (by simp) ?_))
    refine wp_bind (mp_int_mul_spec hE h2 (x := p.den) (y := q.num) (by rw [upd_ne _ _ sa'.2.2.1]; exact ha.2) (by rw [upd_ne _ _ sb'.1]; exact hb.1)
      (by rw [upd_ne _ _ hc.ne.symm]; exact hw2) hc.oden fun m3 h3 => wp_if_neg (by simp) ?_)
    refine s_rat_reduce_spec hE h3 (by rw [upd_ne _ _ hc.ne, upd_self]) (upd_self ..)
      (fun _ => mul_ne_zero (den_ne p) hn) ((hc.upd _ _).upd _ _) fun m6 h6 => hQ hq m6 ?_
    rwa [updQ_clean hc.ne, q_div p hq] at h6

theorem mp_rat_add_int_spec (hE : Ref env E) (h : R2 m σ) (ha : HasQ2 σ a p) (hb : σ z = some y) (hc : OutQ σ c)
    (sa : SepQ a c) (hQ : ∀ m', R2 m' (updQ σ c (p + y)) → Q MP_OK m') :
    wp env E (mp_rat_add_int a z c) Q m := by
  unfold mp_rat_add_int REQUIRE
  refine withCopy_spec hE h hb fun T σ1 m1 g1 r1 => ?_
  refine wp_bind (mp_int_mul_spec hE r1 (g1.get 0) (g1.out ha.2) (g1.get 0) (g1.ow 0) fun m2 r2 => wp_if_neg (by simp) ?_)
  obtain ⟨σ2, r2, g2⟩ := g1.up 0 r2
  tsimp at g2
  refine wp_bind (mp_rat_copy_spec hE r2 (ha.out g2) (hc.out g2) sa fun m3 r3 => wp_if_neg (by simp) ?_)
  have g3 := g2.updQ (q := p) hc
  have hh := updQ_has (σ := σ) (q := p) hc.ne
  have hc3 : OutQ (updQ σ c p) c := (hc.upd _ _).upd _ _
  refine wp_bind (mp_int_add_spec hE r3 (g3.out hh.1) (g3.get 0) (g3.out hh.1) hc.onum fun m4 r4 => wp_if_neg (by simp) ?_)
  obtain ⟨σ4, r4, g4⟩ := g3.up_out hh.1 r4
  have hc4 := hc3.upd c.num (p.num + L [y * (p.den : Int)] 0)
  refine s_rat_reduce_spec hE r4 (g4.out (upd_self ..)) (g4.out (x := p.den) (by rw [upd_ne _ _ hc.ne.symm]; exact hh.2)) (fun _ => den_ne p) (hc4.out g4) fun m5 r5 => ?_
  refine .mk (g4.updQ hc4) r5 fun m6 h6 => hQ m6 ?_
  rw [updQ_updn hc.ne, show updQ σ c p = upd (upd σ c.num (some p.num)) c.den (some (p.den : Int)) from rfl, updQ_clean hc.ne] at h6
  have := q_add_int p y 1
  rw [one_mul, Int.cast_one, one_mul] at this
  rwa [show L [y * (p.den : Int)] 0 = y * p.den from rfl, this] at h6

theorem mp_rat_sub_int_spec (hE : Ref env E) (h : R2 m σ) (ha : HasQ2 σ a p) (hb : σ z = some y) (hc : OutQ σ c)
    (sa : SepQ a c) (hQ : ∀ m', R2 m' (updQ σ c (p - y)) → Q MP_OK m') :
    wp env E (mp_rat_sub_int a z c) Q m := by
  unfold mp_rat_sub_int REQUIRE
  refine withCopy_spec hE h hb fun T σ1 m1 g1 r1 => ?_
  refine wp_bind (mp_int_mul_spec hE r1 (g1.get 0) (g1.out ha.2) (g1.get 0) (g1.ow 0) fun m2 r2 => wp_if_neg (by simp) ?_)
  obtain ⟨σ2, r2, g2⟩ := g1.up 0 r2
  tsimp at g2
  refine wp_bind (mp_rat_copy_spec hE r2 (ha.out g2) (hc.out g2) sa fun m3 r3 => wp_if_neg (by simp) ?_)
  have g3 := g2.updQ (q := p) hc
  have hh := updQ_has (σ := σ) (q := p) hc.ne
  have hc3 : OutQ (updQ σ c p) c := (hc.upd _ _).upd _ _
  refine wp_bind (mp_int_sub_spec hE r3 (g3.out hh.1) (g3.get 0) (g3.out hh.1) hc.onum fun m4 r4 => wp_if_neg (by simp) ?_)
  obtain ⟨σ4, r4, g4⟩ := g3.up_out hh.1 r4
  have hc4 := hc3.upd c.num (p.num - L [y * (p.den : Int)] 0)
  refine s_rat_reduce_spec hE r4 (g4.out (upd_self ..)) (g4.out (x := p.den) (by rw [upd_ne _ _ hc.ne.symm]; exact hh.2)) (fun _ => den_ne p) (hc4.out g4) fun m5 r5 => ?_
  refine .mk (g4.updQ hc4) r5 fun m6 h6 => hQ m6 ?_
  rw [updQ_updn hc.ne, show updQ σ c p = upd (upd σ c.num (some p.num)) c.den (some (p.den : Int)) from rfl, updQ_clean hc.ne] at h6
  have := q_add_int p y (-1)
  rw [neg_one_mul, Int.cast_neg, Int.cast_one, neg_one_mul, ← sub_eq_add_neg, ← sub_eq_add_neg] at this
  rwa [show L [y * (p.den : Int)] 0 = y * p.den from rfl, this] at h6

theorem mp_rat_mul_int_spec (hE : Ref env E) (h : R2 m σ) (ha : HasQ2 σ a p) (hb : σ z = some y) (hc : OutQ σ c)
    (sa : SepQ a c) (hz1 : z ≠ c.num) (hz2 : z ≠ c.den) (hQ : ∀ m', R2 m' (updQ σ c (p * y)) → Q MP_OK m') :
    wp env E (mp_rat_mul_int a z c) Q m := by
  unfold mp_rat_mul_int REQUIRE
  refine wp_bind (mp_rat_copy_spec hE h ha hc sa fun m1 h1 => wp_if_neg (by simp) ?_)
  have hh := updQ_has (σ := σ) (q := p) hc.ne
  refine wp_bind (mp_int_mul_spec hE h1 hh.1 (y := y) (by unfold updQ; rw [upd_ne _ _ hz2, upd_ne _ _ hz1]; exact hb) hh.1 hc.onum fun m2 h2 => wp_if_neg (by simp) ?_)
  refine s_rat_reduce_spec hE h2 (upd_self ..) (y := p.den) (by rw [upd_ne _ _ hc.ne.symm]; exact hh.2) (fun _ => den_ne p) (((hc.upd _ _).upd _ _).upd _ _) fun m3 h3 => hQ m3 ?_
  rwa [updQ_updn hc.ne, show updQ σ c p = upd (upd σ c.num (some p.num)) c.den (some (p.den : Int)) from rfl, updQ_clean hc.ne, q_mul_int] at h3

theorem mp_rat_div_int_spec (hE : Ref env E) (h : R2 m σ) (ha : HasQ2 σ a p) (hb : σ z = some y) (hc : OutQ σ c)
    (sa : SepQ a c) (hz1 : z ≠ c.num) (hz2 : z ≠ c.den)
    (hQ0 : y = 0 → Q MP_UNDEF m) (hQ : y ≠ 0 → ∀ m', R2 m' (updQ σ c (p / y)) → Q MP_OK m') :
    wp env E (mp_rat_div_int a z c) Q m := by
  unfold mp_rat_div_int
  refine wp_bind (mp_int_compare_zero_spec h hb ?_)
  by_cases hy : y = 0
  · exact wp_if_pos (by simp [hy]) (wp_pure (hQ0 hy))
  refine wp_if_neg (by simpa [Int.sign_eq_zero_iff_zero] using hy) ?_
  unfold REQUIRE
  refine wp_bind (mp_rat_copy_spec hE h ha hc sa fun m1 h1 => wp_if_neg (by simp) ?_)
  have hh := updQ_has (σ := σ) (q := p) hc.ne
  refine wp_bind (mp_int_mul_spec hE h1 hh.2 (y := y) (by unfold updQ; rw [upd_ne _ _ hz2, upd_ne _ _ hz1]; exact hb) hh.2 hc.oden fun m2 h2 => wp_if_neg (by simp) ?_)
  refine s_rat_reduce_spec hE h2 (x := p.num) (by rw [upd_ne _ _ hc.ne]; exact hh.1) (upd_self ..) (fun _ => mul_ne_zero (den_ne p) hy) (((hc.upd _ _).upd _ _).upd _ _) fun m3 h3 => hQ hy m3 ?_
  rwa [updQ_updd hc.ne, show updQ σ c p = upd (upd σ c.num (some p.num)) c.den (some (p.den : Int)) from rfl, updQ_clean hc.ne, q_div_int p hy] at h3

theorem mp_rat_expt_spec {k : Int} (hE : Ref env E) (h : R2 m σ) (ha : HasQ2 σ a p) (hc : OutQ σ c) (sa : SepQ a c)
    (hQ0 : k < 0 → Q MP_RANGE m) (hQ : 0 ≤ k → ∀ m', R2 m' (updQ σ c (p ^ (k % 2 ^ 32).toNat)) → Q MP_OK m') :
    wp env E (mp_rat_expt a k c) Q m := by
  obtain ⟨w1, hw1⟩ := hc.num
  obtain ⟨w2, hw2⟩ := hc.den
  unfold mp_rat_expt
  by_cases h0 : k = 0
  · subst h0
    refine wp_if_pos rfl (mp_rat_set_value_spec hE h (by decide) (by decide) (by decide) (by decide) hc (by simp) fun _ m1 h1 => hQ (by simp) m1 ?_)
    simpa using h1
  refine wp_if_neg h0 ?_
  by_cases h1 : k = 1
  · subst h1
    refine wp_if_pos rfl (mp_rat_copy_spec hE h ha hc sa fun m1 h1 => hQ (by simp) m1 ?_)
    simpa using h1
  refine wp_if_neg h1 ?_
  unfold REQUIRE
  refine wp_bind (mp_int_expt_spec hE h ha.1 hw1 hc.onum (fun hk => wp_if_pos (by decide) (wp_pure (hQ0 hk))) fun hk m1 h1 => wp_if_neg (by simp) ?_)
  refine mp_int_expt_spec hE h1 (x := p.den) (by rw [upd_ne _ _ (sa.dn hc)]; exact ha.2) (by rw [upd_ne _ _ hc.ne.symm]; exact hw2) hc.oden
    (fun hk' => absurd hk' (by omega)) fun _ m2 h2 => hQ hk m2 ?_
  unfold updQ
  rw [Rat.num_pow, Rat.den_pow, Nat.cast_pow]
  exact h2

/-! ### Comparison -/

/-- Comparison of rationals. -/
def cmpQ (p q : ℚ) : Int := if p < q then -1 else if p = q then 0 else 1

theorem cmpQ_eq (p q : ℚ) : cmpQ p q = cmpZ (p.num * q.den) (q.num * p.den) := by
  unfold cmpQ cmpZ
  simp only [Rat.lt_iff, Rat.eq_iff_mul_eq_mul]

theorem cmpZ_mul {k : Int} (hk : 0 < k) : cmpZ (x * k) (y * k) = cmpZ x y := by
  unfold cmpZ
  simp only [mul_lt_mul_iff_left₀ hk, mul_left_inj' hk.ne']

theorem cmpQ_abs (p q : ℚ) : cmpQ |p| |q| = cmpZ |p.num * q.den| |q.num * p.den| := by
  rw [cmpQ_eq, Rat.num_abs_eq_abs_num, Rat.num_abs_eq_abs_num, Rat.den_abs_eq_den, Rat.den_abs_eq_den, abs_mul, abs_mul, Nat.abs_cast, Nat.abs_cast]

theorem mp_rat_compare_unsigned_spec (hE : Ref env E) (h : R2 m σ) (ha : HasQ2 σ a p) (hb : HasQ2 σ b q)
    (hQ : ∀ m', R2 m' σ → Q (cmpQ |p| |q|) m') : wp env E (mp_rat_compare_unsigned a b) Q m := by
  unfold mp_rat_compare_unsigned
  refine wp_bind (mp_int_compare_unsigned_spec h ha.2 hb.2 ?_)
  rw [Nat.abs_cast, Nat.abs_cast]
  by_cases hd : (p.den : Int) = q.den
  · refine wp_if_pos (cmpZ_eq_zero.2 hd) (mp_int_compare_unsigned_spec h ha.1 hb.1 ?_)
    have := hQ m h
    rwa [cmpQ_abs, ← hd, abs_mul, abs_mul, cmpZ_mul (by rw [Nat.abs_cast]; have := p.den_pos; omega)] at this
  refine wp_if_neg (mt cmpZ_eq_zero.1 hd) ?_
  refine withCopy2_spec hE h ha.1 hb.1 fun T σ1 m1 g1 r1 => ?_
  refine wp_bind (mp_int_mul_spec hE r1 (g1.get 0) (g1.out hb.2) (g1.get 0) (g1.ow 0) fun m2 r2 => wp_if_neg (by simp) ?_)
  obtain ⟨σ2, r2, g2⟩ := g1.up 0 r2
  tsimp at g2
  refine wp_bind (mp_int_mul_spec hE r2 (g2.get 1) (g2.out ha.2) (g2.get 1) (g2.ow 1) fun m3 r3 => wp_if_neg (by simp) ?_)
  obtain ⟨σ3, r3, g3⟩ := g2.up 1 r3
  tsimp at g3
  refine mp_int_compare_unsigned_spec r3 (g3.get 0) (g3.get 1) (.mk g3 r3 fun m4 h4 => ?_)
  have := hQ m4 h4
  rwa [cmpQ_abs] at this

theorem mp_rat_compare_spec (hE : Ref env E) (h : R2 m σ) (ha : HasQ2 σ a p) (hb : HasQ2 σ b q)
    (hQ : ∀ m', R2 m' σ → Q (cmpQ p q) m') : wp env E (mp_rat_compare a b) Q m := by
  unfold mp_rat_compare MP_NUMER_SIGN
  refine wp_bind (MP_SIGN_spec h ha.1 (wp_bind (MP_SIGN_spec h hb.1 ?_)))
  simp only [Rat.num_neg]
  by_cases hs : decide (p < 0) = decide (q < 0)
  · refine wp_if_neg (by simpa using hs) ?_
    refine wp_bind (mp_rat_compare_unsigned_spec hE h ha hb fun m1 h1 => ?_)
    refine wp_bind (MP_SIGN_spec h1 ha.1 ?_)
    simp only [Rat.num_neg]
    by_cases hp : p < 0
    · have hq : q < 0 := by simpa [hp] using hs
      refine wp_if_neg (by simpa using hp) ?_
      have e : -cmpQ |p| |q| = cmpQ p q := by
        rw [abs_of_neg hp, abs_of_neg hq]
        unfold cmpQ
        simp only [neg_lt_neg_iff, neg_inj]
        rcases lt_trichotomy p q with h | h | h
        · simp [h, h.ne, h.not_gt]
        · simp [h]
        · simp [h, h.ne', h.not_gt]
      have hb : cmpQ p q = -1 ∨ cmpQ p q = 0 ∨ cmpQ p q = 1 := by unfold cmpQ; split_ifs <;> simp
      rw [e]
      unfold cint
      refine wp_if_pos (by rcases hb with h | h | h <;> rw [h] <;> decide) (wp_pure (hQ m1 h1))
    · have hq : ¬ q < 0 := by simpa [hp] using hs
      refine wp_if_pos (by simpa using hp) (wp_pure ?_)
      have := hQ m1 h1
      rwa [abs_of_nonneg (not_lt.1 hp), abs_of_nonneg (not_lt.1 hq)]
  · refine wp_if_pos hs (wp_pure ?_)
    have := hQ m h
    by_cases hp : p < 0
    · have hq : ¬ q < 0 := by simpa [hp] using hs
      have : cmpQ p q = -1 := by unfold cmpQ; rw [if_pos (by linarith)]
      simpa [hp, this] using hQ m h
    · have hq : q < 0 := by simpa [hp] using hs
      have : cmpQ p q = 1 := by unfold cmpQ; rw [if_neg (by linarith), if_neg (by rintro rfl; exact hp hq)]
      simpa [hp, this] using hQ m h

theorem mp_rat_compare_zero_spec (h : R2 m σ) (ha : HasQ2 σ a p)
    (hQ : Q (cmpQ p 0) m) : wp env E (mp_rat_compare_zero a) Q m := by
  refine mp_int_compare_zero_spec h ha.1 ?_
  have : cmpQ p 0 = p.num.sign := by
    unfold cmpQ
    rcases lt_trichotomy p 0 with h | h | h
    · rw [if_pos h, Int.sign_eq_neg_one_of_neg (Rat.num_neg.2 h)]
    · simp [h]
    · rw [if_neg h.not_gt, if_neg h.ne', Int.sign_eq_one_of_pos (Rat.num_pos.2 h)]
  rwa [← this]

theorem mp_rat_is_integer_spec {Q : Bool → Mem → Prop} (h : R2 m σ) (ha : HasQ2 σ a p)
    (hQ : ∀ m', R2 m' σ → Q (decide (p.den = 1)) m') : wp env E (mp_rat_is_integer a) Q m := by
  unfold mp_rat_is_integer
  refine wp_bind (mp_int_compare_value_spec (by decide) (by decide) h ha.2 fun m1 h1 => wp_pure ?_)
  have e : (cmpZ (p.den : Int) 1 = 0) = (p.den = 1) := by rw [cmpZ_eq_zero]; simp
  simpa only [e] using hQ m1 h1

theorem mp_rat_compare_value_spec (hE : Ref env E) (h : R2 m σ) (hx1 : SMALL_MIN < x) (hx2 : x ≤ SMALL_MAX)
    (hy1 : SMALL_MIN < y) (hy2 : y ≤ SMALL_MAX) (ha : HasQ2 σ a p)
    (hQ0 : y = 0 → ∀ m', R2 m' σ → Q INT_MAX m')
    (hQ : y ≠ 0 → ∀ m', R2 m' σ → Q (cmpQ p (x / y)) m') :
    wp env E (mp_rat_compare_value a x y) Q m := by
  unfold mp_rat_compare_value
  refine withInit2_spec h fun T σ1 m1 g1 r1 => ?_
  refine wp_bind (mp_int_set_value_spec hE (by decide) (by decide) r1 (g1.get 1) (g1.ow 1) fun m2 r2 => wp_if_neg (by simp) ?_)
  obtain ⟨σ2, r2, g2⟩ := g1.up 1 r2
  tsimp at g2
  refine wp_bind (mp_rat_set_value_spec (c := ⟨T 0, T 1⟩) hE r2 hx1 hx2 hy1 hy2 ⟨g2.neq 0 1, ⟨_, g2.get 0⟩, ⟨_, g2.get 1⟩, g2.ow 0, g2.ow 1⟩ (fun hy => ?_) fun hy m3 r3 => ?_)
  · exact wp_if_pos (by decide) (wp_pure (.mk g2 r2 (hQ0 hy)))
  refine wp_if_neg (by simp) ?_
  unfold updQ at r3
  have g3 := (g2.lset 0 (Rat.divInt x y).num).lset 1 ((Rat.divInt x y).den : Int)
  tsimp at g3
  refine mp_rat_compare_spec (b := ⟨T 0, T 1⟩) (q := Rat.divInt x y) hE r3 (ha.out g3) ⟨g3.get 0, g3.get 1⟩ fun m4 r4 => ?_
  refine .mk g3 r4 fun m5 h5 => ?_
  have := hQ hy m5 h5
  rwa [← Rat.divInt_eq_div] at this

/-! ### Initialisation -/

theorem mp_rat_init_spec (hE : Ref env E) (h : R2 m σ) (d1 : Decl m c.num) (hne : c.num ≠ c.den)
    (d2 : ∀ m' σ', R2 m' σ' → Decl m' c.den) (n1 : σ c.num = none) (n2 : σ c.den = none)
    (o2 : c.den.own = true) (hQ : ∀ m', R2 m' (updQ σ c 0) → Q MP_OK m') :
    wp env E (mp_rat_init c) Q m := by
  unfold mp_rat_init
  refine wp_bind (mp_int_init_spec h d1 n1 fun m1 h1 => wp_if_neg (by simp) ?_)
  refine wp_bind (mp_int_init_spec h1 (d2 m1 _ h1) (by rw [upd_ne _ _ hne.symm]; exact n2) fun m2 h2 => wp_if_neg (by simp) ?_)
  refine mp_int_set_value_spec hE (by decide) (by decide) h2 (upd_self ..) o2 fun m3 h3 => hQ m3 ?_
  rw [upd_upd] at h3
  exact h3

theorem mp_rat_init_size_spec {np dp : Nat} (hE : Ref env E) (h : R2 m σ) (d1 : Decl m c.num) (hne : c.num ≠ c.den)
    (hnp : np < 4294967295) (hdp : dp < 4294967295)
    (d2 : ∀ m' σ', R2 m' σ' → Decl m' c.den) (n1 : σ c.num = none) (n2 : σ c.den = none)
    (o2 : c.den.own = true) (hQ : ∀ m', R2 m' (updQ σ c 0) → Q MP_OK m') :
    wp env E (mp_rat_init_size c np dp) Q m := by
  unfold mp_rat_init_size
  refine wp_bind (mp_int_init_size_spec hE h d1 n1 hnp fun m1 h1 => wp_if_neg (by simp) ?_)
  refine wp_bind (mp_int_init_size_spec hE h1 (d2 m1 _ h1) (by rw [upd_ne _ _ hne.symm]; exact n2) hdp fun m2 h2 => wp_if_neg (by simp) ?_)
  refine mp_int_set_value_spec hE (by decide) (by decide) h2 (upd_self ..) o2 fun m3 h3 => hQ m3 ?_
  rw [upd_upd] at h3
  exact h3

theorem mp_rat_init_copy_spec (hE : Ref env E) (h : R2 m σ) (d1 : Decl m c.num) (hne : c.num ≠ c.den)
    (d2 : ∀ m' σ', R2 m' σ' → Decl m' c.den) (n1 : σ c.num = none) (n2 : σ c.den = none) (ha : HasQ2 σ a p)
    (hQ : ∀ m', R2 m' (updQ σ c p) → Q MP_OK m') :
    wp env E (mp_rat_init_copy c a) Q m := by
  have e : a.den ≠ c.num := by rintro e; rw [← e, ha.2] at n1; simp at n1
  unfold mp_rat_init_copy
  refine wp_bind (mp_int_init_copy_spec hE h d1 n1 ha.1 fun m1 h1 => wp_if_neg (by simp) ?_)
  refine wp_bind (mp_int_init_copy_spec hE h1 (d2 m1 _ h1) (by rw [upd_ne _ _ hne.symm]; exact n2) (x := p.den) (by rw [upd_ne _ _ e]; exact ha.2) fun m2 h2 => ?_)
  exact wp_bind (wp_cwhen (fun h => absurd rfl h) fun _ => wp_pure (hQ m2 h2))

theorem mp_rat_clear_spec {i j : Nat} {x y : Int} {Q : Unit → Mem → Prop} (h : R2 m σ) (hne : i ≠ j) (ha : σ (.var i) = some x) (hb : σ (.var j) = some y)
    (hQ : ∀ m', R2 m' (upd (upd σ (.var i) none) (.var j) none) → Q () m') :
    wp env E (mp_rat_clear ⟨.var i, .var j⟩) Q m := by
  unfold mp_rat_clear
  refine wp_bind (mp_int_clear_spec h ha fun m1 h1 => ?_)
  exact mp_int_clear_spec h1 (by rw [upd_ne _ _ (by simpa using hne.symm)]; exact hb) hQ

theorem mp_rat_to_ints_spec {Q : Int × Option Int × Option Int → Mem → Prop} (h : R2 m σ) (ha : HasQ2 σ a p) (hm : p.num ≠ SMALL_MIN)
    (hQ0 : p.num < SMALL_MIN ∨ SMALL_MAX < p.num → ∀ m', R2 m' σ → Q (MP_RANGE, none, none) m')
    (hQ1 : SMALL_MIN < p.num → p.num ≤ SMALL_MAX → SMALL_MAX < p.den → ∀ m', R2 m' σ → Q (MP_RANGE, some p.num, none) m')
    (hQ2 : SMALL_MIN < p.num → p.num ≤ SMALL_MAX → (p.den : Int) ≤ SMALL_MAX → ∀ m', R2 m' σ → Q (MP_OK, some p.num, some (p.den : Int)) m') :
    wp env E (mp_rat_to_ints a) Q m := by
  unfold mp_rat_to_ints
  refine wp_bind (mp_int_to_int_spec h ha.1 hm (fun h0 m1 h1 => ?_) fun l1 l2 m1 h1 => ?_)
  · exact wp_if_pos (by decide) (wp_pure (hQ0 h0 m1 h1))
  refine wp_if_neg (by simp) ?_
  have hp : (0 : Int) < p.den := by exact_mod_cast p.den_pos
  have hs : SMALL_MIN < 0 := by decide
  refine wp_bind (mp_int_to_int_spec h1 ha.2 (by omega) (fun h0 m2 h2 => wp_pure (hQ1 l1 l2 (by omega) m2 h2)) fun l3 l4 m2 h2 => wp_pure (hQ2 l1 l2 l4 m2 h2))

end Imath
