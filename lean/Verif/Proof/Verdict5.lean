import Verif.Proof.Verdict4
import Verif.Props.Driver

/-! # The test driver: the other tests -/

namespace Imath

variable {env : Env} {E : Fault → Prop} {m : Mem} {σ σ0 : Id → Option Int} {x y w v : Int} {d : Drv} {code : String}

theorem joinInts_spec {Q : Bytes → Mem → Prop} (hE : Ref env E) : ∀ (zs : List Id) (vs : List Int) (P T : Bytes) {m : Mem},
    P.length + T.length = 2048 → vs ≠ [] → R2 m σ → List.Forall₂ (fun z v => σ z = some v) zs vs → 0 ∉ P →
    (∀ f, joined vs T.length = .error f → E f) →
    (∀ t, joined vs T.length = .ok t → ∀ R m', R2 m' σ → 0 ∉ t → (P ++ (t ++ 0 :: R)).length = 2048 → Q (P ++ (t ++ 0 :: R)) m') →
    wp env E (joinInts zs P.length (P ++ T)) Q m
  | [], _, _, _, m, _, hne, _, hf, _, _, _ => by cases hf; exact absurd rfl hne
  | z :: zs, [], _, _, m, _, hne, _, hf, _, _, _ => absurd rfl hne
  | z :: zs, v :: vs, P, T, m, hl, _, h, hf, hP, hC, hQ => by
    rw [List.forall₂_cons] at hf
    obtain ⟨hz, hf⟩ := hf
    unfold joinInts OUTPUT_LIMIT
    unfold joined at hC hQ
    by_cases h2 : T.length < 2
    · rw [if_pos h2] at hC
      refine wp_bind (wp_atOff ?_)
      unfold mp_int_to_string
      refine wp_bind (wp_fault (f := .assert) ?_ (hC _ rfl))
      unfold cassert
      have : ¬ (2 ≤ (2048 : Int) - (List.length P : Nat)) := by omega
      rw [if_neg (by simpa using this)]; rfl
    rw [if_neg h2] at hC
    simp only [if_neg h2] at hQ
    dsimp only at hC hQ
    have hlim : ((2048 : Nat) : Int) - (P.length : Int) = T.length := by omega
    by_cases hl1 : T.length ≤ (numeral 10 v).length
    · rw [if_pos hl1] at hC
      refine wp_bind (wp_atOff (mp_int_to_string_fault hE (hC _ rfl) (by omega) (by omega) (by omega) (by omega) h hz))
    rw [if_neg hl1] at hC
    simp only [if_neg hl1] at hQ
    have n0 := numeral_zero_notin (r := 10) (by omega) (by omega) v
    refine wp_bind (wp_atOff (mp_int_to_string_spec hE (by omega) (by omega) (by omega) (by omega) h hz ?_ ?_))
    · intro m1 h1 _
      dsimp only
      have hlen : (numeral 10 v ++ 0 :: T.drop ((numeral 10 v).length + 1)).length = T.length := by simp; omega
      by_cases hzs : zs = []
      · subst hzs
        have hvs : vs = [] := by cases hf; rfl
        refine wp_if_pos rfl (wp_pure (hQ _ (if_pos hvs) _ m1 h1 n0 ?_))
        rw [List.length_append, hlen]; omega
      · have hvs : vs ≠ [] := by rintro rfl; cases hf; exact hzs rfl
        rw [if_neg hvs] at hC
        simp only [if_neg hvs] at hQ
        refine wp_if_neg hzs (wp_bind (strlen_exact n0 (by simp; omega) ?_))
        have hset : (P ++ (numeral 10 v ++ 0 :: T.drop ((numeral 10 v).length + 1))).set (P.length + (numeral 10 v).length) 44 =
            (P ++ numeral 10 v ++ [44]) ++ T.drop ((numeral 10 v).length + 1) := by
          rw [← List.append_assoc, List.set_append_right _ _ (by simp)]
          simp
        refine wp_bind (wp_bset (by simp) ?_)
        rw [hset]
        have hp : P.length + (numeral 10 v).length + 1 = (P ++ numeral 10 v ++ [44]).length := by simp; omega
        rw [hp]
        have hdl : (T.drop ((numeral 10 v).length + 1)).length = T.length - ((numeral 10 v).length + 1) := by simp
        refine joinInts_spec hE zs vs (P ++ numeral 10 v ++ [44]) (T.drop ((numeral 10 v).length + 1)) (by simp; omega) hvs h1 hf
          (by simp [hP, n0]) ?_ ?_
        · intro f hj
          rw [hdl] at hj
          exact hC f (by rw [hj])
        · intro t hj R m' h' ht hlen'
          rw [hdl] at hj
          have := hQ (numeral 10 v ++ 44 :: t) (by rw [hj]) R m' h' (by simp [n0, ht]) (by simpa using hlen')
          simpa using this
    · intro m1 s' h1 hl'; omega

/-- The test failed, and the numbers are the message. -/
theorem fail_list {zs : List Id} {vs : List Int} {Q : Bool × Drv → Mem → Prop} (hE : Ref env E) (hd : Buf d) (hne : vs ≠ []) (h : R2 m σ) (hI : Inv σ0 σ)
    (hf : List.Forall₂ (fun z v => σ z = some v) zs vs) (hV : VPost E σ0 d Q (wrong vs)) :
    wp env E (do
      let s ← joinInts zs 0 d.g_output
      FAIL { d with g_output := s } OTHER_ERROR) Q m := by
  unfold wrong at hV
  unfold FAIL
  refine wp_bind (joinInts_spec hE zs vs [] d.g_output (by simp [hd.1]) hne h hf (by simp) ?_ ?_)
  · intro f hj
    rw [hd.1] at hj; rw [hj] at hV; exact hV
  · intro t hj R m' h' ht hl
    rw [hd.1] at hj; rw [hj] at hV
    exact wp_pure (hV _ m' σ h' hI ⟨by simpa using hl, hd.2⟩ rfl (by show OTHER_ERROR < MP_BADARG; decide) ht ⟨R, by simp⟩)

section
variable {hE : Ref env E} {p : Parsed Id} {ss : List Nat} {n : Nat} {xs os : List Int} {e : Int} {inn out : Bool} {t : Test} {ti tq : List Bytes}

theorem Regs.Read.out2 (h : (intRegs hE σ0).Read p ss n xs os e inn out t ti tq σ) (hi : out = true) (hl : tq.length = 2) :
    ∃ u v, os = [u, v] ∧ p.outs = [.var n, .var (n + 1)] ∧ σ (.var n) = some u ∧ σ (.var (n + 1)) = some v := by
  have h1 := h.outs hi
  have h2 := h.oslots hi
  have h3 := h.olen
  unfold Regs.Slots at h2
  rw [hl] at h3
  obtain ⟨u, v, rfl⟩ := List.length_eq_two.1 h3
  obtain _ | ⟨k1, hf⟩ := h2
  obtain _ | ⟨k2, hf⟩ := hf
  exact ⟨u, v, rfl, h1, k1, k2⟩

theorem Regs.Read.out3 (h : (intRegs hE σ0).Read p ss n xs os e inn out t ti tq σ) (hi : out = true) (hl : tq.length = 3) :
    ∃ u v w, os = [u, v, w] ∧ p.outs = [.var n, .var (n + 1), .var (n + 2)] ∧ σ (.var n) = some u ∧ σ (.var (n + 1)) = some v ∧
      σ (.var (n + 2)) = some w := by
  have h1 := h.outs hi
  have h2 := h.oslots hi
  have h3 := h.olen
  unfold Regs.Slots at h2
  rw [hl] at h3
  obtain ⟨u, v, w, rfl⟩ := List.length_eq_three.1 h3
  obtain _ | ⟨k1, hf⟩ := h2
  obtain _ | ⟨k2, hf⟩ := hf
  obtain _ | ⟨k3, hf⟩ := hf
  exact ⟨u, v, w, rfl, h1, k1, k2, k3⟩

theorem Regs.Read.five (h : (intRegs hE σ0).Read p ss n xs os e inn out t ti tq σ) (hi : inn = true) (hl : ti.length = 5) :
    ∃ i j k l q x y z u v, ss = [i, j, k, l, q] ∧ xs = [x, y, z, u, v] ∧ p.ins = [.var i, .var j, .var k, .var l, .var q] ∧ Reg σ n i x ∧ Reg σ n j y ∧
      Reg σ n k z ∧ Reg σ n l u ∧ Reg σ n q v := by
  have h1 := h.len hi
  have h2 := h.slots
  have h3 := h.lt
  have h4 := h.ins
  unfold Regs.Slots at h2
  rw [hl] at h1
  obtain _ | ⟨i, _ | ⟨j, _ | ⟨k, _ | ⟨l, _ | ⟨q, _ | ⟨_, _⟩⟩⟩⟩⟩⟩ := ss <;> simp at h1
  obtain _ | ⟨k1, hf⟩ := h2
  obtain _ | ⟨k2, hf⟩ := hf
  obtain _ | ⟨k3, hf⟩ := hf
  obtain _ | ⟨k4, hf⟩ := hf
  obtain _ | ⟨k5, hf⟩ := hf
  cases hf
  exact ⟨i, j, k, l, q, _, _, _, _, _, rfl, rfl, h4, ⟨h3 i (by simp), k1⟩, ⟨h3 j (by simp), k2⟩, ⟨h3 k (by simp), k3⟩, ⟨h3 l (by simp), k4⟩,
    ⟨h3 q (by simp), k5⟩⟩

end

/-- A test with two results. -/
theorem vcheck_two {x : M Int} {p : Parsed Id} {q r : Id} {n : Nat} {Q : Bool × Drv → Mem → Prop} {u v e : Int} {res : OpRes} (hE : Ref env E) (hd : Buf d)
    (he : p.expect = e) (ho : p.outs = [.var n, .var (n + 1)]) (hu : σ (.var n) = some u) (hv : σ (.var (n + 1)) = some v)
    (hx : Does env E σ0 n [q, r] σ x m res) (hne : ∀ c, res = .fails c → c ≠ MP_OK) (hV : VPost E σ0 d Q (judge e res [u, v])) :
    wp env E (VCHECK d x p.expect (expectTwo d p q r)) Q m := by
  unfold VCHECK
  unfold judge at hV
  cases res with
  | done vs =>
    refine wp_bind (hx _ ?_)
    intro m' σ' h' hs hf
    dsimp only at hV
    obtain _ | ⟨k1, hf1⟩ := hf
    obtain _ | ⟨k2, hf1⟩ := hf1
    cases hf1
    rename_i z1 z2
    by_cases he0 : e = MP_OK
    · rw [if_neg (by simpa using he0)] at hV
      subst he0
      refine wp_if_neg (by simp [he]) ?_
      unfold expectTwo nth
      refine wp_if_pos he ?_
      rw [ho]
      refine wp_bind (wp_pure (wp_bind (mp_int_compare_spec h' k1 ((hs.same n le_rfl).trans hu) ?_)))
      have bad : [z1, z2] ≠ [u, v] → wp env E (do
          let s ← joinInts [q, r] 0 d.g_output
          FAIL { d with g_output := s } OTHER_ERROR) Q m' := by
        intro hc
        rw [if_neg hc] at hV
        exact fail_list hE hd (by simp) h' hs.inv (.cons k1 (.cons k2 .nil)) hV
      refine wp_bind (wp_cif (fun hc => wp_pure (wp_if_pos rfl (bad ?_))) fun hc => ?_)
      · intro hh; apply hc; rw [cmpZ_eq_zero]; simpa using (List.cons.inj hh).1
      · rw [not_not, cmpZ_eq_zero] at hc
        refine wp_bind (wp_pure (wp_bind (mp_int_compare_spec h' k2 ((hs.same (n + 1) (by omega)).trans hv) (wp_pure ?_))))
        by_cases hc2 : z2 = v
        · rw [if_pos (by rw [hc, hc2])] at hV
          exact wp_if_neg (by simp [cmpZ_eq_zero.2 hc2]) (wp_pure (hV d m' σ' h' hs.inv hd (by simp)))
        · refine wp_if_pos (by simpa [cmpZ_eq_zero] using hc2) (bad ?_)
          intro hh; simp at hh; exact hc2 hh.2
    · rw [if_pos he0] at hV
      exact wp_if_pos (by rw [he]; exact fun k => he0 k.symm) (wp_pure (hV _ m' σ' h' hs.inv hd rfl rfl))
  | fails c =>
    refine wp_bind (hx _ ?_)
    intro m' σ' h' hs
    dsimp only at hV
    by_cases hc : c = e
    · rw [if_pos hc] at hV
      have := hne c rfl
      refine wp_if_neg (by rw [he, not_not]; exact hc) ?_
      unfold expectTwo
      exact wp_if_neg (by rw [he, ← hc]; exact this) (wp_pure (hV d m' σ' h' hs.inv hd (by simp)))
    · rw [if_neg hc] at hV
      exact wp_if_pos (by rw [he]; exact hc) (wp_pure (hV _ m' σ' h' hs.inv hd rfl rfl))
  | stop c => exact wp_bind (wp_mono (hx (fun _ _ => False) trivial) fun _ _ k => k.elim)
  | crash f => exact wp_bind (hx _ hV)
  | unknown => exact hV.elim

theorem tests_div (hE : Ref env E) : Tests env E σ0 test_div code 4 2 (numTest opDiv) := by
  intro t d ti tq m σ Q R hd hi ho hti htq h hI hcode li lo hV
  unfold test_div nth
  refine withInts_spec hE hd hi ho hti htq h hI hV fun p ss n xs os e m' σ' hV h' hr => ?_
  obtain ⟨i, j, k, l, x, y, z, w, rfl, rfl, hp, hx, hy, hz, hw⟩ := hr.four rfl li
  obtain ⟨u, v, rfl, hpo, hu, hv⟩ := hr.out2 rfl lo
  rw [hp]
  refine wp_bind (wp_pure (wp_bind (wp_pure (wp_bind (wp_pure (wp_bind (wp_pure ?_)))))))
  refine vcheck_two hE hd hr.expect hpo hu hv ?_ ?_ hV
  · intro Q hQ
    unfold opDiv at hQ
    dsimp only at hQ
    by_cases hkl : k = l
    · rw [if_pos hkl] at hQ
      subst hkl
      unfold mp_int_div
      refine wp_bind (wp_fault (f := .assert) ?_ hQ)
      unfold cassert
      simp; rfl
    rw [if_neg hkl] at hQ
    refine mp_int_div_spec hE h' hx.val hy.val (by simpa using hkl) (by rintro _ ⟨⟩; exact ⟨⟨_, hz.val⟩, rfl⟩)
      (by rintro _ ⟨⟩; exact ⟨⟨_, hw.val⟩, rfl⟩) ?_ ?_
    · intro h0; rw [if_pos h0] at hQ; exact hQ.keep hr.inv h'
    · intro h0 m2 hh
      rw [if_neg h0] at hQ
      refine hQ m2 _ hh (((RegStep.refl hr.inv).upd hz.lt hr.le16 _).upd hw.lt hr.le16 _) (.cons ?_ (.cons (upd_self ..) .nil))
      simp only [updO]
      rw [upd_ne _ _ (by simpa using hkl)]; exact upd_self ..
  · intro c hh
    unfold opDiv at hh
    dsimp only at hh
    split_ifs at hh <;> simp at hh
    rw [← hh]; decide

theorem div_pow2_mod (a : Id) (q r : Option Id) (p : Nat) : mp_int_div_pow2 a p q r = mp_int_div_pow2 a ((p % 2 ^ 32 : Nat) : Int) q r := by
  have h1 : intU32 ((p % 2 ^ 32 : Nat) : Int) = intU32 p := by unfold intU32; omega
  have h2 : decide ((p : Int) ≥ 0) = decide (((p % 2 ^ 32 : Nat) : Int) ≥ 0) := by
    rw [decide_eq_true (show (p : Int) ≥ 0 by omega), decide_eq_true (by omega)]
  unfold mp_int_div_pow2
  rw [h1, h2]

theorem tests_divp2 (hE : Ref env E) : Tests env E σ0 test_divp2 code 4 2 (numTest opDivp2) := by
  intro t d ti tq m σ Q R hd hi ho hti htq h hI hcode li lo hV
  unfold test_divp2 nth
  refine withInts_spec hE hd hi ho hti htq h hI hV fun p ss n xs os e m' σ' hV h' hr => ?_
  obtain ⟨i, j, k, l, x, y, z, w, rfl, rfl, hp, hx, hy, hz, hw⟩ := hr.four rfl li
  obtain ⟨u, v, rfl, hpo, hu, hv⟩ := hr.out2 rfl lo
  rw [hp]
  refine wp_bind (wp_pure (wp_bind (wp_pure (wp_bind (wp_pure (wp_bind (wp_pure ?_)))))))
  unfold opDivp2 at hV
  dsimp only at hV
  refine checkLong hd h' hr.inv hy.val hV fun m1 h1 k1 k2 hV => ?_
  refine vcheck_two hE hd hr.expect hpo hu hv ?_ ?_ hV
  · intro Q hQ
    by_cases hc : y < 0 ∨ k = l
    · rw [if_pos hc] at hQ
      unfold mp_int_div_pow2
      by_cases hy0 : y < 0
      · refine wp_bind (wp_fault (f := .assert) ?_ hQ)
        unfold cassert
        simp [not_le.2 hy0]; rfl
      · have hc := hc.resolve_left hy0
        refine wp_bind (wp_cassert (by simpa using hy0) (wp_bind (wp_fault (f := .assert) ?_ hQ)))
        unfold cassert
        simp [hc]; rfl
    rw [if_neg hc] at hQ
    push Not at hc
    obtain ⟨b, rfl⟩ : ∃ b : Nat, y = b := ⟨y.toNat, by omega⟩
    rw [div_pow2_mod]
    have eb : Int.toNat ((b : Int) % 2 ^ 32) = b % 2 ^ 32 := by omega
    rw [eb] at hQ
    have hb : b % 2 ^ 32 < 4294967296 := Nat.mod_lt _ (by norm_num)
    generalize b % 2 ^ 32 = c at hQ hb
    by_cases hki : k = i
    · subst hki
      rw [if_pos rfl] at hQ
      by_cases hc2 : x.tdiv (2 ^ c) < 0 ∧ (x.tdiv (2 ^ c)).tmod (2 ^ c) = 0
      · rw [if_pos hc2] at hQ; exact hQ.elim
      rw [if_neg hc2] at hQ
      refine mp_int_div_pow2_alias hE h1 hx.val (by simpa using hc.2) hb rfl hw.val rfl (fun a b => hc2 ⟨a, b⟩) ?_
      intro m2 hh
      refine hQ m2 _ hh (((RegStep.refl hr.inv).upd hz.lt hr.le16 _).upd hw.lt hr.le16 _) (.cons ?_ (.cons (upd_self ..) .nil))
      rw [upd_ne _ _ (by simpa using hc.2)]; exact upd_self ..
    rw [if_neg hki] at hQ
    by_cases hc2 : x < 0 ∧ x.tmod (2 ^ c) = 0
    · rw [if_pos hc2] at hQ; exact hQ.elim
    rw [if_neg hc2] at hQ
    refine mp_int_div_pow2_spec hE h1 hx.val (by simpa using hc.2) hb (by rintro _ ⟨⟩; exact ⟨⟨_, hz.val⟩, rfl⟩)
      (by rintro _ ⟨⟩; exact ⟨⟨_, hw.val⟩, rfl⟩) (fun hh => ?_) (fun _ a b => hc2 ⟨a, b⟩) ?_
    · simp at hh; exact absurd hh hki
    · intro m2 hh
      refine hQ m2 _ hh (((RegStep.refl hr.inv).upd hz.lt hr.le16 _).upd hw.lt hr.le16 _) (.cons ?_ (.cons (upd_self ..) .nil))
      simp only [updO]
      rw [upd_ne _ _ (by simpa using hc.2)]; exact upd_self ..
  · intro c hh
    split_ifs at hh

theorem tests_divv (hE : Ref env E) : Tests env E σ0 test_divv code 3 2 testDivv := by
  intro t d ti tq m σ Q R hd hi ho hti htq h hI hcode li lo hV
  unfold test_divv nth
  refine withInts_spec hE hd hi ho hti htq h hI hV fun p ss n xs os e m' σ' hV h' hr => ?_
  obtain ⟨i, j, k, x, y, w, rfl, rfl, hp, hx, hy, hw⟩ := hr.three rfl li
  obtain ⟨q, r, rfl, hpo, hu, hv⟩ := hr.out2 rfl lo
  rw [hp, hpo]
  refine wp_bind (wp_pure (wp_bind (wp_pure (wp_bind (wp_pure (wp_bind (wp_pure (wp_bind (wp_pure ?_)))))))))
  dsimp only at hV
  unfold CHECKV
  -- the operand and the remainder as numbers
  have long : ∀ (a : Id) (u : Int) (k : Int → M (Bool × Drv)) (m1 : Mem), σ' a = some u → R2 m1 σ' →
      (u = -2 ^ 63 → E .ub) → (u ≠ -2 ^ 63 → u < -2 ^ 63 ∨ 2 ^ 63 ≤ u → VPost E σ0 d Q (.error MP_RANGE)) →
      (∀ m2, R2 m2 σ' → SMALL_MIN < u → u ≤ SMALL_MAX → wp env E (k u) Q m2) →
      wp env E (mp_int_to_int a >>= fun p => if p.1 ≠ MP_OK then FAIL d p.1 else p.2.elim (fail .ub) k) Q m1 := by
    intro a u k m1 ha h1 c1 c2 c3
    by_cases h0 : u = -2 ^ 63
    · exact wp_bind (mp_int_to_int_fault (c1 h0) h1 (by rw [ha, h0]; rfl))
    refine wp_bind (mp_int_to_int_spec h1 ha (by intro hh; apply h0; rw [hh]; norm_num) ?_ ?_)
    · intro hh m1 h1
      exact wp_if_pos (by decide) (wp_pure (c2 h0 (by norm_num; omega) _ m1 σ' h1 hr.inv hd rfl rfl))
    · intro k1 k2 m1 h1
      exact wp_if_neg (by simp) (c3 m1 h1 k1 k2)
  refine long _ y _ m' hy.val h' ?_ ?_ fun m1 h1 k1 k2 => ?_
  · intro h0; simp only [asLong, if_pos h0] at hV; exact hV
  · intro h0 h1; simp only [asLong, if_neg h0, if_pos h1] at hV; exact hV
  have ey : ∀ z, asLong y z = z := fun z => by unfold asLong; rw [if_neg (by norm_num; omega), if_neg (by norm_num; omega)]
  rw [ey] at hV
  refine long _ r _ m1 hv h1 ?_ ?_ fun m2 h2 k3 k4 => ?_
  · intro h0; simp only [asLong, if_pos h0] at hV; exact hV
  · intro h0 h1; simp only [asLong, if_neg h0, if_pos h1] at hV; exact hV
  have er : ∀ z, asLong r z = z := fun z => by unfold asLong; rw [if_neg (by norm_num; omega), if_neg (by norm_num; omega)]
  rw [er] at hV
  rw [hr.expect]
  refine wp_bind (mp_int_div_value_spec hE k1 k2 h2 hx.val (by rintro _ ⟨⟩; exact ⟨⟨_, hw.val⟩, rfl⟩) ?_ ?_)
  · intro h0 m3 h3
    rw [if_pos h0] at hV
    dsimp only [judge] at hV
    by_cases hc : MP_UNDEF = e
    · rw [if_pos hc] at hV
      refine wp_if_neg (by simpa using hc) (wp_if_neg (by rw [← hc]; decide) (wp_pure (hV d m3 σ' h3 hr.inv hd (by simp))))
    · rw [if_neg hc] at hV
      exact wp_if_pos hc (wp_pure (hV _ m3 σ' h3 hr.inv hd rfl rfl))
  · intro h0 m3 h3
    rw [if_neg h0] at hV
    dsimp only at hV
    have hI3 := ((RegStep.refl (n := n) hr.inv).upd hw.lt hr.le16 (x.tdiv y))
    by_cases he0 : e = MP_OK
    · rw [if_neg (by simpa using he0)] at hV
      subst he0
      refine wp_if_neg (by simp) (wp_if_pos rfl ?_)
      have hq : updO σ' (some (.var k)) (x.tdiv y) (.var k) = some (x.tdiv y) := upd_self ..
      refine wp_bind (mp_int_compare_spec h3 hq ((hI3.same n le_rfl).trans hu) ?_)
      show wp env E (if _ then _ else _) Q m3
      by_cases hc : x.tdiv y = q ∧ x.tmod y = r
      · rw [if_pos (by rw [hc.1, hc.2])] at hV
        exact wp_if_neg (by simp [cmpZ_eq_zero.2 hc.1, hc.2]) (wp_pure (hV d m3 _ h3 hI3.inv hd (by simp)))
      · rw [if_neg (by simpa using hc)] at hV
        refine wp_if_pos ?_ ?_
        · by_contra hh
          push Not at hh
          exact hc ⟨cmpZ_eq_zero.1 hh.1, hh.2⟩
        have n0 := numeral_zero_notin (r := 10) (by omega) (by omega) (x.tdiv y)
        have n1 := numeral_zero_notin (r := 10) (by omega) (by omega) (x.tmod y)
        have lp : 1 ≤ (numeral 10 (x.tmod y)).length := by
          have := numeralN_pos 10 (x.tmod y).natAbs (by omega)
          unfold numeral; rw [List.length_append]; omega
        unfold OUTPUT_LIMIT
        by_cases hl : 2048 ≤ (numeral 10 (x.tdiv y)).length
        · rw [if_neg (by rw [List.length_append]; omega)] at hV
          exact wp_bind (mp_int_to_string_fault hE hV (by omega) (by omega) (by norm_num) (by rw [hd.1]; push_cast; omega) h3 hq)
        refine wp_bind (mp_int_to_string_spec hE (by omega) (by omega) (by norm_num) (by rw [hd.1]; push_cast; omega) h3 hq ?_ ?_)
        · intro m4 h4 _
          have hlen : (numeral 10 (x.tdiv y) ++ 0 :: d.g_output.drop ((numeral 10 (x.tdiv y)).length + 1)).length = 2048 := by
            simp [hd.1]; omega
          have := strlen_exact (env := env) (E := E) (m := m4) (P := []) (R := d.g_output.drop ((numeral 10 (x.tdiv y)).length + 1))
            (f := 2049) (Q := fun len m4 => wp env E (do
              let buf ← bset (numeral 10 (x.tdiv y) ++ 0 :: d.g_output.drop ((numeral 10 (x.tdiv y)).length + 1)) len 44
              let buf ← bwrite buf (len + 1) (fmtd (x.tmod y) ++ [0])
              FAIL { d with g_output := buf } OTHER_ERROR) Q m4) n0 (by rw [hlen]; omega) ?_
          · refine wp_bind ?_
            rw [show ((MP_OK, numeral 10 (x.tdiv y) ++ 0 :: d.g_output.drop ((numeral 10 (x.tdiv y)).length + 1)).2.length + 1) = 2049 by
              dsimp only; rw [hlen]]
            exact this
          · refine wp_bind (wp_bset (by simp) ?_)
            have hset : (numeral 10 (x.tdiv y) ++ 0 :: d.g_output.drop ((numeral 10 (x.tdiv y)).length + 1)).set (numeral 10 (x.tdiv y)).length 44 =
                (numeral 10 (x.tdiv y) ++ [44]) ++ d.g_output.drop ((numeral 10 (x.tdiv y)).length + 1) := by
              rw [List.set_append_right _ _ le_rfl]; simp
            rw [hset]
            unfold fmtd
            by_cases hl2 : (numeral 10 (x.tdiv y) ++ 44 :: numeral 10 (x.tmod y)).length < 2048
            · rw [if_pos hl2] at hV
              rw [List.length_append, List.length_cons] at hl2
              obtain ⟨B, C, hBC, hB⟩ : ∃ B C, d.g_output.drop ((numeral 10 (x.tdiv y)).length + 1) = B ++ C ∧
                  B.length = (numeral 10 (x.tmod y) ++ [0]).length := by
                refine ⟨_, _, (List.take_append_drop ((numeral 10 (x.tmod y)).length + 1) _).symm, ?_⟩
                simp [hd.1]; omega
              have hBl : B.length + C.length = 2048 - ((numeral 10 (x.tdiv y)).length + 1) := by
                have := congrArg List.length hBC
                simp only [List.length_drop, List.length_append, hd.1] at this; omega
              rw [hBC]
              refine wp_bind (wp_bwrite (by simp) hB (wp_pure ?_))
              refine hV _ m4 _ h4 hI3.inv ⟨?_, hd.2⟩ rfl (by show OTHER_ERROR < MP_BADARG; decide) (by simp [n0, n1]) ⟨C, by simp⟩
              simp only [List.length_append, List.length_cons, List.length_nil] at hB ⊢; omega
            · rw [if_neg hl2] at hV
              rw [List.length_append, List.length_cons] at hl2
              refine wp_bind (wp_fault (f := .ub) ?_ hV)
              unfold bwrite
              rw [if_neg (by simp [hd.1]; omega)]
        · intro m4 s' h4 hl'; push_cast at hl'; omega
    · rw [if_pos he0] at hV
      exact wp_if_pos (fun k => he0 k.symm) (wp_pure (hV _ m3 _ h3 hI3.inv hd rfl rfl))

end Imath
