import Verif.Props.Quirks
import Verif.Proof.Verdict3

/-! # The test driver: tests of arithmetic -/

namespace Imath

variable {env : Env} {E : Fault → Prop} {m : Mem} {σ σ0 : Id → Option Int} {x y w v : Int} {d : Drv} {code : String}

theorem val1_ne {v c : Int} : val1 v = .fails c → c ≠ MP_OK := by simp [val1]

theorem op2_ne {g : Int → Int → OpRes} (h : ∀ x y c, g x y = .fails c → c ≠ MP_OK) : ∀ ss xs c, op2 g ss xs = .fails c → c ≠ MP_OK := by
  intro ss xs c hh
  unfold op2 at hh
  split at hh
  · exact h _ _ _ hh
  · simp at hh

theorem op3_ne {g : Int → Int → Int → OpRes} (h : ∀ x y z c, g x y z = .fails c → c ≠ MP_OK) : ∀ ss xs c, op3 g ss xs = .fails c → c ≠ MP_OK := by
  intro ss xs c hh
  unfold op3 at hh
  split at hh
  · exact h _ _ _ _ hh
  · simp at hh

theorem tests_neg (hE : Ref env E) : Tests env E σ0 test_neg code 2 1 (numTest (op1 fun x => val1 (-x))) :=
  test1_spec hE (fun h hI hx hw hn => does1 hI hw.lt hn fun _ hQ => mp_int_neg_spec hE h hx.val hw.val rfl hQ) fun _ _ => val1_ne

theorem tests_abs (hE : Ref env E) : Tests env E σ0 test_abs code 2 1 (numTest (op1 fun x => val1 |x|)) :=
  test1_spec hE (fun h hI hx hw hn => does1 hI hw.lt hn fun _ hQ => mp_int_abs_spec hE h hx.val hw.val rfl hQ) fun _ _ => val1_ne

theorem tests_sqr (hE : Ref env E) : Tests env E σ0 test_sqr code 2 1 (numTest (op1 fun x => val1 (x * x))) :=
  test1_spec hE (fun h hI hx hw hn => does1 hI hw.lt hn fun _ hQ => mp_int_sqr_spec hE h hx.val hw.val rfl hQ) fun _ _ => val1_ne

theorem tests_mul (hE : Ref env E) : Tests env E σ0 test_mul code 3 1 (numTest (op2 fun x y => val1 (x * y))) :=
  test2_spec hE (fun h hI hx hy hw hn => does1 hI hw.lt hn fun _ hQ => mp_int_mul_spec hE h hx.val hy.val hw.val rfl hQ)
    (op2_ne fun _ _ _ => val1_ne)

theorem tests_mulv (hE : Ref env E) : Tests env E σ0 test_mulv code 3 1 (numTest (op2 fun x y => asLong y (val1 (x * y)))) :=
  test2v_spec (f := fun x y => val1 (x * y)) hE
    (fun h hI hx hw hn h1 h2 => does1 hI hw.lt hn fun _ hQ => mp_int_mul_value_spec hE h1 h2 h hx.val hw.val rfl hQ) fun _ _ _ => val1_ne

theorem mul_pow2_mod (a c : Id) (p : Nat) : mp_int_mul_pow2 a p c = mp_int_mul_pow2 a ((p % 2 ^ 32 : Nat) : Int) c := by
  have h1 : intU32 ((p % 2 ^ 32 : Nat) : Int) = intU32 p := by unfold intU32; omega
  have h2 : decide ((p : Int) ≥ 0) = decide (((p % 2 ^ 32 : Nat) : Int) ≥ 0) := by
    rw [decide_eq_true (show (p : Int) ≥ 0 by omega), decide_eq_true (by omega)]
  unfold mp_int_mul_pow2
  rw [h1, h2]

theorem tests_mulp2 (hE : Ref env E) : Tests env E σ0 test_mulp2 code 3 1 (numTest (op2 refMulp2)) := by
  refine test2v_spec (f := fun x y => if y < 0 then .crash .assert else val1 (x * 2 ^ (y % 2 ^ 32).toNat)) hE ?_ ?_
  · intro m σ n i k x y w h hI hx hw hn h1 h2 Q hQ
    by_cases h0 : y < 0
    · rw [if_pos h0] at hQ
      unfold mp_int_mul_pow2
      refine wp_bind (wp_fault (f := .assert) ?_ hQ)
      unfold cassert
      simp [not_le.2 h0]; rfl
    rw [if_neg h0] at hQ
    obtain ⟨k, rfl⟩ : ∃ k : Nat, y = k := ⟨y.toNat, by omega⟩
    have ek : Int.toNat ((k : Int) % 2 ^ 32) = k % 2 ^ 32 := by omega
    rw [ek] at hQ
    rw [mul_pow2_mod]
    exact mp_int_mul_pow2_spec hE h hx.val hw.val rfl (Nat.mod_lt _ (by norm_num)) fun m' hh => hQ.put hI hw.lt hn hh
  · intro x y c hh
    split_ifs at hh
    simp [val1] at hh

theorem refExpt_ne {c : Int} (h : refExpt x y = .fails c) : c ≠ MP_OK := by
  unfold refExpt at h
  split_ifs at h <;> simp [val1] at h
  rw [← h]; decide

theorem tests_expt (hE : Ref env E) : Tests env E σ0 test_expt code 3 1 (numTest (op2 fun x y => asLong y (refExpt x y))) := by
  refine test2v_spec (f := refExpt) hE ?_ fun _ _ _ => refExpt_ne
  intro m σ n i k x y w h hI hx hw hn h1 h2 Q hQ
  unfold refExpt at hQ
  refine mp_int_expt_spec hE h hx.val hw.val rfl ?_ ?_
  · intro h0; rw [if_pos h0] at hQ; exact hQ.keep hI h
  · intro h0 m' hh; rw [if_neg (by omega)] at hQ; exact hQ.put hI hw.lt hn hh

theorem tests_root (hE : Ref env E) : Tests env E σ0 test_root code 3 1 (numTest (op2 fun x y => asLong y (refRoot x y))) := by
  refine test2v_spec (f := refRoot) hE ?_ ?_
  · intro m σ n i k x y w h hI hx hw hn h1 h2 Q hQ
    unfold refRoot at hQ
    by_cases hy : y ≤ 0
    · rw [if_pos hy] at hQ
      unfold mp_int_root
      refine wp_bind (wp_fault (f := .assert) ?_ hQ)
      unfold cassert
      simp [not_lt.2 hy]
      rfl
    rw [if_neg hy] at hQ
    obtain ⟨D, rfl⟩ : ∃ D : Nat, y = D := ⟨y.toNat, by omega⟩
    obtain ⟨B, hB⟩ : ∃ B : Nat, D % 2 ^ 32 = B := ⟨_, rfl⟩
    have hB' : (D : Int) % 2 ^ 32 = B := by omega
    rw [hB', Int.toNat_natCast] at hQ
    refine mp_int_root_gen (D := D) (B := B) hE h hx.val hw.val rfl (by omega) (by omega) hB ?_ ?_ ?_ ?_
    · intro hx hB
      rw [if_pos ⟨hx, by omega⟩] at hQ
      exact hQ.keep hI h
    · intro e0 hx m3 r3
      rw [if_neg (by omega), if_pos (by omega), if_pos hx] at hQ
      exact hQ.keep hI r3
    · intro e0 hx m3 r3
      rw [if_neg (by omega), if_pos (by omega), if_neg (by omega)] at hQ
      exact hQ.put hI hw.lt hn r3
    · intro hx hB0 r k1 k2 m3 r3
      rw [if_neg (fun e => hx ⟨e.1, by omega⟩), if_neg (by omega), floorRoot_eq (by omega) k1 k2] at hQ
      have e : x.sign * (r : Int) = if x < 0 then -(r : Int) else r := by
        rcases lt_trichotomy x 0 with k | k | k
        · rw [if_pos k, Int.sign_eq_neg_one_of_neg k]; ring
        · subst k
          have : r = 0 := by
            by_contra h0
            have : 1 ≤ r ^ B := Nat.one_le_pow _ _ (by omega)
            simp at k1; omega
          simp [this]
        · rw [if_neg (by omega), Int.sign_eq_one_of_pos k]; ring
      rw [e] at hQ
      exact hQ.put hI hw.lt hn r3
  · intro x y c hh
    unfold refRoot at hh
    split_ifs at hh <;> simp [val1] at hh <;> rw [← hh] <;> decide

theorem tests_sqrt (hE : Ref env E) :
    Tests env E σ0 test_sqrt code 2 1 (numTest (op1 fun x => if x < 0 then .fails MP_UNDEF else val1 (floorRoot 2 x.toNat))) := by
  refine test1_spec hE ?_ ?_
  · intro m σ n i j x w h hI hx hw hn Q hQ
    refine mp_int_root_gen (D := 2) (B := 2) hE h hx.val hw.val rfl (by omega) (by omega) (by norm_num) ?_ ?_ ?_ ?_
    · intro hx hB
      rw [if_pos hx] at hQ
      exact hQ.keep hI h
    · intro e0; omega
    · intro e0; omega
    · intro hx hB0 r k1 k2 m3 r3
      have h0 : ¬ x < 0 := fun e => hx ⟨e, by omega⟩
      rw [if_neg h0, show x.toNat = x.natAbs by omega, floorRoot_eq (by omega) k1 k2] at hQ
      rw [if_neg h0] at r3
      exact hQ.put hI hw.lt hn r3
  · intro x c hh
    split_ifs at hh <;> simp [val1] at hh
    rw [← hh]; decide

theorem tests_exptf (hE : Ref env E) : Tests env E σ0 test_exptf code 3 1 (numTest opExptf) := by
  refine test2_spec hE ?_ ?_
  · intro m σ n i j k x y w h hI hx hy hw hn Q hQ
    unfold opExptf at hQ
    dsimp only at hQ
    by_cases h0 : y < 0
    · rw [if_pos h0] at hQ
      unfold mp_int_expt_full
      exact wp_bind (MP_SIGN_spec h hy.val (wp_if_pos (by simpa using h0) (wp_pure (hQ.keep hI h))))
    rw [if_neg h0] at hQ
    by_cases hjk : j = k
    · subst hjk
      rw [if_neg (by simp)] at hQ
      by_cases hb : |x| < 2 ^ 32
      · rw [if_pos hb] at hQ
        exact mp_int_expt_full_alias hE h hx.val hy.val rfl (by omega) hb fun m' hh => hQ.put hI hw.lt hn hh
      · exact mp_int_expt_full_alias_large hE h hx.val hy.val rfl (by omega) (by omega)
    rw [if_pos hjk] at hQ
    refine mp_int_expt_full_spec hE h hx.val hy.val hw.val rfl (by simpa using fun e => hjk e.symm) (fun h0' => by omega) ?_
    intro _ m' hh; exact hQ.put hI hw.lt hn hh
  · intro ss xs c hh
    unfold opExptf at hh
    split at hh
    · split_ifs at hh <;> simp [val1] at hh
      rw [← hh]; decide
    · simp at hh

theorem tests_mod (hE : Ref env E) : Tests env E σ0 test_mod code 3 1 (numTest (op2 refMod)) := by
  refine test2_spec hE ?_ (op2_ne ?_)
  · intro m σ n i j k x y w h hI hx hy hw hn Q hQ
    unfold op2 refMod at hQ
    dsimp only at hQ
    refine mp_int_mod_spec hE h hx.val hy.val hw.val rfl ?_ ?_
    · intro h0 m' hh; rw [if_pos h0] at hQ; exact hQ.keep hI hh
    · intro h0 m' hh; rw [if_neg h0, remOf_eq] at hQ; exact hQ.put hI hw.lt hn hh
  · intro x y c hh
    unfold refMod at hh
    split_ifs at hh <;> simp [val1] at hh
    rw [← hh]; decide

theorem tests_gcd (hE : Ref env E) : Tests env E σ0 test_gcd code 3 1 (numTest (op2 refGcd)) := by
  refine test2_spec hE ?_ (op2_ne ?_)
  · intro m σ n i j k x y w h hI hx hy hw hn Q hQ
    unfold op2 refGcd at hQ
    dsimp only at hQ
    refine mp_int_gcd_spec hE h hx.val hy.val hw.val rfl ?_ ?_
    · intro h0 h1; rw [if_pos ⟨h0, h1⟩] at hQ; exact hQ.keep hI h
    · intro h0 m' hh; rw [if_neg h0] at hQ; exact hQ.put hI hw.lt hn hh
  · intro x y c hh
    unfold refGcd at hh
    split_ifs at hh <;> simp [val1] at hh
    rw [← hh]; decide

theorem tests_lcm (hE : Ref env E) : Tests env E σ0 test_lcm code 3 1 (numTest (op2 refLcm)) := by
  refine test2_spec hE ?_ (op2_ne ?_)
  · intro m σ n i j k x y w h hI hx hy hw hn Q hQ
    unfold op2 refLcm at hQ
    dsimp only at hQ
    refine mp_int_lcm_spec hE h hx.val hy.val hw.val rfl ?_ ?_
    · intro h0 h1 m' hh; rw [if_pos ⟨h0, h1⟩] at hQ; exact hQ.keep hI hh
    · intro h0 m' hh; rw [if_neg h0] at hQ; exact hQ.put hI hw.lt hn hh
  · intro x y c hh
    unfold refLcm at hh
    split_ifs at hh <;> simp [val1] at hh
    rw [← hh]; decide

theorem tests_invmod (hE : Ref env E) : Tests env E σ0 test_invmod code 3 1 (numTest (op2 refInvmod)) := by
  refine test2_spec hE ?_ (op2_ne ?_)
  · intro m σ n i j k x y w h hI hx hy hw hn Q hQ
    unfold op2 refInvmod at hQ
    dsimp only at hQ
    refine mp_int_invmod_spec hE h hx.val hy.val hw.val rfl ?_ ?_ ?_
    · intro h0; rw [if_pos h0] at hQ; exact hQ.keep hI h
    · intro h0 h1 hg m' hh; rw [if_neg (by omega), if_pos hg] at hQ; exact hQ.keep hI hh
    · intro P R h0 h1 hg hPR m' hh
      rw [invOf_eq h0 h1 hg hPR] at hh
      rw [if_neg (by omega), if_neg (by omega)] at hQ
      exact hQ.put hI hw.lt hn hh
  · intro x y c hh
    unfold refInvmod at hh
    split_ifs at hh <;> simp [val1] at hh <;> rw [← hh] <;> decide

theorem tests_addsub {f : Id → Id → Id → M Int} {fv : Id → Int → Id → M Int} {g : Int → Int → OpRes} {codev : Bytes} (hE : Ref env E)
    (h0 : 0 ∉ txt code) (hc : txt code ≠ codev)
    (hop : ∀ {m σ n i j k x y w}, R2 m σ → Inv σ0 σ → Reg σ n i x → Reg σ n j y → Reg σ n k w → n ≤ 16 →
      Does env E σ0 n [.var k] σ (f (.var i) (.var j) (.var k)) m (g x y)) (hne : ∀ x y c, g x y = .fails c → c ≠ MP_OK) :
    Tests env E σ0 (test_addsub codev f fv) code 3 1 (numTest (op2 g)) := by
  intro t d ti tq m σ Q R hd hi ho hti htq h hI hcode li lo hV
  unfold test_addsub nth
  refine withInts_spec hE hd hi ho hti htq h hI hV fun p ss n xs os e m' σ' hV h' hr => ?_
  obtain ⟨i, j, k, x, y, w, rfl, rfl, hp, hx, hy, hw⟩ := hr.three rfl li
  obtain ⟨u, rfl, hpo, hu⟩ := hr.out1 rfl lo
  rw [hp]
  refine wp_bind (wp_pure (wp_bind (wp_pure (wp_bind (wp_pure ?_)))))
  rw [hr.code, hcode]
  refine wp_bind (cstr_spec h0 (wp_if_neg hc ?_))
  exact vcheck_one hE hd hr.inv hr.expect hpo hu (hop h' hr.inv hx hy hw hr.le16) (hne _ _) hV

theorem tests_addsubv {f : Id → Id → Id → M Int} {fv : Id → Int → Id → M Int} {g : Int → Int → OpRes} (hE : Ref env E)
    (h0 : 0 ∉ txt code)
    (hop : ∀ {m σ n i k x y w}, R2 m σ → Inv σ0 σ → Reg σ n i x → Reg σ n k w → n ≤ 16 → SMALL_MIN < y → y ≤ SMALL_MAX →
      Does env E σ0 n [.var k] σ (fv (.var i) y (.var k)) m (g x y)) (hne : ∀ x y c, g x y = .fails c → c ≠ MP_OK) :
    Tests env E σ0 (test_addsub (txt code) f fv) code 3 1 (numTest (op2 fun x y => asLong y (g x y))) := by
  intro t d ti tq m σ Q R hd hi ho hti htq h hI hcode li lo hV
  unfold test_addsub nth
  refine withInts_spec hE hd hi ho hti htq h hI hV fun p ss n xs os e m' σ' hV h' hr => ?_
  obtain ⟨i, j, k, x, y, w, rfl, rfl, hp, hx, hy, hw⟩ := hr.three rfl li
  obtain ⟨u, rfl, hpo, hu⟩ := hr.out1 rfl lo
  rw [hp]
  refine wp_bind (wp_pure (wp_bind (wp_pure (wp_bind (wp_pure ?_)))))
  rw [hr.code, hcode]
  refine wp_bind (cstr_spec h0 (wp_if_pos rfl ?_))
  refine checkLong hd h' hr.inv hy.val hV fun m1 h1 k1 k2 hV => ?_
  exact vcheck_one hE hd hr.inv hr.expect hpo hu (hop h1 hr.inv hx hw hr.le16 k1 k2) (hne _ _) hV

theorem tests_add (hE : Ref env E) : Tests env E σ0 test_add "add" 3 1 (numTest (op2 fun x y => val1 (x + y))) :=
  tests_addsub hE (by decide) (by decide)
    (fun h hI hx hy hw hn => does1 hI hw.lt hn fun _ hQ => mp_int_add_spec hE h hx.val hy.val hw.val rfl hQ) fun _ _ _ => val1_ne

theorem tests_sub (hE : Ref env E) : Tests env E σ0 test_sub "sub" 3 1 (numTest (op2 fun x y => val1 (x - y))) :=
  tests_addsub hE (by decide) (by decide)
    (fun h hI hx hy hw hn => does1 hI hw.lt hn fun _ hQ => mp_int_sub_spec hE h hx.val hy.val hw.val rfl hQ) fun _ _ _ => val1_ne

theorem tests_addv (hE : Ref env E) : Tests env E σ0 test_add "addv" 3 1 (numTest (op2 fun x y => asLong y (val1 (x + y)))) :=
  tests_addsubv (g := fun x y => val1 (x + y)) hE (by decide)
    (fun h hI hx hw hn h1 h2 => does1 hI hw.lt hn fun _ hQ => mp_int_add_value_spec hE h1 h2 h hx.val hw.val rfl hQ) fun _ _ _ => val1_ne

theorem tests_subv (hE : Ref env E) : Tests env E σ0 test_sub "subv" 3 1 (numTest (op2 fun x y => asLong y (val1 (x - y)))) :=
  tests_addsubv (g := fun x y => val1 (x - y)) hE (by decide)
    (fun h hI hx hw hn h1 h2 => does1 hI hw.lt hn fun _ hQ => mp_int_sub_value_spec hE h1 h2 h hx.val hw.val rfl hQ) fun _ _ _ => val1_ne

theorem tests_setu (hE : Ref env E) : Tests env E σ0 test_set "setu" 2 1 (numTest opSetu) := by
  intro t d ti tq m σ Q R hd hi ho hti htq h hI hcode li lo hV
  unfold test_set nth
  refine withInts_spec hE hd hi ho hti htq h hI hV fun p ss n xs os e m' σ' hV h' hr => ?_
  obtain ⟨i, j, x, w, rfl, rfl, hp, hx, hw⟩ := hr.two rfl li
  obtain ⟨u, rfl, hpo, hu⟩ := hr.out1 rfl lo
  rw [hp]
  refine wp_bind (wp_pure (wp_bind (wp_pure ?_)))
  rw [hr.code, hcode]
  refine wp_bind (cstr_spec (by decide) (wp_if_pos rfl ?_))
  unfold opSetu at hV
  dsimp only at hV
  unfold CHECKV
  refine wp_bind (mp_int_to_uint_spec h' hw.val ?_ ?_)
  · intro hh m1 h1
    rw [if_pos (by norm_num; omega)] at hV
    exact wp_if_pos (by decide) (wp_pure (hV _ m1 σ' h1 hr.inv hd rfl rfl))
  · intro k1 k2 m1 h1
    rw [if_neg (by norm_num; omega)] at hV
    refine wp_if_neg (by simp) ?_
    have e : ((w.natAbs : Nat) : Int) = w := by omega
    refine vcheck_one hE hd hr.inv hr.expect hpo hu (does1 hr.inv hx.lt hr.le16 fun _ hQ => ?_) (fun _ => val1_ne) hV
    refine mp_int_set_uvalue_spec hE (by omega) h1 hx.val rfl ?_
    rw [e]; exact hQ

theorem tests_setv (hE : Ref env E) : Tests env E σ0 test_set "setv" 2 1 (numTest opSetv) := by
  intro t d ti tq m σ Q R hd hi ho hti htq h hI hcode li lo hV
  unfold test_set nth
  refine withInts_spec hE hd hi ho hti htq h hI hV fun p ss n xs os e m' σ' hV h' hr => ?_
  obtain ⟨i, j, x, w, rfl, rfl, hp, hx, hw⟩ := hr.two rfl li
  obtain ⟨u, rfl, hpo, hu⟩ := hr.out1 rfl lo
  rw [hp]
  refine wp_bind (wp_pure (wp_bind (wp_pure ?_)))
  rw [hr.code, hcode]
  refine wp_bind (cstr_spec (by decide) (wp_if_neg (by decide) ?_))
  refine checkLong (r := val1 w) hd h' hr.inv hw.val hV fun m1 h1 k1 k2 hV => ?_
  exact vcheck_one hE hd hr.inv hr.expect hpo hu (does1 hr.inv hx.lt hr.le16 fun _ hQ => mp_int_set_value_spec hE k1 k2 h1 hx.val rfl hQ)
    (fun _ => val1_ne) hV

theorem tests_exptv (hE : Ref env E) :
    Tests env E σ0 test_exptv code 3 1 (numTest (op2 fun x y => asLong x (asLong y (refExpt x y)))) := by
  intro t d ti tq m σ Q R hd hi ho hti htq h hI hcode li lo hV
  unfold test_exptv nth
  refine withInts_spec hE hd hi ho hti htq h hI hV fun p ss n xs os e m' σ' hV h' hr => ?_
  obtain ⟨i, j, k, x, y, w, rfl, rfl, hp, hx, hy, hw⟩ := hr.three rfl li
  obtain ⟨u, rfl, hpo, hu⟩ := hr.out1 rfl lo
  rw [hp]
  refine wp_bind (wp_pure (wp_bind (wp_pure (wp_bind (wp_pure ?_)))))
  refine checkLong (r := asLong y (refExpt x y)) hd h' hr.inv hx.val hV fun m1 h1 k1 k2 hV => ?_
  refine checkLong hd h1 hr.inv hy.val hV fun m2 h2 k3 k4 hV => ?_
  refine vcheck_one hE hd hr.inv hr.expect hpo hu ?_ (fun _ => refExpt_ne) hV
  intro Q hQ
  unfold refExpt at hQ
  refine mp_int_expt_value_spec hE h2 k1 k2 hw.val rfl ?_ ?_
  · intro h0; rw [if_pos h0] at hQ; exact hQ.keep hr.inv h2
  · intro h0 m' hh; rw [if_neg (by omega)] at hQ; exact hQ.put hr.inv hw.lt hr.le16 hh

theorem refEmod_ne {c : Int} (h : refEmod x y v = .fails c) : c ≠ MP_OK := by
  unfold refEmod at h
  split_ifs at h <;> simp [val1] at h <;> rw [← h] <;> decide

theorem mp_int_exptmod_range {a b md c : Id} {Q : Int → Mem → Prop} (h : R2 m σ) (hb : σ b = some y) (hm : σ md = some v) (hv : v ≠ 0) (hy : y < 0)
    (hQ : Q MP_RANGE m) : wp env E (mp_int_exptmod a b md c) Q m := by
  unfold mp_int_exptmod
  refine wp_bind (CMPZ_spec h hm (wp_if_neg (by rwa [Int.sign_eq_zero_iff_zero]) ?_))
  exact wp_bind (CMPZ_spec h hb (wp_if_pos (Int.sign_neg_iff.2 hy) (wp_pure hQ)))

/-- All cases of `mp_int_exptmod`. -/
theorem does_exptmod {n i j k l : Nat} {z : Int} (hE : Ref env E) (h : R2 m σ) (hI : Inv σ0 σ) (hx : Reg σ n i x) (hy : Reg σ n j y) (hz : Reg σ n k z)
    (hw : Reg σ n l w) (hn : n ≤ 16) : Does env E σ0 n [.var l] σ (mp_int_exptmod (.var i) (.var j) (.var k) (.var l)) m (refEmod x y z) := by
  intro Q hQ
  unfold refEmod at hQ
  by_cases h0 : z = 0
  · rw [if_pos h0] at hQ
    exact mp_int_exptmod_undef h (by rw [hz.val, h0]) (hQ.keep hI h)
  rw [if_neg h0] at hQ
  by_cases h1 : y < 0
  · rw [if_pos h1] at hQ
    exact mp_int_exptmod_range h hy.val hz.val h0 h1 (hQ.keep hI h)
  rw [if_neg h1] at hQ
  by_cases h2 : z < 0
  · rw [if_pos h2] at hQ
    exact mp_int_exptmod_neg hE h hx.val hy.val hz.val hw.val rfl h2 (by omega) fun m' hh => hQ.put hI hw.lt hn hh
  rw [if_neg h2] at hQ
  refine mp_int_exptmod_spec hE h hx.val hy.val hz.val hw.val rfl (by omega) (fun k => absurd k h1) fun _ m' hh => ?_
  split at hh
  · rename_i hc; rw [if_pos hc] at hQ; exact hQ.put hI hw.lt hn hh
  · rename_i hc; rw [if_neg hc] at hQ; exact hQ.put hI hw.lt hn hh

theorem does_evalue {n i k l : Nat} {z : Int} (hE : Ref env E) (h : R2 m σ) (hI : Inv σ0 σ) (hx : Reg σ n i x) (hy1 : SMALL_MIN < y) (hy2 : y ≤ SMALL_MAX)
    (hz : Reg σ n k z) (hw : Reg σ n l w) (hn : n ≤ 16) :
    Does env E σ0 n [.var l] σ (mp_int_exptmod_evalue (.var i) y (.var k) (.var l)) m (refEmod x y z) := by
  intro Q hQ
  unfold refEmod at hQ
  by_cases h2 : z < 0
  · rw [if_neg (by omega)] at hQ
    by_cases h1 : y < 0
    · rw [if_pos h1] at hQ
      unfold mp_int_exptmod_evalue
      refine withFake_spec hy1 hy2 h fun t m1 ht hto h1' => ?_
      have hkt : Id.var k ≠ t := by rintro rfl; rw [hz.val] at ht; simp at ht
      refine mp_int_exptmod_range h1' (upd_self ..) ((upd_ne _ _ hkt).trans hz.val) (by omega) h1 ?_
      refine ⟨_, y, h1', upd_self .., fun m3 h3 => hQ.keep hI ?_⟩
      rwa [upd_upd, upd_same _ ht] at h3
    rw [if_neg h1, if_pos h2] at hQ
    exact mp_int_exptmod_evalue_neg hE h hy1 hy2 hx.val hz.val hw.val rfl h2 (by omega) fun m' hh => hQ.put hI hw.lt hn hh
  refine mp_int_exptmod_evalue_spec hE h hy1 hy2 hx.val hz.val hw.val rfl (by omega) ?_ ?_ ?_
  · intro h0 m' hh; rw [if_pos h0] at hQ; exact hQ.keep hI hh
  · intro h0 h1 m' hh; rw [if_neg h0, if_pos h1] at hQ; exact hQ.keep hI hh
  · intro h0 h1 m' hh
    rw [if_neg h0, if_neg (by omega), if_neg h2] at hQ
    split at hh
    · rename_i hc; rw [if_pos hc] at hQ; exact hQ.put hI hw.lt hn hh
    · rename_i hc; rw [if_neg hc] at hQ; exact hQ.put hI hw.lt hn hh

theorem does_bvalue {n j k l : Nat} {z : Int} (hE : Ref env E) (h : R2 m σ) (hI : Inv σ0 σ) (hx1 : SMALL_MIN < x) (hx2 : x ≤ SMALL_MAX) (hy : Reg σ n j y)
    (hz : Reg σ n k z) (hw : Reg σ n l w) (hn : n ≤ 16) :
    Does env E σ0 n [.var l] σ (mp_int_exptmod_bvalue x (.var j) (.var k) (.var l)) m (refEmod x y z) := by
  intro Q hQ
  unfold refEmod at hQ
  by_cases h2 : z < 0
  · rw [if_neg (by omega)] at hQ
    by_cases h1 : y < 0
    · rw [if_pos h1] at hQ
      unfold mp_int_exptmod_bvalue
      refine withFake_spec hx1 hx2 h fun t m1 ht hto h1' => ?_
      have hkt : Id.var k ≠ t := by rintro rfl; rw [hz.val] at ht; simp at ht
      have hjt : Id.var j ≠ t := by rintro rfl; rw [hy.val] at ht; simp at ht
      refine mp_int_exptmod_range h1' ((upd_ne _ _ hjt).trans hy.val) ((upd_ne _ _ hkt).trans hz.val) (by omega) h1 ?_
      refine ⟨_, x, h1', upd_self .., fun m3 h3 => hQ.keep hI ?_⟩
      rwa [upd_upd, upd_same _ ht] at h3
    rw [if_neg h1, if_pos h2] at hQ
    exact mp_int_exptmod_bvalue_neg hE h hx1 hx2 hy.val hz.val hw.val rfl h2 (by omega) fun m' hh => hQ.put hI hw.lt hn hh
  refine mp_int_exptmod_bvalue_spec hE h hx1 hx2 hy.val hz.val hw.val rfl (by omega) ?_ ?_ ?_
  · intro h0 m' hh; rw [if_pos h0] at hQ; exact hQ.keep hI hh
  · intro h0 h1 m' hh; rw [if_neg h0, if_pos h1] at hQ; exact hQ.keep hI hh
  · intro h0 h1 m' hh
    rw [if_neg h0, if_neg (by omega), if_neg h2] at hQ
    split at hh
    · rename_i hc; rw [if_pos hc] at hQ; exact hQ.put hI hw.lt hn hh
    · rename_i hc; rw [if_neg hc] at hQ; exact hQ.put hI hw.lt hn hh

theorem tests_emod (hE : Ref env E) : Tests env E σ0 test_exptmod code 4 1 (numTest (op3 refEmod)) := by
  intro t d ti tq m σ Q R hd hi ho hti htq h hI hcode li lo hV
  unfold test_exptmod nth
  refine withInts_spec hE hd hi ho hti htq h hI hV fun p ss n xs os e m' σ' hV h' hr => ?_
  obtain ⟨i, j, k, l, x, y, z, w, rfl, rfl, hp, hx, hy, hz, hw⟩ := hr.four rfl li
  obtain ⟨u, rfl, hpo, hu⟩ := hr.out1 rfl lo
  rw [hp]
  refine wp_bind (wp_pure (wp_bind (wp_pure (wp_bind (wp_pure (wp_bind (wp_pure ?_)))))))
  exact vcheck_one hE hd hr.inv hr.expect hpo hu (does_exptmod hE h' hr.inv hx hy hz hw hr.le16) (fun _ => refEmod_ne) hV

theorem tests_emodev (hE : Ref env E) : Tests env E σ0 test_exptmod_ev code 4 1 (numTest (op3 fun x y v => asLong y (refEmod x y v))) := by
  intro t d ti tq m σ Q R hd hi ho hti htq h hI hcode li lo hV
  unfold test_exptmod_ev nth
  refine withInts_spec hE hd hi ho hti htq h hI hV fun p ss n xs os e m' σ' hV h' hr => ?_
  obtain ⟨i, j, k, l, x, y, z, w, rfl, rfl, hp, hx, hy, hz, hw⟩ := hr.four rfl li
  obtain ⟨u, rfl, hpo, hu⟩ := hr.out1 rfl lo
  rw [hp]
  refine wp_bind (wp_pure (wp_bind (wp_pure (wp_bind (wp_pure (wp_bind (wp_pure ?_)))))))
  refine checkLong hd h' hr.inv hy.val hV fun m1 h1 k1 k2 hV => ?_
  exact vcheck_one hE hd hr.inv hr.expect hpo hu (does_evalue hE h1 hr.inv hx k1 k2 hz hw hr.le16) (fun _ => refEmod_ne) hV

theorem tests_emodbv (hE : Ref env E) : Tests env E σ0 test_exptmod_bv code 4 1 (numTest (op3 fun x y v => asLong x (refEmod x y v))) := by
  intro t d ti tq m σ Q R hd hi ho hti htq h hI hcode li lo hV
  unfold test_exptmod_bv nth
  refine withInts_spec hE hd hi ho hti htq h hI hV fun p ss n xs os e m' σ' hV h' hr => ?_
  obtain ⟨i, j, k, l, x, y, z, w, rfl, rfl, hp, hx, hy, hz, hw⟩ := hr.four rfl li
  obtain ⟨u, rfl, hpo, hu⟩ := hr.out1 rfl lo
  rw [hp]
  refine wp_bind (wp_pure (wp_bind (wp_pure (wp_bind (wp_pure (wp_bind (wp_pure ?_)))))))
  refine checkLong hd h' hr.inv hx.val hV fun m1 h1 k1 k2 hV => ?_
  exact vcheck_one hE hd hr.inv hr.expect hpo hu (does_bvalue hE h1 hr.inv k1 k2 hy hz hw hr.le16) (fun _ => refEmod_ne) hV

end Imath
