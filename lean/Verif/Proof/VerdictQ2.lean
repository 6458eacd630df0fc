import Verif.Proof.VerdictQ
import Verif.Props.RatLen

/-! # The test driver: tests on rational numbers -/

namespace Imath

variable {env : Env} {E : Fault → Prop} {m : Mem} {σ σ0 : Id → Option Int} {d : Drv} {p q u : ℚ} {r : Nat} {code : String}

/-- Registers below `n` with values. -/
structure RegQ (σ : Id → Option Int) (n i : Nat) (x : ℚ) : Prop where
  lt : i < n
  val : HasQ2 σ (qr i) x

section
variable {hE : Ref env E} {p : Parsed MpQ} {ss : List Nat} {n : Nat} {xs os : List ℚ} {e : Int} {inn out : Bool} {t : Test} {ti tq : List Bytes}

theorem Regs.Read.lt16 (h : (ratRegs hE σ0).Read p ss n xs os e inn out t ti tq σ) : n ≤ 16 := by have := h.n16; omega

theorem Regs.Read.qtwo (h : (ratRegs hE σ0).Read p ss n xs os e inn out t ti tq σ) (hi : inn = true) (hl : ti.length = 2) :
    ∃ i j x y, ss = [i, j] ∧ xs = [x, y] ∧ p.ins = [qr i, qr j] ∧ RegQ σ n i x ∧ RegQ σ n j y := by
  have h1 := h.len hi
  have h2 := h.slots
  have h3 := h.lt
  have h4 := h.ins
  unfold Regs.Slots at h2
  rw [hl] at h1
  obtain ⟨i, j, rfl⟩ := List.length_eq_two.1 h1
  obtain _ | ⟨k1, hf⟩ := h2
  obtain _ | ⟨k2, hf⟩ := hf
  cases hf
  exact ⟨i, j, _, _, rfl, rfl, h4, ⟨h3 i (by simp), k1⟩, ⟨h3 j (by simp), k2⟩⟩

theorem Regs.Read.qthree (h : (ratRegs hE σ0).Read p ss n xs os e inn out t ti tq σ) (hi : inn = true) (hl : ti.length = 3) :
    ∃ i j k x y z, ss = [i, j, k] ∧ xs = [x, y, z] ∧ p.ins = [qr i, qr j, qr k] ∧ RegQ σ n i x ∧ RegQ σ n j y ∧ RegQ σ n k z := by
  have h1 := h.len hi
  have h2 := h.slots
  have h3 := h.lt
  have h4 := h.ins
  unfold Regs.Slots at h2
  rw [hl] at h1
  obtain ⟨i, j, k, rfl⟩ := List.length_eq_three.1 h1
  obtain _ | ⟨k1, hf⟩ := h2
  obtain _ | ⟨k2, hf⟩ := hf
  obtain _ | ⟨k3, hf⟩ := hf
  cases hf
  exact ⟨i, j, k, _, _, _, rfl, rfl, h4, ⟨h3 i (by simp), k1⟩, ⟨h3 j (by simp), k2⟩, ⟨h3 k (by simp), k3⟩⟩

theorem Regs.Read.qfour (h : (ratRegs hE σ0).Read p ss n xs os e inn out t ti tq σ) (hi : inn = true) (hl : ti.length = 4) :
    ∃ i j k l x y z w, ss = [i, j, k, l] ∧ xs = [x, y, z, w] ∧ p.ins = [qr i, qr j, qr k, qr l] ∧ RegQ σ n i x := by
  have h1 := h.len hi
  have h2 := h.slots
  have h3 := h.lt
  have h4 := h.ins
  unfold Regs.Slots at h2
  rw [hl] at h1
  obtain _ | ⟨i, _ | ⟨j, _ | ⟨k, _ | ⟨l, _ | ⟨_, _⟩⟩⟩⟩⟩ := ss <;> simp at h1
  obtain _ | ⟨k1, hf⟩ := h2
  obtain _ | ⟨k2, hf⟩ := hf
  obtain _ | ⟨k3, hf⟩ := hf
  obtain _ | ⟨k4, hf⟩ := hf
  cases hf
  exact ⟨i, j, k, l, _, _, _, _, rfl, rfl, h4, ⟨h3 i (by simp), k1⟩⟩

theorem Regs.Read.qout1 (h : (ratRegs hE σ0).Read p ss n xs os e inn out t ti tq σ) (hi : out = true) (hl : tq.length = 1) :
    ∃ u, os = [u] ∧ p.outs = [qr n] ∧ HasQ2 σ (qr n) u := by
  have h1 := h.outs hi
  have h2 := h.oslots hi
  have h3 := h.olen
  unfold Regs.Slots at h2
  rw [hl] at h3
  obtain ⟨u, rfl⟩ := List.length_eq_one_iff.1 h3
  obtain ⟨_, _, k1, hf, hh⟩ := List.forall₂_cons_left_iff.1 h2
  simp only [List.cons.injEq] at hh
  obtain ⟨rfl, rfl⟩ := hh
  exact ⟨u, rfl, h1, k1⟩

end

theorem testQ1_spec {op : MpQ → MpQ → M Int} {f : ℚ → QRes} (hE : Ref env E)
    (hop : ∀ {m σ i k x}, R2 m σ → Inv σ0 σ → HasQ2 σ (qr i) x → k < 16 → DoesQ env E σ0 k σ (op (qr i) (qr k)) m (f x))
    (hne : ∀ x c, f x = .fails c → c ≠ MP_OK) : Tests env E σ0 (testQ1 op) code 2 1 (ratTest1 f) := by
  intro t d ti tq m σ Q R hd hi ho hti htq h hI hcode li lo hV
  unfold testQ1 nth
  refine withRats_spec hE hd hi ho hti htq h hI hV fun p ss n xs os e m' σ' hV h' hr => ?_
  obtain ⟨i, j, x, w, rfl, rfl, hp, hx, hw⟩ := hr.qtwo rfl li
  obtain ⟨u, rfl, hpo, hu⟩ := hr.qout1 rfl lo
  rw [hp]
  refine wp_bind (wp_pure (wp_bind (wp_pure ?_)))
  have n16 := hr.lt16
  have := hw.lt
  exact vcheckQ hE hd hr.inv (by omega) (by omega) hr.expect hpo hu (hop h' hr.inv hx.val (by omega)) (hne x) hV

theorem testQ2_spec {op : MpQ → MpQ → MpQ → M Int} {f : Bool → ℚ → ℚ → QRes} (hE : Ref env E)
    (hop : ∀ {m σ i j k x y}, R2 m σ → Inv σ0 σ → HasQ2 σ (qr i) x → HasQ2 σ (qr j) y → k < 16 →
      DoesQ env E σ0 k σ (op (qr i) (qr j) (qr k)) m (f (j = k) x y))
    (hne : ∀ s x y c, f s x y = .fails c → c ≠ MP_OK) : Tests env E σ0 (testQ2 op) code 3 1 (ratTest2 f) := by
  intro t d ti tq m σ Q R hd hi ho hti htq h hI hcode li lo hV
  unfold testQ2 nth
  refine withRats_spec hE hd hi ho hti htq h hI hV fun p ss n xs os e m' σ' hV h' hr => ?_
  obtain ⟨i, j, k, x, y, w, rfl, rfl, hp, hx, hy, hw⟩ := hr.qthree rfl li
  obtain ⟨u, rfl, hpo, hu⟩ := hr.qout1 rfl lo
  rw [hp]
  refine wp_bind (wp_pure (wp_bind (wp_pure (wp_bind (wp_pure ?_)))))
  have n16 := hr.lt16
  have := hw.lt
  exact vcheckQ hE hd hr.inv (by omega) (by omega) hr.expect hpo hu (hop h' hr.inv hx.val hy.val (by omega)) (hne _ x y) hV

theorem testQz_spec {op : MpQ → Id → MpQ → M Int} {f : Bool → ℚ → Int → QRes} (hE : Ref env E)
    (hop : ∀ {m σ i j k x y}, R2 m σ → Inv σ0 σ → HasQ2 σ (qr i) x → σ (qr j).num = some y → k < 16 →
      DoesQ env E σ0 k σ (op (qr i) (qr j).num (qr k)) m (f (j = k) x y))
    (hne : ∀ s x y c, f s x y = .fails c → c ≠ MP_OK) : Tests env E σ0 (testQz op) code 3 1 (ratTest2 (intArg f)) := by
  intro t d ti tq m σ Q R hd hi ho hti htq h hI hcode li lo hV
  unfold testQz nth
  refine withRats_spec hE hd hi ho hti htq h hI hV fun p ss n xs os e m' σ' hV h' hr => ?_
  obtain ⟨i, j, k, x, y, w, rfl, rfl, hp, hx, hy, hw⟩ := hr.qthree rfl li
  obtain ⟨u, rfl, hpo, hu⟩ := hr.qout1 rfl lo
  rw [hp]
  refine wp_bind (wp_pure (wp_bind (wp_pure (wp_bind (wp_pure ?_)))))
  have n16 := hr.lt16
  have := hw.lt
  refine wp_bind (mp_rat_is_integer_spec h' hy.val fun m1 h1 => ?_)
  dsimp only [intArg] at hV
  by_cases hy1 : y.den = 1
  · rw [if_pos hy1] at hV
    exact wp_if_pos (by simpa using hy1) (vcheckQ hE hd hr.inv (by omega) (by omega) hr.expect hpo hu (hop h1 hr.inv hx.val hy.val.1 (by omega)) (hne _ x _) hV)
  · rw [if_neg hy1] at hV
    exact wp_if_neg (by simpa using hy1) (wp_pure (hV _ m1 σ' h1 hr.inv hd rfl rfl))

theorem tests_qneg (hE : Ref env E) : Tests env E σ0 test_qneg code 2 1 (ratTest1 fun x => .done (-x)) :=
  testQ1_spec hE (fun h hI hx hk _ hQ => mp_rat_neg_spec hE h hx (hI.outQ hk) (sepQ _ _) hQ) (by simp)

theorem tests_qabs (hE : Ref env E) : Tests env E σ0 test_qabs code 2 1 (ratTest1 fun x => .done |x|) :=
  testQ1_spec hE (fun h hI hx hk _ hQ => mp_rat_abs_spec hE h hx (hI.outQ hk) (sepQ _ _) hQ) (by simp)

theorem tests_qrecip (hE : Ref env E) : Tests env E σ0 test_qrecip code 2 1 (ratTest1 fun x => if x = 0 then .fails MP_UNDEF else .done x⁻¹) := by
  refine testQ1_spec hE (fun {m σ i k x} h hI hx hk Q hQ => ?_) ?_
  · refine mp_rat_recip_spec hE h hx (hI.outQ hk) (sepQ _ _) (fun h0 => ?_) fun h0 => ?_
    · rw [if_pos h0] at hQ; exact hQ m σ h hI
    · rw [if_neg h0] at hQ; exact hQ
  · intro x c h
    split at h
    · obtain rfl : MP_UNDEF = c := by simpa using h
      decide
    · simp at h

theorem tests_qadd (hE : Ref env E) : Tests env E σ0 test_qadd code 3 1 (ratTest2 fun _ x y => .done (x + y)) :=
  testQ2_spec hE (fun h hI hx hy hk _ hQ => mp_rat_add_spec hE h hx hy (hI.outQ hk) (sepQ _ _) (sepQ _ _) hQ) (by simp)

theorem tests_qsub (hE : Ref env E) : Tests env E σ0 test_qsub code 3 1 (ratTest2 fun _ x y => .done (x - y)) :=
  testQ2_spec hE (fun h hI hx hy hk _ hQ => mp_rat_sub_spec hE h hx hy (hI.outQ hk) (sepQ _ _) (sepQ _ _) hQ) (by simp)

theorem tests_qmul (hE : Ref env E) : Tests env E σ0 test_qmul code 3 1 (ratTest2 fun _ x y => .done (x * y)) :=
  testQ2_spec hE (fun h hI hx hy hk _ hQ => mp_rat_mul_spec hE h hx hy (hI.outQ hk) (sepQ _ _) (sepQ _ _) hQ) (by simp)

theorem tests_qdiv (hE : Ref env E) :
    Tests env E σ0 test_qdiv code 3 1 (ratTest2 fun _ x y => if y = 0 then .fails MP_UNDEF else .done (x / y)) := by
  refine testQ2_spec hE (fun {m σ i j k x y} h hI hx hy hk Q hQ => ?_) ?_
  · refine mp_rat_div_spec hE h hx hy (hI.outQ hk) (sepQ _ _) (sepQ _ _) (fun h0 => ?_) fun h0 => ?_
    · rw [if_pos h0] at hQ; exact hQ m σ h hI
    · rw [if_neg h0] at hQ; exact hQ
  · intro s x y c h
    split at h
    · obtain rfl : MP_UNDEF = c := by simpa using h
      decide
    · simp at h

theorem tests_qaddz (hE : Ref env E) : Tests env E σ0 test_qaddz code 3 1 (ratTest2 (intArg fun _ x y => .done (x + y))) :=
  testQz_spec hE (fun h hI hx hy hk _ hQ => mp_rat_add_int_spec hE h hx hy (hI.outQ hk) (sepQ _ _) hQ) (by simp)

theorem tests_qsubz (hE : Ref env E) : Tests env E σ0 test_qsubz code 3 1 (ratTest2 (intArg fun _ x y => .done (x - y))) :=
  testQz_spec hE (fun h hI hx hy hk _ hQ => mp_rat_sub_int_spec hE h hx hy (hI.outQ hk) (sepQ _ _) hQ) (by simp)

/-- The integer is the numerator of the result: it has been overwritten when it is used. -/
theorem mp_rat_mul_int_self {Q : Int → Mem → Prop} {a c : MpQ} (hE : Ref env E) (h : R2 m σ) (ha : HasQ2 σ a p) (hc : OutQ σ c)
    (sa : SepQ a c) (hQ : ∀ m', R2 m' (updQ σ c (p * p.num)) → Q MP_OK m') :
    wp env E (mp_rat_mul_int a c.num c) Q m := by
  unfold mp_rat_mul_int REQUIRE
  refine wp_bind (mp_rat_copy_spec hE h ha hc sa fun m1 h1 => wp_if_neg (by simp) ?_)
  have hh := updQ_has (σ := σ) (q := p) hc.ne
  refine wp_bind (mp_int_mul_spec hE h1 hh.1 hh.1 hh.1 hc.onum fun m2 h2 => wp_if_neg (by simp) ?_)
  refine s_rat_reduce_spec hE h2 (upd_self ..) (y := p.den) (by rw [upd_ne _ _ hc.ne.symm]; exact hh.2) (fun _ => den_ne p) (((hc.upd _ _).upd _ _).upd _ _) fun m3 h3 => hQ m3 ?_
  rwa [updQ_updn hc.ne, show updQ σ c p = upd (upd σ c.num (some p.num)) c.den (some (p.den : Int)) from rfl, updQ_clean hc.ne, q_mul_int] at h3

theorem mp_rat_div_int_self {Q : Int → Mem → Prop} {a c : MpQ} {y : Int} (hE : Ref env E) (h : R2 m σ) (ha : HasQ2 σ a p) (hb : σ c.num = some y) (hc : OutQ σ c)
    (sa : SepQ a c) (hQ0 : y = 0 → Q MP_UNDEF m) (hQ : y ≠ 0 → ∀ m', R2 m' (updQ σ c (p / p.num)) → Q MP_OK m') :
    wp env E (mp_rat_div_int a c.num c) Q m := by
  unfold mp_rat_div_int
  refine wp_bind (mp_int_compare_zero_spec h hb ?_)
  by_cases hy : y = 0
  · exact wp_if_pos (by simp [hy]) (wp_pure (hQ0 hy))
  refine wp_if_neg (by simpa [Int.sign_eq_zero_iff_zero] using hy) ?_
  unfold REQUIRE
  refine wp_bind (mp_rat_copy_spec hE h ha hc sa fun m1 h1 => wp_if_neg (by simp) ?_)
  have hh := updQ_has (σ := σ) (q := p) hc.ne
  refine wp_bind (mp_int_mul_spec hE h1 hh.2 hh.1 hh.2 hc.oden fun m2 h2 => wp_if_neg (by simp) ?_)
  refine s_rat_reduce_spec hE h2 (x := p.num) (by rw [upd_ne _ _ hc.ne]; exact hh.1) (upd_self ..) (fun hp => mul_ne_zero (den_ne p) hp) (((hc.upd _ _).upd _ _).upd _ _) fun m3 h3 => hQ hy m3 ?_
  rw [updQ_updd hc.ne, show updQ σ c p = upd (upd σ c.num (some p.num)) c.den (some (p.den : Int)) from rfl, updQ_clean hc.ne] at h3
  by_cases hp : p.num = 0
  · have : p = 0 := Rat.num_eq_zero.1 hp
    subst this
    simpa using h3
  · rwa [q_div_int p hp] at h3

theorem qr_num_ne {i k : Nat} (h : i ≠ k) : (qr i).num ≠ (qr k).num ∧ (qr i).num ≠ (qr k).den := by
  simp only [qr, ne_eq, Id.var.injEq]; omega

theorem tests_qmulz (hE : Ref env E) : Tests env E σ0 test_qmulz code 3 1 (ratTest2 (intArg refMulz)) := by
  refine testQz_spec hE (fun {m σ i j k x y} h hI hx hy hk Q hQ => ?_) (by simp [refMulz])
  unfold refMulz at hQ
  by_cases hj : j = k
  · subst hj
    refine mp_rat_mul_int_self hE h hx (hI.outQ hk) (sepQ _ _) ?_
    simpa using hQ
  · obtain ⟨a, b⟩ := qr_num_ne hj
    refine mp_rat_mul_int_spec hE h hx hy (hI.outQ hk) (sepQ _ _) a b ?_
    simpa [hj] using hQ

theorem tests_qdivz (hE : Ref env E) : Tests env E σ0 test_qdivz code 3 1 (ratTest2 (intArg refDivz)) := by
  refine testQz_spec hE (fun {m σ i j k x y} h hI hx hy hk Q hQ => ?_) ?_
  · unfold refDivz at hQ
    have h0' : y = 0 → Q MP_UNDEF m := fun h0 => by
      rw [if_pos h0] at hQ; exact hQ m σ h hI
    by_cases hj : j = k
    · subst hj
      refine mp_rat_div_int_self hE h hx hy (hI.outQ hk) (sepQ _ _) h0' fun h0 => ?_
      rw [if_neg h0] at hQ
      simpa using hQ
    · obtain ⟨a, b⟩ := qr_num_ne hj
      refine mp_rat_div_int_spec hE h hx hy (hI.outQ hk) (sepQ _ _) a b h0' fun h0 => ?_
      rw [if_neg h0] at hQ
      simpa [hj] using hQ
  · intro s x y c h
    unfold refDivz at h
    split at h
    · obtain rfl : MP_UNDEF = c := by simpa using h
      decide
    · simp at h

theorem tests_qexpt (hE : Ref env E) : Tests env E σ0 test_qexpt code 3 1 (ratTest2 (intArg fun _ => refQexpt)) := by
  intro t d ti tq m σ Q R hd hi ho hti htq h hI hcode li lo hV
  unfold test_qexpt nth
  refine withRats_spec hE hd hi ho hti htq h hI hV fun p ss n xs os e m' σ' hV h' hr => ?_
  obtain ⟨i, j, k, x, y, w, rfl, rfl, hp, hx, hy, hw⟩ := hr.qthree rfl li
  obtain ⟨u, rfl, hpo, hu⟩ := hr.qout1 rfl lo
  rw [hp]
  refine wp_bind (wp_pure (wp_bind (wp_pure (wp_bind (wp_pure ?_)))))
  have n16 := hr.lt16
  have := hw.lt
  refine wp_bind (mp_rat_is_integer_spec h' hy.val fun m1 h1 => ?_)
  dsimp only [intArg] at hV
  by_cases hy1 : y.den = 1
  swap
  · rw [if_neg hy1] at hV
    exact wp_if_neg (by simpa using hy1) (wp_pure (hV _ m1 σ' h1 hr.inv hd rfl rfl))
  rw [if_pos hy1] at hV
  refine wp_if_pos (by simpa using hy1) ?_
  unfold CHECKV
  unfold refQexpt at hV
  by_cases h0 : y.num = -2 ^ 63
  · rw [if_pos h0] at hV
    exact wp_bind (mp_int_to_int_fault hV h1 (by show σ' (qr j).num = _; rw [hy.val.1, h0]; rfl))
  rw [if_neg h0] at hV
  refine wp_bind (mp_int_to_int_spec h1 hy.val.1 (by intro hh; apply h0; rw [hh]; norm_num) ?_ ?_)
  · intro hh m2 h2
    rw [if_pos (by rcases hh with hh | hh <;> [left; right] <;> norm_num <;> omega)] at hV
    exact wp_if_pos (by decide) (wp_pure (hV _ m2 σ' h2 hr.inv hd rfl rfl))
  · intro k1 k2 m2 h2
    rw [if_neg (by norm_num; omega)] at hV
    refine wp_if_neg (by simp) ?_
    refine vcheckQ hE hd hr.inv (by omega) (by omega) hr.expect hpo hu (fun Q hQ => ?_) ?_ hV
    · refine mp_rat_expt_spec hE h2 hx.val (hr.inv.outQ (by omega)) (sepQ _ _) (fun hneg => ?_) fun hpos => ?_
      · rw [if_pos hneg] at hQ; exact hQ m2 σ' h2 hr.inv
      · rw [if_neg (by omega)] at hQ; exact hQ
    · intro c hc
      split at hc
      · obtain rfl : MP_RANGE = c := by simpa using hc
        decide
      · simp at hc

/-! ### Output -/

theorem short_numeral (hr2 : 2 ≤ r) (hr : r ≤ 36) {x : Int} (h : (numeral r x).length ≤ 2047) : |x| < 13 ^ 5458 := by
  have h1 : (numeralN r x.natAbs).length ≤ 2047 := by unfold numeral at h; rw [List.length_append] at h; omega
  have h2 : x.natAbs < r ^ 2047 := by
    by_cases h0 : x.natAbs = 0
    · rw [h0]; exact Nat.pow_pos (by omega)
    · have : (Nat.digits r x.natAbs).length ≤ 2047 := by
        unfold numeralN at h1
        rw [if_neg h0] at h1
        simpa using h1
      exact (Nat.lt_base_pow_length_digits (by omega)).trans_le (Nat.pow_le_pow_right (by omega) this)
  have h3 : r ^ 2047 ≤ (13 ^ 2) ^ 2047 := Nat.pow_le_pow_left (by omega) _
  rw [← Nat.pow_mul] at h3
  have h4 : (13 : Nat) ^ (2 * 2047) ≤ 13 ^ 5458 := Nat.pow_le_pow_right (by norm_num) (by norm_num)
  have h5 : x.natAbs < 13 ^ 5458 := lt_of_lt_of_le h2 (h3.trans h4)
  rw [Int.abs_eq_natAbs]
  exact_mod_cast h5

theorem short_size {x : Int} (h : |x| < 13 ^ 5458) : Nat.size x.natAbs ≤ 21832 := by
  rw [Int.abs_eq_natAbs] at h
  have h5 : x.natAbs < 13 ^ 5458 := by exact_mod_cast h
  rw [Nat.size_le]
  have : (13 : Nat) ^ 5458 ≤ (2 ^ 4) ^ 5458 := Nat.pow_le_pow_left (by norm_num) _
  rw [← Nat.pow_mul] at this
  exact lt_of_lt_of_le h5 this

theorem wp_cint_ub {x : Int} {Q : Int → Mem → Prop} (hu : E .ub) (hQ : -2147483648 ≤ x → x ≤ 2147483647 → Q x m) :
    wp env E (cint x) Q m := by
  by_cases h : -2147483648 ≤ x ∧ x ≤ 2147483647
  · exact wp_cint h.1 h.2 (hQ h.1 h.2)
  · refine wp_fault (f := .ub) ?_ hu
    unfold cint
    rw [if_neg h]; rfl

/-- The second input. -/
theorem second_trimmed {ls ts : List Bytes} (h : Arrays ls (ts.map trimmed)) (hts : OkTexts ts) (hl : ts.length = 2) :
    ∃ a s R, ts = [a, s] ∧ ls[1]? = some (trimmed s ++ 0 :: R) ∧ 0 ∉ trimmed s := by
  obtain ⟨a, b, rfl⟩ := List.length_eq_two.1 hl
  obtain _ | ⟨k1, hf⟩ := h
  obtain _ | ⟨k2, hf⟩ := hf
  obtain ⟨R, rfl⟩ := k2
  exact ⟨a, b, R, rfl, rfl, zero_notMem_trimmed (hts b (by simp)).1⟩

theorem tests_qtostr (hE : Ref env E) : Tests env E σ0 test_qtostr code 2 1 testQtostr := by
  intro t d ti tq m σ Q R hd hi ho hti htq h hI hcode li lo hV
  unfold test_qtostr nth
  refine withRats_spec hE hd hi ho hti htq h hI hV fun p ss n xs os e m' σ' hV h' hr => ?_
  obtain ⟨i, j, x, w, rfl, rfl, hp, hx, hw⟩ := hr.qtwo rfl li
  obtain ⟨o, R', rfl, hs, h0⟩ := only_text hr.output htq lo
  obtain ⟨a, s, Rs, rfl, hs1, hs0⟩ := second_trimmed hr.input hti li
  rw [hp, hs, hs1]
  refine wp_bind (wp_pure (wp_bind (wp_pure (wp_bind (trim_line_spec hs0 fun R1 _ => ?_)))))
  rw [C70_trim_line_again]
  refine wp_bind (read_long_spec hs0 ?_)
  dsimp only at hV
  cases hl : longOf (trimmed s) with
  | none => rw [hl] at hV; exact wp_pure (hV _ m' σ' h' hr.inv hd rfl rfl)
  | some r =>
  rw [hl] at hV
  dsimp only at hV
  show wp env E (if r < 2 ∨ r > 36 then FAIL d MP_RANGE else _) Q m'
  by_cases hrr : r < 2 ∨ 36 < r
  · rw [if_pos hrr] at hV
    exact wp_if_pos hrr (wp_pure (hV _ m' σ' h' hr.inv hd rfl rfl))
  rw [if_neg hrr] at hV
  refine wp_if_neg hrr (wp_bind (wp_pure (wp_bind (trim_line_spec h0 fun R2' _ => ?_))))
  rw [C70_trim_line_again]
  obtain ⟨r, rfl⟩ : ∃ r' : Nat, r = r' := ⟨r.toNat, by omega⟩
  rw [Int.toNat_natCast] at hV ⊢
  have r2 : 2 ≤ r := by omega
  have r36 : r ≤ 36 := by omega
  have hg := hd.1
  have z1 := h'.size_le hx.val.1
  have z2 := h'.size_le hx.val.2
  have p1 := numeral_pos r2 x.num
  have p2 := numeral_pos r2 (x.den : Int)
  have ok1 := fun k : (numeral r x.num).length ≤ 2047 => len_ok ⟨r2, r36⟩ z1 (.inr (short_numeral r2 r36 k))
  have ok2 := fun k : (numeral r (x.den : Int)).length ≤ 2047 => len_ok ⟨r2, r36⟩ z2 (.inr (short_numeral r2 r36 k))
  unfold mp_rat_string_len
  refine wp_bind (wp_bind (mp_int_string_len_spec2 r2 r36 h' hx.val.1 fun n1 a1 a2 _ a4 => wp_bind (mp_int_compare_zero_spec h' hx.val.1 ?_)))
  have den : ∀ (P : Int → Prop), (x = 0 → P 0) → (x ≠ 0 → ∀ n2 : Int, ((numeral r (x.den : Int)).length : Int) ≤ n2 →
      (LenOk r (x.den : Int).natAbs → ((numeral r (x.den : Int)).length : Int) + 1 ≤ n2) →
      (n2 ≤ Nat.size (x.den : Int).natAbs + 2 ∨ n2 ≤ 3) → P n2) →
      wp env E (cif (x.num.sign ≠ 0) (mp_int_string_len (qr i).den r) (pure 0)) (fun n2 mm => mm = m' ∧ P n2) m' := by
    intro P P0 P1
    by_cases hx0 : x = 0
    · refine wp_cif (fun k => absurd (by simp [hx0]) k) fun _ => wp_pure ⟨rfl, P0 hx0⟩
    · refine wp_cif (fun _ => ?_) fun k => absurd (by rw [ne_eq, Int.sign_eq_zero_iff_zero]; exact Rat.num_ne_zero.2 hx0) k
      exact mp_int_string_len_spec2 r2 r36 h' hx.val.2 fun n2 b1 b2 _ b4 => ⟨rfl, P1 hx0 n2 b1 b2 b4⟩
  by_cases ht : 2048 ≤ (ratText r x).length
  · rw [if_pos ht] at hV
    refine wp_bind (wp_mono (den (fun n2 => x ≠ 0 → ((numeral r (x.den : Int)).length : Int) ≤ n2 ∧ 2 ≤ n2) (fun k k' => absurd k k') fun _ n2 b1 b2 _ _ => ⟨b1, ?_⟩) ?_)
    · by_cases k : (numeral r (x.den : Int)).length ≤ 2047
      · have := b2 (ok2 k); omega
      · omega
    rintro n2 _ ⟨rfl, b⟩
    refine wp_cint_ub hV fun _ _ => wp_bind ?_
    by_cases hx0 : x = 0
    · have e : ratText r x = numeral r x.num := by simp [ratText, hx0]
      rw [e] at ht
      have : numeral r x.num = numeral r 0 := by rw [hx0]; rfl
      rw [this] at ht
      simp [numeral, numeralN] at ht
    · obtain ⟨b1, b2⟩ := b hx0
      have e : (ratText r x).length = (numeral r x.num).length + 1 + (numeral r (x.den : Int)).length := by
        unfold ratText; rw [if_neg hx0, List.length_append, List.length_cons]; omega
      by_cases k : (numeral r x.num).length ≤ 2047
      · have := a2 (ok1 k)
        exact mp_rat_to_string_ub hE hV r2 r36 h' hx.val (by omega) (by omega) (by omega) (.inr (by omega))
      · exact mp_rat_to_string_ub hE hV r2 r36 h' hx.val (by omega) (by omega) (by omega) (.inl (by omega))
  · rw [if_neg ht] at hV
    have e : (ratText r x).length = (numeral r x.num).length + if x = 0 then 0 else 1 + (numeral r (x.den : Int)).length := by
      unfold ratText; rw [List.length_append]
      split
      · rfl
      · rw [List.length_cons]; omega
    have k1 : (numeral r x.num).length ≤ 2047 := by omega
    have s1 := short_size (short_numeral r2 r36 k1)
    have a5 := a2 (ok1 k1)
    refine wp_bind (wp_mono (den (fun n2 => ((ratText r x).length : Int) + 1 ≤ n1 + n2 ∧ 0 ≤ n2 ∧ n2 ≤ 30000) ?_ ?_) ?_)
    · intro k
      rw [if_pos k] at e
      omega
    · intro k n2 b1 b2 b4
      rw [if_neg k] at e
      have k2 : (numeral r (x.den : Int)).length ≤ 2047 := by omega
      have s2 := short_size (short_numeral r2 r36 k2)
      have := b2 (ok2 k2)
      omega
    rintro n2 _ ⟨rfl, b1, b2, b3⟩
    refine wp_cint (by omega) (by omega) (wp_bind ?_)
    refine mp_rat_to_string_spec hE r2 r36 h' hx.val b1 (by omega) fun m2 h2 => ?_
    have hb' : Buf { d with g_output := ratText r x ++ 0 :: d.g_output.drop ((ratText r x).length + 1) } := ⟨by simp [hg]; omega, hd.2⟩
    refine wp_if_neg (by simp) (wp_bind (cstr_spec h0 (wp_bind (cstr_spec (ratText_zero r2 r36 x) ?_))))
    by_cases he : ratText r x = trimmed o
    · rw [if_pos he] at hV
      exact wp_if_neg (by rw [he]; simp) (wp_pure (hV _ m2 σ' h2 hr.inv hb' (by simp)))
    · rw [if_neg he] at hV
      exact wp_if_pos (fun k => he k.symm) (wp_pure (hV _ m2 σ' h2 hr.inv hb' rfl (by show OTHER_ERROR < MP_BADARG; decide)
        (ratText_zero r2 r36 x) ⟨_, rfl⟩))

/-! ### Reading -/

theorem tests_qrdec (hE : Ref env E) : Tests env E σ0 test_qrdec code 2 1 testQrdec := by
  intro t d ti tq m σ Q R hd hi ho hti htq h hI hcode li lo hV
  unfold test_qrdec nth
  rw [show g_qreg 1 = pure (qr 1) from rfl]
  refine wp_bind (wp_pure ?_)
  refine withRats_spec hE hd hi ho hti htq h hI hV fun p ss n xs os e m' σ' hV h' hr => ?_
  obtain ⟨u, rfl, hpo, hu⟩ := hr.qout1 rfl lo
  have n0 : n = 0 := hr.nin rfl
  have hin := hr.input
  obtain ⟨a, s, rfl⟩ := List.length_eq_two.1 li
  have hin : Arrays p.t.input [a, s] := hin
  obtain ⟨l0, l1, R0, R1, hl⟩ : ∃ l0 l1 R0 R1, p.t.input = [l0, l1] ∧ l0 = a ++ 0 :: R0 ∧ l1 = s ++ 0 :: R1 := by
    generalize p.t.input = ls at hin
    obtain _ | ⟨⟨R0, k1⟩, hf⟩ := hin
    obtain _ | ⟨⟨R1, k2⟩, hf⟩ := hf
    cases hf
    exact ⟨_, _, R0, R1, rfl, k1, k2⟩
  obtain ⟨hl, rfl, rfl⟩ := hl
  have ha := hti a (by simp)
  have hs := hti s (by simp)
  rw [hl]
  refine wp_bind (wp_pure (wp_bind (trim_line_spec hs.1 fun R2 _ => ?_)))
  refine wp_bind (read_long_spec (zero_notMem_trimmed hs.1) ?_)
  dsimp only at hV
  cases hlo : longOf (trimmed s) with
  | none => rw [hlo] at hV; exact wp_pure (hV _ m' σ' h' hr.inv hd rfl rfl)
  | some r =>
  rw [hlo] at hV
  dsimp only at hV
  have eu : intU32 r = (r % 2 ^ 32).toNat := rfl
  refine wp_bind (wp_pure ?_)
  show wp env E (VCHECK d (mp_rat_read_decimal (qr 1) (intU32 r) (a ++ 0 :: R0)) p.expect (expectRat d p (qr 1))) Q m'
  rw [eu]
  generalize (r % 2 ^ 32).toNat = r at hV ⊢
  by_cases hrr : r < 2 ∨ 36 < r
  · rw [if_pos hrr] at hV
    unfold VCHECK mp_rat_read_decimal mp_rat_read_cdecimal
    obtain ⟨w, c, rest, e1, hw, hc⟩ : ∃ w c rest, a ++ 0 :: R0 = w ++ c :: rest ∧ (∀ x ∈ w, IsSpace x) ∧ ¬ IsSpace c := by
      have : ∀ a : Bytes, ∃ w c rest, a ++ 0 :: R0 = w ++ c :: rest ∧ (∀ x ∈ w, IsSpace x) ∧ ¬ IsSpace c := by
        intro a
        induction a with
        | nil => exact ⟨[], 0, R0, rfl, by simp, by simp [IsSpace]⟩
        | cons b a ih =>
          by_cases hb : IsSpace b
          · obtain ⟨w, c, rest, e1, hw, hc⟩ := ih
            exact ⟨b :: w, c, rest, by simp [e1], by simpa using ⟨hb, hw⟩, hc⟩
          · exact ⟨[], b, a ++ 0 :: R0, rfl, by simp, hb⟩
      exact this a
    rw [e1]
    refine wp_bind (wp_bind (wp_bind ?_))
    show wp env E (skipSpace ([] ++ (w ++ c :: rest)) _ ([] : Bytes).length) _ _
    refine skipSpace_spec hc w [] _ (by simp) hw (wp_bind (wp_bget (x := c) (by simp) (wp_bind ?_)))
    unfold mp_int_read_cstring
    refine wp_bind (wp_fault (f := .assert) ?_ hV)
    rw [show decide (2 ≤ r ∧ r ≤ 36) = false by simp; omega]
    rfl
  rw [if_neg hrr] at hV
  have r2 : 2 ≤ r := by omega
  have r36 : r ≤ 36 := by omega
  subst n0
  refine vcheckQ hE hd hr.inv (by omega) (by omega) hr.expect hpo hu (fun Q hQ => ?_) ?_ hV
  · unfold mp_rat_read_decimal
    refine wp_bind (mp_rat_read_cdecimal_total hE r2 r36 (zero_mem_take ha.2) h' (hr.inv.outQ (by omega)) fun m1 h1 => wp_pure ?_)
    obtain ⟨a1, a2, a3⟩ := readDecimal_append (r := r) (s := a ++ [0]) (by simp) R0
    rw [show a ++ 0 :: R0 = (a ++ [0]) ++ R0 by simp] at h1 ⊢
    rw [a2, a3] at h1
    rw [a1]
    by_cases hres : (readDecimal r (a ++ [0])).res = MP_OK
    · rw [if_pos hres] at hQ
      rw [hres]
      obtain ⟨b1, b2⟩ := readDecimal_reduced hres
      refine hQ m1 ?_
      unfold updQ
      rwa [b1, b2]
    · rw [if_neg hres] at hQ
      exact hQ m1 _ h1 (hr.inv.upd2 (by omega) _ _)
  · intro c hc
    split at hc
    · simp at hc
    · rename_i hres
      obtain rfl : (readDecimal r (a ++ [0])).res = c := by simpa using hc
      exact hres

/-! ### Positional notation -/

/-- Result codes are not allowed here. -/
theorem withVals_dollar {β : Type} {rd : List Nat → Option β} {z : β} {ti : List Bytes} {o k : Bytes} (h : trimmed o = 36 :: k)
    (V V' : List Nat → List β → List β → Int → Verdict) :
    withVals rd z true false false ti [o] V = withVals rd z true false false ti [o] V' := by
  unfold withVals
  split
  · rfl
  · rfl
  · rename_i ss vs _
    by_cases h16 : 16 ≤ vs.length
    · rw [readOuts, if_pos h16]
    · rw [readOuts_code h16 h]
      cases codeOf k <;> rfl

theorem fixedDigits_zero : ∀ k n : Nat, 0 ∉ fixedDigits r k n
  | 0, _ => by simp [fixedDigits]
  | k + 1, n => by
    unfold fixedDigits
    rw [List.mem_append]
    rintro (h | h)
    · exact fixedDigits_zero k _ h
    · rw [List.mem_singleton] at h
      unfold digitChar at h
      split at h <;> omega

theorem decText_zero (hr2 : 2 ≤ r) (hr : r ≤ 36) {prec n : Nat} {neg : Prop} [Decidable neg] : 0 ∉ decText r prec neg n := by
  unfold decText
  rw [List.mem_append, List.mem_append]
  rintro ((h | h) | h)
  · split at h <;> simp at h
  · have := numeralN_range hr2 hr h; omega
  · split at h
    · simp at h
    · rcases List.mem_cons.1 h with h | h
      · omega
      · exact fixedDigits_zero _ _ h

theorem tests_qtodec (hE : Ref env E) : Tests env E σ0 test_qtodec code 4 1 testQtodec := by
  intro t d ti tq m σ Q R hd hi ho hti htq h hI hcode li lo hV
  unfold test_qtodec nth
  obtain ⟨o, rfl⟩ := List.length_eq_one_iff.1 lo
  unfold testQtodec at hV
  by_cases hdo : ∃ k, trimmed o = 36 :: k
  · obtain ⟨k, hk⟩ := hdo
    rw [withVals_dollar hk _ fun _ _ _ _ => .unknown] at hV
    exact withRats_spec hE hd hi ho hti htq h hI hV fun p ss n xs os e m' σ' hV h' hr => hV.elim
  refine withRats_spec hE hd hi ho hti htq h hI hV fun p ss n xs os e m' σ' hV h' hr => ?_
  obtain ⟨i, j, k, l, x, y, z, w, rfl, rfl, hp, hx⟩ := hr.qfour rfl li
  obtain ⟨o', R', e', hs, h0⟩ := only_text hr.output htq lo
  obtain rfl : o = o' := by simpa using e'
  obtain ⟨a, s1, s2, s3, rfl⟩ : ∃ a s1 s2 s3, ti = [a, s1, s2, s3] := by
    obtain _ | ⟨i, _ | ⟨j, _ | ⟨k, _ | ⟨l, _ | ⟨_, _⟩⟩⟩⟩⟩ := ti <;> simp at li
    exact ⟨_, _, _, _, rfl⟩
  obtain ⟨l0, R1, R2, R3, hl⟩ : ∃ l0 R1 R2 R3, p.t.input = [l0, trimmed s1 ++ 0 :: R1, trimmed s2 ++ 0 :: R2, trimmed s3 ++ 0 :: R3] := by
    have hin : Arrays p.t.input [trimmed a, trimmed s1, trimmed s2, trimmed s3] := hr.input
    generalize p.t.input = ls at hin
    obtain _ | ⟨_, hf⟩ := hin
    obtain _ | ⟨⟨R1, k1⟩, hf⟩ := hf
    obtain _ | ⟨⟨R2, k2⟩, hf⟩ := hf
    obtain _ | ⟨⟨R3, k3⟩, hf⟩ := hf
    cases hf
    exact ⟨_, R1, R2, R3, by rw [k1, k2, k3]⟩
  have q1 := zero_notMem_trimmed (hti s1 (by simp)).1
  have q2 := zero_notMem_trimmed (hti s2 (by simp)).1
  have q3 := zero_notMem_trimmed (hti s3 (by simp)).1
  rw [hp, hs, hl]
  obtain ⟨c, hcg, hcne⟩ : ∃ c, (trimmed o ++ 0 :: R')[0]? = some c ∧ c ≠ 36 := by
    cases hh : trimmed o with
    | nil => exact ⟨0, rfl, by omega⟩
    | cons a b => exact ⟨a, rfl, fun e => hdo ⟨b, by rw [hh, e]⟩⟩
  refine wp_bind (wp_pure (wp_bind (wp_pure (wp_bind (wp_bget hcg ?_)))))
  refine wp_bind (wp_cif (fun k => absurd k hcne) fun _ => wp_pure ?_)
  refine wp_bind (wp_pure (wp_bind (trim_line_spec q1 fun R1' _ => ?_)))
  refine wp_bind (wp_pure (wp_bind (trim_line_spec q2 fun R2' _ => ?_)))
  refine wp_bind (wp_pure (wp_bind (trim_line_spec q3 fun R3' _ => ?_)))
  rw [C70_trim_line_again, C70_trim_line_again, C70_trim_line_again]
  dsimp only at hV
  refine wp_bind (read_long_spec q1 ?_)
  cases e1 : longOf (trimmed s1) with
  | none => simp only [e1] at hV; exact wp_pure (hV _ m' σ' h' hr.inv hd rfl rfl)
  | some r =>
  refine wp_bind (read_long_spec q2 ?_)
  cases e2 : longOf (trimmed s2) with
  | none => simp only [e1, e2] at hV; exact wp_pure (hV _ m' σ' h' hr.inv hd rfl rfl)
  | some pr =>
  refine wp_bind (read_long_spec q3 ?_)
  cases e3 : longOf (trimmed s3) with
  | none => simp only [e1, e2, e3] at hV; exact wp_pure (hV _ m' σ' h' hr.inv hd rfl rfl)
  | some mode =>
  simp only [e1, e2, e3] at hV
  show wp env E (if pr < 0 then FAIL d MP_RANGE else _) Q m'
  by_cases hp0 : pr < 0
  · rw [if_pos hp0] at hV
    exact wp_if_pos hp0 (wp_pure (hV _ m' σ' h' hr.inv hd rfl rfl))
  rw [if_neg hp0] at hV
  refine wp_if_neg hp0 (wp_bind (trim_line_spec h0 fun R4 _ => ?_))
  rw [C70_trim_line_again]
  rw [show intU32 r = (r % 2 ^ 32).toNat from rfl, show intU32 pr = (pr % 2 ^ 32).toNat from rfl, show intU32 mode = (mode % 2 ^ 32).toNat from rfl]
  generalize (r % 2 ^ 32).toNat = r at hV ⊢
  generalize (pr % 2 ^ 32).toNat = prec at hV ⊢
  generalize (mode % 2 ^ 32).toNat = mode at hV ⊢
  by_cases hrr : r < 2 ∨ 36 < r
  · rw [if_pos hrr] at hV
    unfold mp_rat_decimal_len mp_int_string_len
    refine wp_bind (wp_bind (wp_bind (wp_fault (f := .assert) ?_ hV)))
    rw [show decide (2 ≤ r ∧ r ≤ 36) = false by simp; omega]
    rfl
  rw [if_neg hrr] at hV
  have r2 : 2 ≤ r := by omega
  have r36 : r ≤ 36 := by omega
  split at hV
  · exact hV.elim
  rename_i hun
  push Not at hun
  obtain ⟨u1, u2, u3, u4, u5⟩ := hun
  have hg := hd.1
  have hn : prec = 0 ∨ LenOk r x.num.natAbs := by
    by_cases k : prec = 0
    · exact .inl k
    · exact .inr (len_ok ⟨r2, r36⟩ (h'.size_le hx.val.1) (.inr (u4 k)))
  refine wp_bind (mp_rat_decimal_len_spec ⟨r2, r36⟩ u1 h' hx.val hn u2 (fun k => Nat.not_lt.1 fun k' => u5 k' k) fun n hl => wp_bind ?_)
  refine mp_rat_to_decimal_out hE ⟨r2, r36⟩ u1 (by omega) h' hx.val hl ?_ fun m2 h2 => ?_
  · omega
  have hz := decWritten_zero_notin (prec := prec) (mode := mode) (p := x) r2 r36
  generalize decWritten r prec mode x = T at *
  have hb' : Buf { d with g_output := T ++ 0 :: d.g_output.drop (T.length + 1) } := ⟨by simp [hg]; omega, hd.2⟩
  refine wp_if_neg (by simp) (wp_if_pos rfl (wp_bind (cstr_spec h0 (wp_bind (cstr_spec hz ?_)))))
  by_cases he : T = trimmed o
  · rw [if_pos he] at hV
    exact wp_if_neg (by rw [he]; simp) (wp_pure (hV _ m2 σ' h2 hr.inv hb' (by simp)))
  · rw [if_neg he] at hV
    exact wp_if_pos (fun k => he k.symm) (wp_pure (hV _ m2 σ' h2 hr.inv hb' rfl (by show OTHER_ERROR < MP_BADARG; decide)
      hz ⟨_, rfl⟩))

end Imath
