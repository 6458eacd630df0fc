import Verif.Proof.Verdict6

/-! # The test driver: the extended algorithm, texts and bytes -/

namespace Imath

variable {env : Env} {E : Fault → Prop} {m : Mem} {σ σ0 : Id → Option Int} {x y w v : Int} {d : Drv} {code : String}

/-! ### The extended algorithm -/

theorem egcd_left {Q : Int → Mem → Prop} {a b c X Y : Id} (hE : Ref env E) (h : R2 m σ) (ha : σ a = some 0) (hb : σ b = some y) (hy0 : y ≠ 0)
    (hX : ∃ w, σ X = some w) (hY : ∃ w, σ Y = some w) (oY : Y.own = true) (hc : σ c = some w) (ho : c.own = true)
    (hQ : ∀ m', R2 m' (upd (upd (upd σ c (some |y|)) X (some 0)) Y (some 1)) → Q MP_OK m') :
    wp env E (mp_int_egcd a b c (some X) (some Y)) Q m := by
  have ex : ∀ (σ : Id → Option Int) (i z : Id) (v : Int), (∃ w, σ z = some w) → ∃ w, upd σ i (some v) z = some w := by
    intro σ i z v hw
    by_cases hz : z = i
    · rw [hz]; exact ⟨_, upd_self ..⟩
    · rw [upd_ne _ _ hz]; exact hw
  obtain ⟨w1, h1⟩ := ex σ c X |y| hX
  obtain ⟨w2, h2⟩ := ex _ X Y 0 (ex σ c Y |y| hY)
  unfold mp_int_egcd
  refine wp_bind (wp_cassert (by simp) ?_)
  refine wp_bind (CMPZ_spec h ha ?_)
  refine wp_bind (CMPZ_spec h hb ?_)
  have sy : ¬ y.sign = 0 := by rw [Int.sign_eq_zero_iff_zero]; exact hy0
  refine wp_if_neg (fun h0 => sy h0.2) (wp_if_pos rfl ?_)
  refine wp_bind (mp_int_abs_spec hE h hb hc ho fun m1 r1 => wp_if_neg (by simp) ?_)
  refine wp_bind (mp_int_zero_spec r1 h1 fun m2 r2 => ?_)
  exact wp_bind (mp_int_set_value_spec hE (by decide) (by decide) r2 h2 oY fun m3 r3 => wp_pure (hQ m3 r3))

theorem egcd_right {Q : Int → Mem → Prop} {a b c X Y : Id} (hE : Ref env E) (h : R2 m σ) (ha : σ a = some x) (hb : σ b = some 0) (hx0 : x ≠ 0)
    (hX : ∃ w, σ X = some w) (hY : ∃ w, σ Y = some w) (oX : X.own = true) (hc : σ c = some w) (ho : c.own = true)
    (hQ : ∀ m', R2 m' (upd (upd (upd σ c (some |x|)) X (some 1)) Y (some 0)) → Q MP_OK m') :
    wp env E (mp_int_egcd a b c (some X) (some Y)) Q m := by
  have ex : ∀ (σ : Id → Option Int) (i z : Id) (v : Int), (∃ w, σ z = some w) → ∃ w, upd σ i (some v) z = some w := by
    intro σ i z v hw
    by_cases hz : z = i
    · rw [hz]; exact ⟨_, upd_self ..⟩
    · rw [upd_ne _ _ hz]; exact hw
  obtain ⟨w1, h1⟩ := ex σ c X |x| hX
  obtain ⟨w2, h2⟩ := ex _ X Y 1 (ex σ c Y |x| hY)
  unfold mp_int_egcd
  refine wp_bind (wp_cassert (by simp) ?_)
  refine wp_bind (CMPZ_spec h ha ?_)
  refine wp_bind (CMPZ_spec h hb ?_)
  have sx : ¬ x.sign = 0 := by rw [Int.sign_eq_zero_iff_zero]; exact hx0
  refine wp_if_neg (fun h0 => sx h0.1) (wp_if_neg sx (wp_if_pos rfl ?_))
  refine wp_bind (mp_int_abs_spec hE h ha hc ho fun m1 r1 => wp_if_neg (by simp) ?_)
  refine wp_bind (mp_int_set_value_spec hE (by decide) (by decide) r1 h1 oX fun m2 r2 => ?_)
  exact wp_bind (mp_int_zero_spec r2 h2 fun m3 r3 => wp_pure (hQ m3 r3))

/-- The registers as a list of pairs, the last value first. -/
def Stored (τ : Id → Option Int) (L : List (Nat × Int)) (s : Nat) : Prop := τ (.var s) = some ((L.lookup s).getD 0)

theorem Stored.put {τ : Id → Option Int} {L : List (Nat × Int)} {s : Nat} (h : Stored τ L s) (k : Nat) (v : Int) :
    Stored (upd τ (.var k) (some v)) ((k, v) :: L) s := by
  unfold Stored
  by_cases hs : s = k
  · subst hs; rw [upd_self]; simp
  · rw [upd_ne _ _ (by simpa using hs), List.lookup_cons, beq_false_of_ne hs]
    exact h

theorem stored_zip {τ : Id → Option Int} : ∀ {ss : List Nat} {xs : List Int}, List.Forall₂ (fun s v => τ (.var s) = some v) ss xs → ∀ s ∈ ss, Stored τ (ss.zip xs) s
  | _, _, .nil, s, hs => by simp at hs
  | a :: ss, v :: xs, .cons h hf, s, hs => by
    unfold Stored
    by_cases e : s = a
    · subst e; simpa using h
    · rw [List.zip_cons_cons, List.lookup_cons, beq_false_of_ne e]
      exact stored_zip hf s (by simpa [e] using hs)

theorem tests_egcd (hE : Ref env E) : Tests env E σ0 test_egcd code 5 3 (testEgcd (libOf env)) := by
  intro t d ti tq m σ Q R hd hi ho hti htq h hI hcode li lo hV
  have g8 : ∀ i, i < 16 → g_zreg i = (pure (.var i) : M Id) := fun i hi => by unfold g_zreg NUM_REGS; rw [if_pos hi]
  unfold test_egcd nth VCHECK
  rw [g8 8 (by omega), g8 9 (by omega)]
  refine wp_bind (wp_pure (wp_bind (wp_pure ?_)))
  refine withInts_spec hE hd hi ho hti htq h hI hV fun p ss n xs os e m' σ' hV h' hr => ?_
  obtain ⟨i, j, k, l, q, x, y, z0, u0, v0, rfl, rfl, hp, hx, hy, hz, hu, hv⟩ := hr.five rfl li
  obtain ⟨o0, o1, o2, rfl, hpo, ho0, ho1, ho2⟩ := hr.out3 rfl lo
  have n5 : n ≤ 5 := by have := hr.nle; omega
  rw [hp, hpo, hr.expect]
  refine wp_bind (wp_pure (wp_bind (wp_pure (wp_bind (wp_pure (wp_bind (wp_pure (wp_bind (wp_pure ?_)))))))))
  dsimp only at hV
  have li' := hx.lt
  have lj := hy.lt
  have lk := hz.lt
  have ll := hu.lt
  have lq' := hv.lt
  by_cases h00 : x = 0 ∧ y = 0
  · rw [if_pos h00] at hV
    obtain ⟨rfl, rfl⟩ := h00
    refine wp_bind (mp_int_egcd_00 h' hx.val hy.val (by simp) ?_)
    dsimp only [judge] at hV
    by_cases hc : MP_UNDEF = e
    · rw [if_pos hc] at hV
      exact wp_if_neg (by simpa using hc) (wp_if_pos (by rw [← hc]; decide) (wp_pure (hV d m' σ' h' hr.inv hd (by simp))))
    · rw [if_neg hc] at hV
      exact wp_if_pos hc (wp_pure (hV _ m' σ' h' hr.inv hd rfl rfl))
  · rw [if_neg h00] at hV
    have base := stored_zip (τ := σ') (ss := [i, j, k, l, q]) (xs := [x, y, z0, u0, v0]) hr.slots
    have fin : ∀ (τ : Id → Option Int) (X Y P R G : Int) (m1 : Mem), R2 m1 τ → Inv σ0 τ → τ (.var i) = some X → τ (.var j) = some Y →
        τ (.var k) = some G → τ (.var l) = some P → τ (.var q) = some R → (∀ s, n ≤ s → τ (.var s) = σ' (.var s)) →
        VPost E σ0 d Q (if e ≠ MP_OK then .error MP_OK else if [G, P, R] = [o0, o1, o2] ∨ P * X + R * Y = G then .ok [] else wrong [G, P, R]) →
        wp env E (if MP_OK ≠ e then FAIL d MP_OK else
          (if e ≠ MP_OK then pure (true, d)
            else do
              let o0 ← (pure (.var n) : M Id)
              let o1 ← (pure (.var (n + 1)) : M Id)
              let o2 ← (pure (.var (n + 2)) : M Id)
              let c ← mp_int_compare (.var k) o0
              let bad ← cif (c ≠ 0) (pure true) (do
                let c ← mp_int_compare (.var l) o1
                cif (c ≠ 0) (pure true) (do
                  let c ← mp_int_compare (.var q) o2
                  pure (decide (c ≠ 0))))
              if bad then do
                let _ ← mp_int_mul (.var l) (.var i) (.var 8)
                let _ ← mp_int_mul (.var q) (.var j) (.var 9)
                let _ ← mp_int_add (.var 8) (.var 9) (.var 9)
                let c ← mp_int_compare (.var 9) (.var k)
                if c = 0 then pure (true, d)
                else do
                  let s ← joinInts [.var k, .var l, .var q] 0 d.g_output
                  FAIL { d with g_output := s } OTHER_ERROR
              else pure (true, d))) Q m1 := by
      intro τ X Y P R G m1 h1 hτI ti' tj tk tl tq keep hv
      by_cases he : e = MP_OK
      swap
      · rw [if_pos he] at hv
        exact wp_if_pos (fun hh => he hh.symm) (wp_pure (hv _ m1 _ h1 hτI hd rfl rfl))
      subst he
      rw [if_neg (by simp)] at hv
      refine wp_if_neg (by simp) (wp_if_neg (by simp) ?_)
      have to0 : τ (.var n) = some o0 := by rw [keep n (by omega)]; exact ho0
      have to1 : τ (.var (n + 1)) = some o1 := by rw [keep _ (by omega)]; exact ho1
      have to2 : τ (.var (n + 2)) = some o2 := by rw [keep _ (by omega)]; exact ho2
      have bad : [G, P, R] ≠ [o0, o1, o2] → wp env E (do
                let _ ← mp_int_mul (.var l) (.var i) (.var 8)
                let _ ← mp_int_mul (.var q) (.var j) (.var 9)
                let _ ← mp_int_add (.var 8) (.var 9) (.var 9)
                let c ← mp_int_compare (.var 9) (.var k)
                if c = 0 then pure (true, d)
                else do
                  let s ← joinInts [.var k, .var l, .var q] 0 d.g_output
                  FAIL { d with g_output := s } OTHER_ERROR) Q m1 := by
        intro hne
        have ne8 : ∀ s, s < 8 → (Id.var s) ≠ .var 8 := fun s hs => by simp; omega
        have ne9 : ∀ s, s < 9 → (Id.var s) ≠ .var 9 := fun s hs => by simp; omega
        obtain ⟨w8, hw8⟩ := hτI.1 8 (by omega)
        obtain ⟨w9, hw9⟩ := hτI.1 9 (by omega)
        refine wp_bind (mp_int_mul_spec hE h1 tl ti' hw8 rfl fun m2 h2 => ?_)
        have I2 := hτI.upd (i := 8) (by omega) (P * X)
        refine wp_bind (mp_int_mul_spec hE h2 (by rw [upd_ne _ _ (ne8 q (by omega))]; exact tq) (by rw [upd_ne _ _ (ne8 j (by omega))]; exact tj)
          (by rw [upd_ne _ _ (by simp)]; exact hw9) rfl fun m3 h3 => ?_)
        have I3 := I2.upd (i := 9) (by omega) (R * Y)
        refine wp_bind (mp_int_add_spec hE h3 (by rw [upd_ne _ _ (ne9 8 (by omega))]; exact upd_self ..) (upd_self ..) (upd_self ..) rfl fun m4 h4 => ?_)
        have I4 := I3.upd (i := 9) (by omega) (P * X + R * Y)
        have k4 : ∀ s, s < 8 → upd (upd (upd τ (.var 8) (some (P * X))) (.var 9) (some (R * Y))) (.var 9) (some (P * X + R * Y)) (.var s) = τ (.var s) := by
          intro s hs
          rw [upd_ne _ _ (ne9 s (by omega)), upd_ne _ _ (ne9 s (by omega)), upd_ne _ _ (ne8 s hs)]
        refine wp_bind (mp_int_compare_spec h4 (upd_self ..) (by rw [k4 k (by omega)]; exact tk) ?_)
        by_cases hc : P * X + R * Y = G
        · rw [if_pos (.inr hc)] at hv
          exact wp_if_pos (cmpZ_eq_zero.2 hc) (wp_pure (hv d m4 _ h4 I4 hd (by simp)))
        · rw [if_neg (by tauto)] at hv
          refine wp_if_neg (fun hh => hc (cmpZ_eq_zero.1 hh)) ?_
          refine fail_list hE hd (by simp) h4 I4 ?_ hv
          refine .cons ?_ (.cons ?_ (.cons ?_ .nil))
          · rw [k4 k (by omega)]; exact tk
          · rw [k4 l (by omega)]; exact tl
          · rw [k4 q (by omega)]; exact tq
      refine wp_bind (wp_pure (wp_bind (wp_pure (wp_bind (wp_pure ?_)))))
      refine wp_bind (mp_int_compare_spec h1 tk to0 (wp_bind (wp_cif (fun c0 => wp_pure ?_) fun c0 => ?_)))
      · exact wp_if_pos rfl (bad fun hh => by
          simp only [List.cons.injEq, and_true] at hh
          exact c0 (cmpZ_eq_zero.2 hh.1))
      have e0 : G = o0 := cmpZ_eq_zero.1 (not_not.1 c0)
      refine wp_bind (mp_int_compare_spec h1 tl to1 (wp_cif (fun c1 => wp_pure ?_) fun c1 => ?_))
      · exact wp_if_pos rfl (bad fun hh => by
          simp only [List.cons.injEq, and_true] at hh
          exact c1 (cmpZ_eq_zero.2 hh.2.1))
      have e1 : P = o1 := cmpZ_eq_zero.1 (not_not.1 c1)
      refine wp_bind (mp_int_compare_spec h1 tq to2 (wp_pure ?_))
      by_cases c2 : R = o2
      · rw [if_pos (.inl (by rw [e0, e1, c2]))] at hv
        refine wp_if_neg ?_ (wp_pure (hv d m1 τ h1 hτI hd (by simp)))
        rw [cmpZ_eq_zero.2 c2]; simp
      · refine wp_if_pos ?_ (bad fun hh => by
          simp only [List.cons.injEq, and_true] at hh
          exact c2 hh.2.2)
        rw [decide_eq_true_eq, Ne, cmpZ_eq_zero]; exact c2
    have exu : ∃ w, σ' (.var l) = some w := ⟨_, hu.val⟩
    have exv : ∃ w, σ' (.var q) = some w := ⟨_, hv.val⟩
    have st : ∀ (a b c : Nat) (va vb vc : Int), egcdStores (libOf env) k l q x y = [(c, vc), (b, vb), (a, va)] → ∀ s ∈ [i, j, k, l, q],
        Stored (upd (upd (upd σ' (.var a) (some va)) (.var b) (some vb)) (.var c) (some vc))
          (egcdStores (libOf env) k l q x y ++ [i, j, k, l, q].zip [x, y, z0, u0, v0]) s := by
      intro a b c va vb vc he s hs
      rw [he]
      exact (((base s hs).put a va).put b vb).put c vc
    have kp : ∀ (a b c : Nat) (va vb vc : Int), a < n → b < n → c < n → ∀ s, n ≤ s →
        upd (upd (upd σ' (.var a) (some va)) (.var b) (some vb)) (.var c) (some vc) (.var s) = σ' (.var s) := by
      intro a b c va vb vc ha hb hc s hs
      rw [upd_ne _ _ (by simp; omega), upd_ne _ _ (by simp; omega), upd_ne _ _ (by simp; omega)]
    have iv : ∀ (a b c : Nat) (va vb vc : Int), a < n → b < n → c < n →
        Inv σ0 (upd (upd (upd σ' (.var a) (some va)) (.var b) (some vb)) (.var c) (some vc)) :=
      fun a b c va vb vc ha hb hc => ((hr.inv.upd (by omega) _).upd (by omega) _).upd (by omega) _
    by_cases hx0 : x = 0
    · have hy0 : y ≠ 0 := fun hh => h00 ⟨hx0, hh⟩
      refine wp_bind (egcd_left hE h' (by rw [← hx0]; exact hx.val) hy.val hy0 exu exv rfl hz.val rfl fun m1 h1 => ?_)
      have he := st k l q |y| 0 1 (by unfold egcdStores; rw [if_pos hx0])
      exact fin _ _ _ _ _ _ m1 h1 (iv k l q _ _ _ lk ll lq') (he i (by simp)) (he j (by simp)) (he k (by simp)) (he l (by simp)) (he q (by simp))
        (kp k l q _ _ _ lk ll lq') hV
    · by_cases hy0 : y = 0
      · refine wp_bind (egcd_right hE h' hx.val (by rw [← hy0]; exact hy.val) hx0 exu exv rfl hz.val rfl fun m1 h1 => ?_)
        have he := st k l q |x| 1 0 (by unfold egcdStores; rw [if_neg hx0, if_pos hy0])
        exact fin _ _ _ _ _ _ m1 h1 (iv k l q _ _ _ lk ll lq') (he i (by simp)) (he j (by simp)) (he k (by simp)) (he l (by simp)) (he q (by simp))
          (kp k l q _ _ _ lk ll lq') hV
      · refine wp_bind (mp_int_egcd_nz hE h' hx.val hy.val hx0 hy0 (by simp) ?_ ?_ hz.val rfl fun P R hg ho m1 h1 => ?_)
        · intro z hz; cases hz; exact ⟨⟨_, hu.val⟩, rfl⟩
        · intro z hz; cases hz; exact ⟨⟨_, hv.val⟩, rfl⟩
        · have he := st l q k P R (Int.gcd x y) (by
            unfold egcdStores
            rw [if_neg hx0, if_neg hy0, show (libOf env).bez x y = (P, R) from bezOf_eq ho hg])
          exact fin _ _ _ _ _ _ m1 h1 (iv l q k _ _ _ ll lq' lk) (he i (by simp)) (he j (by simp)) (he k (by simp)) (he l (by simp)) (he q (by simp))
            (kp l q k _ _ _ ll lq' lk) hV

/-! ### Text -/

/-- The text of the only output. -/
theorem only_text {ls ts : List Bytes} (h : Arrays ls (ts.map trimmed)) (hts : OkTexts ts) (hl : ts.length = 1) :
    ∃ o R, ts = [o] ∧ ls[0]? = some (trimmed o ++ 0 :: R) ∧ 0 ∉ trimmed o := by
  obtain ⟨a, rfl⟩ := List.length_eq_one_iff.1 hl
  obtain _ | ⟨k1, hf⟩ := h
  obtain ⟨R, rfl⟩ := k1
  exact ⟨_, R, rfl, rfl, zero_notMem_trimmed (hts a (by simp)).1⟩

theorem tests_tostr (hE : Ref env E) : Tests env E σ0 test_tostr code 2 1 (testTostr (libOf env)) := by
  intro t d ti tq m σ Q R hd hi ho hti htq h hI hcode li lo hV
  unfold test_tostr nth
  refine withInts_spec hE hd hi ho hti htq h hI hV fun p ss n xs os e m' σ' hV h' hr => ?_
  obtain ⟨i, j, x, r, rfl, rfl, hp, hx, hy⟩ := hr.two rfl li
  obtain ⟨o, R', rfl, hs, h0⟩ := only_text hr.output htq lo
  rw [hp, hs]
  refine wp_bind (wp_pure (wp_bind (wp_pure ?_)))
  dsimp only at hV
  by_cases hm : r = -2 ^ 63
  · rw [if_pos hm] at hV
    exact wp_bind (mp_int_to_int_fault hV h' (by rw [hy.val, hm]; rfl))
  rw [if_neg hm] at hV
  refine wp_bind (mp_int_to_int_spec h' hy.val (by intro hh; apply hm; rw [hh]; norm_num) ?_ ?_)
  · intro hh m1 h1
    rw [if_pos (by norm_num; omega)] at hV
    exact wp_if_pos (by decide) (wp_pure (hV _ m1 σ' h1 hr.inv hd rfl rfl))
  intro k1 k2 m1 h1
  rw [if_neg (by norm_num; omega)] at hV
  refine wp_if_neg (by simp) ?_
  show wp env E (if r < 2 ∨ r > 36 then FAIL d MP_RANGE else _) Q m1
  by_cases hrr : r < 2 ∨ 36 < r
  · rw [if_pos hrr] at hV
    exact wp_if_pos hrr (wp_pure (hV _ m1 σ' h1 hr.inv hd rfl rfl))
  rw [if_neg hrr] at hV
  refine wp_if_neg hrr (wp_bind (wp_pure (wp_bind (trim_line_spec h0 fun R2' _ => ?_))))
  rw [C70_trim_line_again]
  obtain ⟨r, rfl⟩ : ∃ r' : Nat, r = r' := ⟨r.toNat, by omega⟩
  rw [Int.toNat_natCast] at hV ⊢
  have r2 : 2 ≤ r := by omega
  have r36 : r ≤ 36 := by omega
  refine wp_bind (mp_int_string_len_exact r2 r36 h1 hx.val ?_)
  rw [show outLen env.fl r x + 1 + (if x < 0 then 1 else 0) = (libOf env).room r x from rfl]
  have f := room_facts env r2 r36 (h1.size_le hx.val)
  have n0 : 1 ≤ (numeral r x).length := by
    have := numeralN_pos r x.natAbs r2
    unfold numeral; rw [List.length_append]; omega
  have hg := hd.1
  by_cases hf : Fits (libOf env) r x
  · rw [if_pos hf] at hV
    have hf' := hf.resolve_left (by omega)
    by_cases hl : 2048 ≤ (numeral r x).length
    · rw [if_pos hl] at hV
      exact wp_bind (mp_int_to_string_fault hE hV r2 r36 (by omega) (by rw [hg]; omega) h1 hx.val)
    · rw [if_neg hl] at hV
      refine wp_bind (mp_int_to_string_spec hE r2 r36 (by omega) (by rw [hg]; omega) h1 hx.val (fun m2 h2 _ => ?_) fun _ _ _ hlt => absurd hlt (by omega))
      refine wp_if_neg (by simp) (wp_bind (cstr_spec h0 (wp_bind (cstr_spec (numeral_zero_notin r2 r36 x) ?_))))
      have hb : Buf { d with g_output := numeral r x ++ 0 :: d.g_output.drop ((numeral r x).length + 1) } := ⟨by simp [hg]; omega, hd.2⟩
      by_cases hc : numeral r x = trimmed o
      · rw [if_pos hc] at hV
        exact wp_if_neg (by simpa using hc.symm) (wp_pure (hV _ m2 σ' h2 hr.inv hb (by simp)))
      · rw [if_neg hc] at hV
        exact wp_if_pos (fun hh => hc hh.symm) (wp_pure (hV _ m2 σ' h2 hr.inv hb rfl (by show OTHER_ERROR < MP_BADARG; decide)
          (numeral_zero_notin r2 r36 x) ⟨_, rfl⟩))
  · rw [if_neg hf] at hV
    have hf' : (libOf env).room r x ≤ (numeral r x).length := not_lt.1 fun e => hf (.inr e)
    have n2 : 2 ≤ (numeral r x).length := by
      by_contra hc
      have hx' : |x| < 36 := by
        have : (numeralN r x.natAbs).length ≤ 1 := by
          have : (numeralN r x.natAbs).length ≤ (numeral r x).length := by unfold numeral; rw [List.length_append]; omega
          omega
        unfold numeralN at this
        split at this
        · next h0 => rw [Int.natAbs_eq_zero.1 h0]; simp
        · rw [List.length_reverse, List.length_map, Nat.digits_length_le_iff (by omega)] at this
          rw [pow_one] at this; rw [Int.abs_eq_natAbs]; omega
      have h5 := f.2.1 (len_ok ⟨r2, r36⟩ (h1.size_le hx.val) (.inr (lt_trans hx' (by decide +kernel))))
      omega
    by_cases hl : 2048 ≤ (libOf env).room r x
    · rw [if_pos hl] at hV
      exact wp_bind (mp_int_to_string_fault hE hV r2 r36 (by omega) (by rw [hg]; omega) h1 hx.val)
    · rw [if_neg hl] at hV
      refine wp_bind (mp_int_to_string_spec hE r2 r36 (by omega) (by rw [hg]; omega) h1 hx.val (fun m2 h2 hlt => absurd hlt (by omega))
        fun m2 str' h2 _ k3 _ _ => ?_)
      exact wp_if_pos (by show MP_TRUNC ≠ MP_OK; decide) (wp_pure (hV _ m2 σ' h2 hr.inv ⟨by rw [← hg]; exact k3, hd.2⟩ rfl rfl))

/-! ### Bytes -/

theorem splitOn_mem {a b : Nat} : ∀ (s : Bytes), b ∉ s → ∀ t ∈ s.splitOn a, b ∉ t := by
  intro s
  unfold List.splitOn
  induction s with
  | nil => intro _ t ht; simp at ht; subst ht; simp
  | cons c s ih =>
    intro hb t ht
    simp only [List.mem_cons, not_or] at hb
    rw [List.splitOnP_cons_eq_if_modifyHead] at ht
    split at ht
    · rcases List.mem_cons.1 ht with rfl | ht
      · simp
      · exact ih hb.2 t ht
    · cases hs : List.splitOnP (fun x => x == a) s with
      | nil => rw [hs] at ht; simp at ht
      | cons u us =>
        rw [hs, List.modifyHead_cons] at ht
        rcases List.mem_cons.1 ht with rfl | ht
        · simp only [List.mem_cons, not_or]
          exact ⟨hb.1, ih hb.2 u (by rw [hs]; simp)⟩
        · exact ih hb.2 t (by rw [hs]; simp [ht])

/-- The byte a token stands for. -/
def byteOf (t : Bytes) : Option Nat := (longOf t).bind fun v => if 0 ≤ v ∧ v ≤ 255 then some v.toNat else none

theorem byteOf_lt {t : Bytes} {b : Nat} (h : byteOf t = some b) : b < 256 := by
  unfold byteOf at h
  rw [Option.bind_eq_some_iff] at h
  obtain ⟨v, _, hv⟩ := h
  split at hv
  · cases hv; omega
  · simp at hv

theorem binLoop_spec {Q : Int × Bytes → Mem → Prop} : ∀ (toks : List Bytes) (P T : Bytes), (∀ t ∈ toks, 0 ∉ t) → P.length + T.length = 2048 → Byte P →
    ((toks.take (2048 - P.length)).mapM byteOf = none → ∀ B, B.length = 2048 → Q (-1, B) m) →
    (∀ bs, (toks.take (2048 - P.length)).mapM byteOf = some bs → Byte bs → bs.length ≤ T.length →
      Q (((P.length + bs.length : Nat) : Int), (P ++ bs) ++ T.drop bs.length) m) →
    wp env E (binLoop 2048 toks P.length (P ++ T)) Q m
  | [], P, T, h0, hl, hP, hN, hS => by
    unfold binLoop
    refine wp_pure ?_
    simpa using hS [] (by simp) (by intro b hb; simp at hb) (by simp)
  | tok :: toks, P, T, h0, hl, hP, hN, hS => by
    unfold binLoop
    refine wp_ite (fun hlt => ?_) fun hge => ?_
    · rw [show 2048 - P.length = (2048 - (P.length + 1)) + 1 by omega, List.take_succ_cons, List.mapM_cons] at hN hS
      obtain ⟨c, T', rfl⟩ : ∃ c T', T = c :: T' := by
        cases T with
        | nil => simp at hl; omega
        | cons c T' => exact ⟨c, T', rfl⟩
      refine wp_bind (read_long_spec (h0 tok (by simp)) ?_)
      have hbo : byteOf tok = (longOf tok).bind fun v => if 0 ≤ v ∧ v ≤ 255 then some v.toNat else none := rfl
      cases hv : longOf tok with
      | none =>
        rw [hv] at hbo
        exact wp_pure (hN (by rw [hbo]; rfl) _ (by simp at hl ⊢; omega))
      | some v =>
        rw [hv, Option.bind_some] at hbo
        show wp env E (if v > 255 ∨ v < 0 then _ else _) Q m
        refine wp_ite (fun hb => ?_) fun hb => ?_
        · rw [if_neg (by omega)] at hbo
          exact wp_pure (hN (by rw [hbo]; rfl) _ (by simp at hl ⊢; omega))
        · rw [if_pos (by omega)] at hbo
          refine wp_bind (wp_bset ?_ ?_)
          · simp
          have := binLoop_spec toks (P ++ [v.toNat]) T' (Q := Q) (fun t ht => h0 t (by simp [ht])) (by simp at hl ⊢; omega)
            (by intro b hb'; rcases List.mem_append.1 hb' with hb' | hb'
                · exact hP b hb'
                · simp at hb'; omega) ?_ ?_
          · rw [List.length_append, List.length_singleton, List.append_assoc] at this
            convert this using 2
            simp
          · intro hm B hB
            rw [List.length_append, List.length_singleton] at hm
            exact hN (by rw [hbo, hm]; rfl) B hB
          · intro bs hm hb2 hl2
            rw [List.length_append, List.length_singleton] at hm
            have := hS (v.toNat :: bs) (by rw [hbo, hm]; rfl) (by
              intro b hb'; rcases List.mem_cons.1 hb' with rfl | hb'
              · omega
              · exact hb2 b hb') (by simpa using hl2)
            convert this using 2
            · simp; omega
            · simp
    · refine wp_pure ?_
      have e : 2048 - P.length = 0 := by omega
      rw [e] at hS
      simpa using hS [] (by simp) (by intro b hb; simp at hb) (by simp)

theorem parse_binary_spec {Q : Int × Bytes → Mem → Prop} {s R buf : Bytes} (h0 : 0 ∉ s) (hb : buf.length = 2048) (ht : trimmed s = s)
    (hN : bytesOf s = none → ∀ B, B.length = 2048 → Q (-1, B) m)
    (hS : ∀ bs, bytesOf s = some bs → Byte bs → bs.length ≤ 2048 → Q ((bs.length : Int), bs ++ buf.drop bs.length) m) :
    wp env E (parse_binary (s ++ 0 :: R) buf OUTPUT_LIMIT) Q m := by
  unfold parse_binary
  refine wp_bind (trim_line_spec h0 fun R' _ => ?_)
  rw [ht]
  refine wp_bind (cstr_spec h0 ?_)
  have := binLoop_spec (env := env) (E := E) (m := m) (Q := Q) (strtok s) [] buf ?_ (by simpa using hb) (by intro b hb; simp at hb) ?_ ?_
  · exact this
  · intro t ht
    unfold strtok at ht
    exact splitOn_mem s h0 t (List.mem_filter.1 ht).1
  · intro hm; exact hN hm
  · intro bs hm k1 k2
    have := hS bs hm k1 (by omega)
    simpa using this

theorem intercalate_zero {l : List Bytes} (h : ∀ t ∈ l, 0 ∉ t) : 0 ∉ List.intercalate [46] l := by
  induction l with
  | nil => simp [List.intercalate]
  | cons t l ih =>
    cases l with
    | nil => simpa [List.intercalate] using h t (by simp)
    | cons u l =>
      rw [List.intercalate_cons_cons]
      simp only [List.mem_append, not_or]
      exact ⟨⟨h t (by simp), by simp⟩, ih fun v hv => h v (by simp [hv])⟩

theorem dotted_eq (bs : Bytes) : dotted bs = dottedText bs := by
  unfold dotted dottedText fmtd
  simp only [numeral_nat]

theorem dotted_zero (bs : Bytes) : 0 ∉ dottedText bs := by
  refine intercalate_zero fun t ht => ?_
  obtain ⟨b, _, rfl⟩ := List.mem_map.1 ht
  rw [← numeral_nat]
  exact numeral_zero_notin (by omega) (by omega) _

/-- What the two functions that store bytes have in common. -/
structure Stores (env : Env) (E : Fault → Prop) (lenf : Id → M Int) (binf : Id → Bytes → Int → M (Int × Bytes)) (f : Int → List Nat) : Prop where
  len : ∀ {m : Mem} {σ : Id → Option Int} {a : Id} {x : Int} {Q : Int → Mem → Prop}, R2 m σ → σ a = some x → Q (f x).length m → wp env E (lenf a) Q m
  bin : ∀ {m : Mem} {σ : Id → Option Int} {a : Id} {x : Int} {Q : Int × Bytes → Mem → Prop} {buf : Bytes}, R2 m σ → σ a = some x →
    (f x).length ≤ 2048 → buf.length = 2048 → Q (MP_OK, f x ++ buf.drop (f x).length) m → wp env E (binf a buf OUTPUT_LIMIT) Q m

theorem twosBytes_length (x : Int) : (twosBytes x).length = binLen x := by
  unfold twosBytes; simp

theorem stores_binary : Stores env E mp_int_binary_len mp_int_to_binary twosBytes where
  len h ha hQ := mp_int_binary_len_spec h ha (by rw [twosBytes_length] at hQ; exact hQ)
  bin {m σ a x Q buf} h ha hl hb hQ := by
    rw [twosBytes_length] at hl
    have hl' : Nat.size x.natAbs / 8 + 1 ≤ 2048 := hl
    refine mp_int_to_binary_spec (by show (1 : Int) ≤ 2048; norm_num) h ha ?_ (fun X _ l1 l2 l3 => ?_) fun X l1 => absurd l1 ?_
    · rw [hb]; show min (2048 : Int) _ ≤ (2048 : Nat); omega
    · rw [twosBytes_eq l2 (by rw [l1]; rfl) l3]; exact hQ
    · show ¬ (2048 : Int) < _; omega

theorem magBytes_length (x : Int) : (magBytes x).length = max 1 ((Nat.size x.natAbs + 7) / 8) := by
  unfold magBytes; simp

theorem stores_unsigned : Stores env E mp_int_unsigned_len mp_int_to_unsigned magBytes where
  len h ha hQ := mp_int_unsigned_len_spec h ha (by rw [magBytes_length] at hQ; exact hQ)
  bin {m σ a x Q buf} h ha hl hb hQ := by
    rw [magBytes_length] at hl
    refine mp_int_to_unsigned_spec (by show (1 : Int) ≤ 2048; norm_num) h ha ?_ (fun X _ l1 l2 l3 => ?_) fun X l1 => absurd l1 ?_
    · rw [hb]; show min (2048 : Int) _ ≤ (2048 : Nat); omega
    · have : X = magBytes x := by
        rw [byte_digits l2, l1, l3]; rfl
      rw [this]; exact hQ
    · show ¬ (2048 : Int) < _; omega

theorem expectBin_spec {lenf : Id → M Int} {binf : Id → Bytes → Int → M (Int × Bytes)} {f : Int → List Nat} (hE : Ref env E)
    (hS : Stores env E lenf binf f) (hlen : ∀ x : Int, Nat.size x.natAbs ≤ 2147483584 → (f x).length < 10 ^ 10)
    (call : Test → Drv → M (Bool × Drv)) (hc : call = fun t d => withInts t d true false false fun p => expectBin d p lenf binf) :
    Tests env E σ0 call code 1 1 (binTest f) := by
  subst hc
  intro t d ti tq m σ Q R hd hi ho hti htq h hI hcode li lo hV
  refine withInts_spec hE hd hi ho hti htq h hI hV fun p ss n xs os e m' σ' hV h' hr => ?_
  obtain ⟨i, x, rfl, rfl, hp, hx⟩ := hr.one rfl li
  obtain ⟨o, R', rfl, hs, h0⟩ := only_text hr.output htq lo
  unfold expectBin nth
  rw [hp, hs]
  dsimp only at hV
  refine wp_bind (wp_pure (wp_bind (wp_pure (wp_bind (trim_line_spec h0 fun R2' _ => ?_)))))
  rw [C70_trim_line_again]
  refine wp_bind (parse_binary_spec h0 hd.2.1 (C70_trim_line_again o) (fun hN B hB => ?_) fun bs hbs hb1 hb2 => ?_)
  · rw [hN] at hV
    exact wp_if_pos (by simp) (wp_pure (hV _ m' σ' h' hr.inv ⟨hd.1, hB, hd.2.2⟩ rfl rfl))
  rw [hbs] at hV
  dsimp only at hV
  refine wp_if_neg (by simp) ?_
  have hd1 : Buf { d with g_bin1 := bs ++ d.g_bin1.drop bs.length } := ⟨hd.1, by simp [hd.2.1]; omega, hd.2.2⟩
  refine wp_bind (hS.len h' hx.val ?_)
  by_cases hne : (f x).length = bs.length
  swap
  · rw [if_pos hne] at hV
    refine wp_if_pos (by simpa using hne) ?_
    have n1 := numeral_zero_notin (r := 10) (by omega) (by omega) ((f x).length : Int)
    have n2 := numeral_zero_notin (r := 10) (by omega) (by omega) (bs.length : Int)
    have l1 : (numeral 10 ((f x).length : Int)).length ≤ 11 := numeral_short (k := 10) (by omega) (by
      have := hlen x (h'.size_le hx.val)
      rw [abs_of_nonneg (by omega)]; exact_mod_cast this)
    have l2 : (numeral 10 (bs.length : Int)).length ≤ 5 := numeral_short (k := 4) (by omega) (by
      rw [abs_of_nonneg (by omega)]; norm_num; omega)
    have e1 : (txt "Output lengths do not match (want ").length = 34 := by decide
    have e2 : (txt ", got ").length = 6 := by decide
    have e3 : (txt ")").length = 1 := by decide
    refine fail_msg hd1 h' hr.inv (msg := txt "Output lengths do not match (want " ++ fmtd (f x).length ++ txt ", got " ++ fmtd bs.length ++ txt ")") ?_ ?_ ?_
    · simp only [List.mem_append, not_or]
      exact ⟨⟨⟨⟨by decide, n1⟩, by decide⟩, n2⟩, by decide⟩
    · simp only [List.length_append, fmtd]; omega
    · unfold fmtd
      rw [numeral_nat, numeral_nat]
      exact hV
  rw [if_neg (not_not.2 hne)] at hV
  refine wp_if_neg (by simpa using hne) ?_
  refine wp_bind (hS.bin h' hx.val (by omega) hd.2.2 ?_)
  refine wp_if_neg (by simp) ?_
  have t1 : (bs ++ d.g_bin1.drop bs.length).take ((f x).length : Int).toNat = bs := by
    rw [Int.toNat_natCast, hne]; simp
  have t2 : (f x ++ d.g_bin2.drop (f x).length).take ((f x).length : Int).toNat = f x := by
    rw [Int.toNat_natCast]; simp
  have hd2 : Buf { d with g_bin1 := bs ++ d.g_bin1.drop bs.length, g_bin2 := f x ++ d.g_bin2.drop (f x).length } :=
    ⟨hd.1, by simp [hd.2.1]; omega, by simp [hd.2.2]; omega⟩
  dsimp only
  rw [t1, t2]
  by_cases hc : f x = bs
  · rw [if_pos hc] at hV
    exact wp_if_neg (by simpa using hc.symm) (wp_pure (hV _ m' σ' h' hr.inv hd2 (by simp)))
  rw [if_neg hc] at hV
  refine wp_if_pos (fun hh => hc hh.symm) ?_
  rw [dotted_eq]
  by_cases hl : 2048 ≤ (dottedText (f x)).length
  · rw [if_pos hl] at hV
    refine wp_bind (wp_fault (f := .ub) ?_ hV)
    unfold bwrite
    rw [if_neg (by simp [hd.1]; omega)]
  · rw [if_neg hl] at hV
    exact fail_msg hd2 h' hr.inv (dotted_zero _) (by omega) hV

theorem tests_tobin (hE : Ref env E) : Tests env E σ0 test_tobin code 1 1 (binTest twosBytes) :=
  expectBin_spec hE stores_binary (fun x hx => by rw [twosBytes_length]; show Nat.size x.natAbs / 8 + 1 < _; norm_num; omega) _ rfl

theorem tests_to_uns (hE : Ref env E) : Tests env E σ0 test_to_uns code 1 1 (binTest magBytes) :=
  expectBin_spec hE stores_unsigned (fun x hx => by rw [magBytes_length]; norm_num; omega) _ rfl

theorem tests_read {g : Id → Bytes → Int → M (Int × Bytes)} {f : List Nat → Int} (hE : Ref env E)
    (hg : ∀ {m : Mem} {σ : Id → Option Int} {w : Int} {Q : Int × Bytes → Mem → Prop} {X R : Bytes}, R2 m σ → σ (.var 1) = some w → Byte X →
      1 ≤ X.length → X.length ≤ 2048 → (∀ m', R2 m' (upd σ (.var 1) (some (f X))) → Q (MP_OK, X ++ R) m') → wp env E (g (.var 1) (X ++ R) X.length) Q m)
    (hg0 : ∀ {m : Mem} {Q : Int × Bytes → Mem → Prop} {R : Bytes}, E .assert → wp env E (g (.var 1) R 0) Q m) :
    Tests env E σ0 (test_read g) code 1 1 (readTest f) := by
  intro t d ti tq m σ Q R hd hi ho hti htq h hI hcode li lo hV
  unfold test_read nth
  have g1 : g_zreg 1 = (pure (.var 1) : M Id) := by unfold g_zreg NUM_REGS; rw [if_pos (by omega)]
  rw [g1]
  refine wp_bind (wp_pure ?_)
  refine withInts_spec hE hd hi ho hti htq h hI hV fun p ss n xs os e m' σ' hV h' hr => ?_
  obtain ⟨u, rfl, hpo, hu⟩ := hr.out1 rfl lo
  have hn0 : n = 0 := hr.nin rfl
  subst hn0
  obtain ⟨s, rfl⟩ := List.length_eq_one_iff.1 li
  have hin := hr.input
  simp only [Bool.false_eq_true, if_false] at hin
  obtain ⟨R', hs⟩ : ∃ R', p.t.input[0]? = some (s ++ 0 :: R') := by
    generalize p.t.input = ls at hin
    obtain _ | ⟨k1, hf⟩ := hin
    obtain ⟨R, rfl⟩ := k1
    exact ⟨R, rfl⟩
  have h0 := (hti s (by simp)).1
  rw [hs]
  dsimp only at hV
  refine wp_bind (wp_pure (wp_bind (trim_line_spec h0 fun R2' _ => ?_)))
  refine wp_bind (parse_binary_spec (zero_notMem_trimmed h0) hd.2.1 (C70_trim_line_again s) (fun hN B hB => ?_) fun bs hbs hb1 hb2 => ?_)
  · rw [hN] at hV
    exact wp_if_pos (by simp) (wp_pure (hV _ m' σ' h' hr.inv ⟨hd.1, hB, hd.2.2⟩ rfl rfl))
  rw [hbs] at hV
  dsimp only at hV
  refine wp_if_neg (by simp) ?_
  by_cases hb0 : bs = []
  · rw [if_pos hb0] at hV
    subst hb0
    exact wp_bind (hg0 hV)
  rw [if_neg hb0] at hV
  obtain ⟨w, hw⟩ := hr.inv.1 1 (by omega)
  refine wp_bind (hg h' hw hb1 (by
    cases bs with
    | nil => exact absurd rfl hb0
    | cons => simp) hb2 fun m1 h1 => ?_)
  have hd1 : Buf { d with g_bin1 := bs ++ d.g_bin1.drop bs.length } := ⟨hd.1, by simp [hd.2.1]; omega, hd.2.2⟩
  have I1 := hr.inv.upd (i := 1) (by omega) (f bs)
  unfold VCHECK
  refine wp_bind (wp_pure ?_)
  rw [hr.expect]
  dsimp only
  by_cases he : e = MP_OK
  · subst he
    refine wp_if_neg (by simp) ?_
    exact expectInt_spec hE hd1 h1 I1 (upd_self ..) hr.expect hpo (by rw [upd_ne _ _ (by simp)]; exact hu) hV
  · dsimp only [judge, val1] at hV
    rw [if_pos he] at hV
    exact wp_if_pos (fun hh => he hh.symm) (wp_pure (hV _ m1 _ h1 I1 hd1 rfl rfl))

theorem tests_readbin (hE : Ref env E) : Tests env E σ0 test_read_binary code 1 1 (readTest twosVal) :=
  tests_read hE (fun h hw hb h1 h2 hQ => mp_int_read_binary_spec hE hb rfl h1 (by omega) rfl h hw hQ) fun hA => by
    unfold mp_int_read_binary
    exact wp_bind (wp_fault (f := .assert) (by unfold cassert; rfl) hA)

theorem tests_readuns (hE : Ref env E) : Tests env E σ0 test_read_uns code 1 1 (readTest fun bs => beVal bs) :=
  tests_read hE (fun h hw hb h1 h2 hQ => wp_bind (mp_int_read_unsigned_spec hE hb rfl h1 (by omega) rfl h hw fun m' h' => wp_pure (hQ m' h'))) fun hA => by
    unfold mp_int_read_unsigned
    exact wp_bind (wp_bind (wp_fault (f := .assert) (by unfold cassert; rfl) hA))

end Imath
