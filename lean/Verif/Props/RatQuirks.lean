import Verif.Props.Rat
import Verif.Props.RatStr
import Verif.Props.Conv
import Verif.Proof.Domain

/-!
# What the functions of imrat.c do where they differ from the documentation (C38, C39, C41)

Completes the theorems named `_partial` in `Props/Rat.lean` and `Props/RatStr.lean`.
-/

namespace Imath

variable {env : Env} {E : Fault → Prop} {m : Mem} {ρ : Nat → Option Int} {σ : Id → Option Int} {a c : RVar} {A C : MpQ} {n r : Nat} {x y : Int} {p q : ℚ}
  {str : Bytes} {limit : Int}

/-! ### Proofs -/

theorem rat_mul_int_num {Q : Int → Mem → Prop} (hE : Ref env E) (h : R2 m σ) (ha : HasQ2 σ A p) (hc : OutQ σ C)
    (sa : SepQ A C) (hQ : ∀ m', R2 m' (updQ σ C (p * p.num)) → Q MP_OK m') :
    wp env E (mp_rat_mul_int A C.num C) Q m := by
  unfold mp_rat_mul_int REQUIRE
  refine wp_bind (mp_rat_copy_spec hE h ha hc sa fun m1 h1 => wp_if_neg (by simp) ?_)
  have hh := updQ_has (σ := σ) (q := p) hc.ne
  refine wp_bind (mp_int_mul_spec hE h1 hh.1 hh.1 hh.1 hc.onum fun m2 h2 => wp_if_neg (by simp) ?_)
  refine s_rat_reduce_spec hE h2 (upd_self ..) (y := p.den) (by rw [upd_ne _ _ hc.ne.symm]; exact hh.2) (fun _ => den_ne p) (((hc.upd _ _).upd _ _).upd _ _) fun m3 h3 => hQ m3 ?_
  rwa [updQ_updn hc.ne, show updQ σ C p = upd (upd σ C.num (some p.num)) C.den (some (p.den : Int)) from rfl, updQ_clean hc.ne, q_mul_int] at h3

theorem rat_mul_int_den {Q : Int → Mem → Prop} (hE : Ref env E) (h : R2 m σ) (ha : HasQ2 σ A p) (hc : OutQ σ C)
    (sa : SepQ A C) (hQ : ∀ m', R2 m' (updQ σ C (p * (p.den : Int))) → Q MP_OK m') :
    wp env E (mp_rat_mul_int A C.den C) Q m := by
  unfold mp_rat_mul_int REQUIRE
  refine wp_bind (mp_rat_copy_spec hE h ha hc sa fun m1 h1 => wp_if_neg (by simp) ?_)
  have hh := updQ_has (σ := σ) (q := p) hc.ne
  refine wp_bind (mp_int_mul_spec hE h1 hh.1 hh.2 hh.1 hc.onum fun m2 h2 => wp_if_neg (by simp) ?_)
  refine s_rat_reduce_spec hE h2 (upd_self ..) (y := p.den) (by rw [upd_ne _ _ hc.ne.symm]; exact hh.2) (fun _ => den_ne p) (((hc.upd _ _).upd _ _).upd _ _) fun m3 h3 => hQ m3 ?_
  rwa [updQ_updn hc.ne, show updQ σ C p = upd (upd σ C.num (some p.num)) C.den (some (p.den : Int)) from rfl, updQ_clean hc.ne, q_mul_int] at h3

theorem rat_div_int_den {Q : Int → Mem → Prop} (hE : Ref env E) (h : R2 m σ) (ha : HasQ2 σ A p) (hb : σ C.den = some y) (hc : OutQ σ C)
    (sa : SepQ A C) (hy : y ≠ 0) (hQ : ∀ m', R2 m' (updQ σ C (p / (p.den : Int))) → Q MP_OK m') :
    wp env E (mp_rat_div_int A C.den C) Q m := by
  unfold mp_rat_div_int
  refine wp_bind (mp_int_compare_zero_spec h hb ?_)
  refine wp_if_neg (by simpa [Int.sign_eq_zero_iff_zero] using hy) ?_
  unfold REQUIRE
  refine wp_bind (mp_rat_copy_spec hE h ha hc sa fun m1 h1 => wp_if_neg (by simp) ?_)
  have hh := updQ_has (σ := σ) (q := p) hc.ne
  refine wp_bind (mp_int_mul_spec hE h1 hh.2 hh.2 hh.2 hc.oden fun m2 h2 => wp_if_neg (by simp) ?_)
  refine s_rat_reduce_spec hE h2 (x := p.num) (by rw [upd_ne _ _ hc.ne]; exact hh.1) (upd_self ..) (fun _ => mul_ne_zero (den_ne p) (den_ne p)) (((hc.upd _ _).upd _ _).upd _ _) fun m3 h3 => hQ m3 ?_
  rwa [updQ_updd hc.ne, show updQ σ C p = upd (upd σ C.num (some p.num)) C.den (some (p.den : Int)) from rfl, updQ_clean hc.ne, q_div_int p (den_ne p)] at h3

theorem rat_div_int_num {Q : Int → Mem → Prop} (hE : Ref env E) (h : R2 m σ) (ha : HasQ2 σ A p) (hb : σ C.num = some y) (hc : OutQ σ C)
    (sa : SepQ A C) (hy : y ≠ 0) (hQ : ∀ m', R2 m' (updQ σ C (p / p.num)) → Q MP_OK m') :
    wp env E (mp_rat_div_int A C.num C) Q m := by
  unfold mp_rat_div_int
  refine wp_bind (mp_int_compare_zero_spec h hb ?_)
  refine wp_if_neg (by simpa [Int.sign_eq_zero_iff_zero] using hy) ?_
  unfold REQUIRE
  refine wp_bind (mp_rat_copy_spec hE h ha hc sa fun m1 h1 => wp_if_neg (by simp) ?_)
  have hh := updQ_has (σ := σ) (q := p) hc.ne
  refine wp_bind (mp_int_mul_spec hE h1 hh.2 hh.1 hh.2 hc.oden fun m2 h2 => wp_if_neg (by simp) ?_)
  refine s_rat_reduce_spec hE h2 (x := p.num) (by rw [upd_ne _ _ hc.ne]; exact hh.1) (upd_self ..) (fun h0 => mul_ne_zero (den_ne p) h0) (((hc.upd _ _).upd _ _).upd _ _) fun m3 h3 => hQ m3 ?_
  rw [updQ_updd hc.ne, show updQ σ C p = upd (upd σ C.num (some p.num)) C.den (some (p.den : Int)) from rfl, updQ_clean hc.ne] at h3
  by_cases h0 : p.num = 0
  · have : p = 0 := Rat.num_eq_zero.1 h0
    subst this
    simpa using h3
  · rwa [q_div_int p h0] at h3

theorem FaultsOr.to_wp {α : Type} {f : M α} {e : Fault} {Q : α → Mem → Prop} (h : FaultsOr env f m e) : wp env (OrRefused env e) f Q m := by
  unfold wp
  rcases h with h | ⟨n, h, j, hj⟩
  · rw [h]; exact .inl rfl
  · rw [h]; exact .inr ⟨n, j, rfl, hj⟩

theorem cassert_fail {Q : Unit → Mem → Prop} {b : Bool} (hb : b = false) (hu : E .assert) : wp env E (cassert b) Q m := by
  refine wp_fault (f := .assert) ?_ hu
  subst hb; rfl

theorem to_string_assert {Q : Int × Bytes → Mem → Prop} {z : Id} (hu : E .assert) (hl : limit < 2 ∨ r < 2 ∨ 36 < r) :
    wp env E (mp_int_to_string z r str limit) Q m := by
  unfold mp_int_to_string
  by_cases h2 : limit ≥ 2
  · exact wp_bind (wp_cassert (by simpa using h2) (wp_bind (cassert_fail (decide_eq_false (by omega)) hu)))
  · exact wp_bind (cassert_fail (decide_eq_false h2) hu)

/-- The part of `mp_rat_to_string` before the denominator is written. -/
theorem rat_to_string_den {Q : Int × Bytes → Mem → Prop} (hE : Ref env E) (hr2 : 2 ≤ r) (hr : r ≤ 36)
    (h : R2 m σ) (ha : HasQ2 σ A p) (h0 : p ≠ 0) (hlim : 2 ≤ limit) (hfit : ((numeral r p.num).length : Int) < limit)
    (hbuf : (numeral r p.num).length < str.length)
    (hQ : ∀ m', R2 m' σ → ∀ Q2, wp env E (mp_int_to_string A.den r (str.drop ((numeral r p.num).length + 1)) (limit - (numeral r p.num).length - 1)) Q2 m') :
    wp env E (mp_rat_to_string A r str limit) Q m := by
  unfold mp_rat_to_string
  refine wp_bind (mp_int_to_string_spec hE hr2 hr hlim (by omega) h ha.1 (fun m1 h1 _ => ?_) fun _ _ _ h1 => by omega)
  refine wp_if_neg (by simp) (wp_bind (mp_int_compare_zero_spec h1 ha.1 ?_))
  have hne : p.num ≠ 0 := Rat.num_ne_zero.2 h0
  refine wp_if_neg (by rw [Int.sign_eq_zero_iff_zero]; exact hne) ?_
  generalize hD : numeral r p.num = D at *
  have h0D : 0 ∉ D := hD ▸ numeral_zero_notin hr2 hr p.num
  refine wp_bind ?_
  show wp env E (strlen ([] ++ (D ++ 0 :: str.drop (D.length + 1))) _ ([] : Bytes).length) _ m1
  refine strlen_exact h0D (by simp) ?_
  show wp env E (if limit - (D.length : Int) = 0 then pure (MP_TRUNC, _) else _) Q m1
  refine wp_if_neg (by omega) (wp_bind (wp_bset (by simp) ?_))
  rw [set_len, show D ++ 47 :: str.drop (D.length + 1) = (D ++ [47]) ++ str.drop (D.length + 1) by simp,
    show D.length + 1 = (D ++ [47]).length by simp]
  refine wp_atOff ?_
  have := hQ m1 h1
  simpa using this _

/-! ### Multiplication and division by a part of the output -/

/-- The integer is the numerator or the denominator of the output (`mp_rat_numer_ref`, `mp_rat_denom_ref`): the number
is multiplied by its own numerator or denominator, not by that of the output before the call, unless the two are the
same variable.  With `C38_mul_int_partial` all cases are covered. -/
theorem C38_mul_int_part (h : State m ρ) (ha : HasQ ρ a p) (hc : ReadyQ ρ c) (sa : SepV a c) :
    (Runs env (mp_rat_mul_int a.p (.var c.num) c.p) m fun r m' => r = MP_OK ∧ State m' (putQ ρ c (p * p.num))) ∧
    (Runs env (mp_rat_mul_int a.p (.var c.den) c.p) m fun r m' => r = MP_OK ∧ State m' (putQ ρ c p.num)) := by
  refine ⟨.of_wp (rat_mul_int_num (ref_refused env) h.r2 ha.l hc.l sa.l fun _ h' => ⟨rfl, h'.stateQ⟩),
    .of_wp (rat_mul_int_den (ref_refused env) h.r2 ha.l hc.l sa.l fun _ h' => ⟨rfl, ?_⟩)⟩
  have e : p * ((p.den : Int) : ℚ) = (p.num : ℚ) := by push_cast; exact Rat.mul_den_eq_num p
  rw [e] at h'
  exact h'.stateQ

example : ∃ m, State m demoQ ∧ Runs env (mp_rat_mul_int qa.p (.var 2) qb.p) m fun r m' =>
    r = MP_OK ∧ State m' (putQ demoQ qb (-22 / 7 * (-22 / 7 : ℚ).num)) :=
  let ⟨m, h⟩ := demoQ_state
  ⟨m, h, (C38_mul_int_part h demoQ_a (demoQ_b.ready (by decide)) (.inr (by decide))).1⟩

/-- The divisor is the numerator or the denominator of the output: whether it is zero is looked up before, but
the division is by the numerator or denominator of the dividend.  (A dividend of zero gives zero.) -/
theorem C38_div_int_part (h : State m ρ) (ha : HasQ ρ a p) (hc : ReadyQ ρ c) (sa : SepV a c) (hy : y ≠ 0) :
    (ρ c.num = some y → Runs env (mp_rat_div_int a.p (.var c.num) c.p) m fun r m' => r = MP_OK ∧ State m' (putQ ρ c (p / p.num))) ∧
    (ρ c.den = some y → Runs env (mp_rat_div_int a.p (.var c.den) c.p) m fun r m' => r = MP_OK ∧ State m' (putQ ρ c (p / (p.den : Int)))) :=
  ⟨fun hn => .of_wp (rat_div_int_num (C := c.p) (ref_refused env) h.r2 ha.l hn hc.l sa.l hy fun _ h' => ⟨rfl, h'.stateQ⟩),
    fun hn => .of_wp (rat_div_int_den (C := c.p) (ref_refused env) h.r2 ha.l hn hc.l sa.l hy fun _ h' => ⟨rfl, h'.stateQ⟩)⟩

example : ∃ m, State m demoQ ∧ Runs env (mp_rat_div_int qa.p (.var 3) qb.p) m fun r m' =>
    r = MP_OK ∧ State m' (putQ demoQ qb (-22 / 7 / ((-22 / 7 : ℚ).den : Int))) :=
  let ⟨m, h⟩ := demoQ_state
  ⟨m, h, (C38_div_int_part h demoQ_a (demoQ_b.ready (by decide)) (.inr (by decide)) (y := 3) (by norm_num)).2 rfl⟩

/-- A divisor of zero is refused, also if it is a part of the output. -/
theorem C38_div_int_zero_any (h : State m ρ) (hn : ρ n = some 0) :
    Runs env (mp_rat_div_int a.p (.var n) c.p) m fun r m' => r = MP_UNDEF ∧ m' = m := by
  refine .of_wp ?_
  unfold mp_rat_div_int
  exact wp_bind (mp_int_compare_zero_spec h.r2 hn (wp_if_pos (by simp) (wp_pure ⟨rfl, rfl⟩)))

example : ∃ m, State m demoQ ∧ Runs env (mp_rat_div_int qa.p (.var 4) qc.p) m fun r m' => r = MP_UNDEF ∧ m' = m :=
  let ⟨m, h⟩ := demoQ_state
  ⟨m, h, C38_div_int_zero_any h rfl⟩

/-! ### Powers -/

/-- For every exponent: what counts is its residue modulo 2^32. -/
theorem C38_expt_residue {k : Nat} (h : State m ρ) (ha : HasQ ρ a p) (hc : ReadyQ ρ c) (sa : SepV a c) :
    Runs env (mp_rat_expt a.p k c.p) m fun r m' => r = MP_OK ∧ State m' (putQ ρ c (p ^ (k % 2 ^ 32))) := by
  refine .of_wp (mp_rat_expt_spec (ref_refused env) h.r2 ha.l hc.l sa.l (fun h => by omega) fun _ m' h' => ⟨rfl, ?_⟩)
  have e : ((k : Int) % 2 ^ 32).toNat = k % 2 ^ 32 := by omega
  rw [e] at h'
  exact h'.stateQ

example : ∃ m, State m demoQ ∧ Runs env (mp_rat_expt qa.p (2 ^ 40 + 3 : Nat) qa.p) m fun r m' =>
    r = MP_OK ∧ State m' (putQ demoQ qa ((-22 / 7) ^ ((2 ^ 40 + 3) % 2 ^ 32))) :=
  let ⟨m, h⟩ := demoQ_state
  ⟨m, h, C38_expt_residue h demoQ_a (demoQ_a.ready (by decide)) (.inl rfl)⟩

/-! ### Machine integers -/

theorem C38_set_value_zero_any : Runs env (mp_rat_set_value c.p x 0) m fun r m' => r = MP_UNDEF ∧ m' = m :=
  .of_wp (wp_if_pos rfl (wp_pure ⟨rfl, rfl⟩))

theorem C38_set_uvalue_zero {x : Nat} : Runs env (mp_rat_set_uvalue c.p x 0) m fun r m' => r = MP_UNDEF ∧ m' = m :=
  .of_wp (wp_if_pos rfl (wp_pure ⟨rfl, rfl⟩))

/-- -2^63 as numerator or denominator. -/
theorem C38_set_value_min (h : State m ρ) (hc : ReadyQ ρ c) (hx : -2 ^ 63 ≤ x ∧ x < 2 ^ 63) (hy : y ≠ 0)
    (hm : x = -2 ^ 63 ∨ y = -2 ^ 63) : FaultsOr env (mp_rat_set_value c.p x y) m .ub := by
  refine .of_wp (wp_if_neg hy ?_)
  unfold REQUIRE
  obtain ⟨w, hw⟩ := hc.2.1
  by_cases h1 : x = -2 ^ 63
  · subst h1; exact wp_bind (wp_fault (f := .ub) withFake_min (.inl rfl))
  · obtain rfl := hm.resolve_left h1
    refine wp_bind (mp_int_set_value_spec (ref_or env _) (by omega) (by omega) h.r2 (c := .var c.num) hw rfl fun m1 r1 => wp_if_neg (by simp) ?_)
    exact wp_bind (wp_fault (f := .ub) withFake_min (.inl rfl))

example : ∃ m, State m demoQ ∧ FaultsOr env (mp_rat_set_value qa.p 5 (-2 ^ 63)) m .ub :=
  let ⟨m, h⟩ := demoQ_state
  ⟨m, h, C38_set_value_min h (demoQ_a.ready (by decide)) (by norm_num) (by norm_num) (.inr rfl)⟩

/-- The greatest value of `mp_size` as one of the precisions. -/
theorem C38_init_size_max {np dp : Nat} (h : State m ρ) (h1 : ρ c.num = none) (hn : np < 2 ^ 32)
    (hm : np = 2 ^ 32 - 1 ∨ dp = 2 ^ 32 - 1) : FaultsOr env (mp_rat_init_size c.p np dp) m .ub := by
  by_cases hp : np = 2 ^ 32 - 1
  · subst hp; exact FaultsOr.bind init_size_max
  · obtain rfl := hm.resolve_left hp
    refine .of_wp (wp_bind (mp_int_init_size_spec (ref_or env _) h.r2 (R2.declVar h.r2 _) h1 (by omega) fun m1 r1 => wp_if_neg (by simp) ?_))
    exact wp_bind (FaultsOr.to_wp init_size_max)

example : ∃ m, State m demoQ ∧ FaultsOr env (mp_rat_init_size (⟨8, 9⟩ : RVar).p 3 (2 ^ 32 - 1)) m .ub :=
  let ⟨m, h⟩ := demoQ_state
  ⟨m, h, C38_init_size_max h rfl (by norm_num) (.inr rfl)⟩

/-- Comparison with a fraction whose denominator is zero: `INT_MAX` for every numerator. -/
theorem C39_compare_value_zero_any (h : State m ρ) :
    Runs env (mp_rat_compare_value a.p x 0) m fun r m' => r = 2147483647 ∧ State m' ρ := by
  refine .of_wp ?_
  unfold mp_rat_compare_value
  refine withInit2_spec h.r2 fun T σ1 m1 g1 r1 => ?_
  refine wp_bind (mp_int_set_value_spec (ref_refused env) (by decide) (by decide) r1 (g1.get 1) (g1.ow 1) fun m2 r2 => wp_if_neg (by simp) ?_)
  obtain ⟨σ2, r2, g2⟩ := g1.up 1 r2
  tsimp at g2
  exact wp_bind (wp_if_pos rfl (wp_pure (wp_if_pos (by decide) (wp_pure (.mk g2 r2 fun m' h' => ⟨rfl, h'.state⟩)))))

example : ∃ m, State m demoQ ∧ Runs env (mp_rat_compare_value qa.p (-2 ^ 63) 0) m fun r m' => r = 2147483647 ∧ State m' demoQ :=
  let ⟨m, h⟩ := demoQ_state
  ⟨m, h, C39_compare_value_zero_any h⟩

/-- Comparison with a fraction one part of which is -2^63. -/
theorem C39_compare_value_min_any (h : State m ρ) (hx : -2 ^ 63 ≤ x ∧ x < 2 ^ 63) (hy : y ≠ 0)
    (hm : x = -2 ^ 63 ∨ y = -2 ^ 63) : FaultsOr env (mp_rat_compare_value a.p x y) m .ub := by
  refine .of_wp ?_
  unfold mp_rat_compare_value
  refine withInit2_spec h.r2 fun T σ1 m1 g1 r1 => ?_
  refine wp_bind (mp_int_set_value_spec (ref_or env _) (by decide) (by decide) r1 (g1.get 1) (g1.ow 1) fun m2 r2 => wp_if_neg (by simp) ?_)
  obtain ⟨σ2, r2, g2⟩ := g1.up 1 r2
  tsimp at g2
  refine wp_bind (wp_if_neg hy ?_)
  unfold REQUIRE
  by_cases h1 : x = -2 ^ 63
  · subst h1; exact wp_bind (wp_fault (f := .ub) withFake_min (.inl rfl))
  · obtain rfl := hm.resolve_left h1
    refine wp_bind (mp_int_set_value_spec (ref_or env _) (by omega) (by omega) r2 (g2.get 0) (g2.ow 0) fun m3 r3 => wp_if_neg (by simp) ?_)
    exact wp_bind (wp_fault (f := .ub) withFake_min (.inl rfl))

example : ∃ m, State m demoQ ∧ FaultsOr env (mp_rat_compare_value qa.p 1 (-2 ^ 63)) m .ub :=
  let ⟨m, h⟩ := demoQ_state
  ⟨m, h, C39_compare_value_min_any h (by norm_num) (by norm_num) (.inr rfl)⟩

/-! ### Output -/

/-- The limit leaves no place or one place for the denominator. -/
theorem C41_to_string_mid (h : State m ρ) (ha : HasQ ρ a p) (h0 : p ≠ 0) (hr : 2 ≤ r ∧ r ≤ 36) (hlim : 2 ≤ limit)
    (h1 : (numeral r p.num).length < limit) (h2 : limit ≤ (numeral r p.num).length + 2) (hbuf : (numeral r p.num).length < str.length) :
    FaultsOr env (mp_rat_to_string a.p r str limit) m .assert :=
  .of_wp (rat_to_string_den (ref_or env _) hr.1 hr.2 h.r2 ha.l h0 hlim h1 hbuf fun _ _ _ => to_string_assert (.inl rfl) (by omega))

example : ∃ m, State m demoQ ∧ FaultsOr env (mp_rat_to_string qa.p 10 [1, 2, 3, 4, 5, 6] 5) m .assert := by
  obtain ⟨m, h⟩ := demoQ_state
  have e1 : (-22 / 7 : ℚ).num = -22 := by decide +kernel
  refine ⟨m, h, C41_to_string_mid h demoQ_a (by norm_num) (by omega) (by omega) ?_ ?_ ?_⟩ <;> rw [e1] <;> simp [numeral, numeralN, digitChar]

theorem C41_to_string_limit (hl : limit < 2 ∨ r < 2 ∨ 36 < r) : FaultsOr env (mp_rat_to_string a.p r str limit) m .assert := by
  refine .of_wp ?_
  unfold mp_rat_to_string
  exact wp_bind (to_string_assert (.inl rfl) hl)

example : FaultsOr env (mp_rat_to_string qa.p 10 [1, 2, 3, 4] 1) m .assert := C41_to_string_limit (.inl (by omega))

/-- An array that is shorter than what is written.  With `C41_to_string`, `C41_to_string_trunc_partial`, `C41_to_string_mid` and
`C41_to_string_limit`, all arrays, limits and radices are covered. -/
theorem C41_to_string_short (h : State m ρ) (ha : HasQ ρ a p) (hr : 2 ≤ r ∧ r ≤ 36) (hlim : 2 ≤ limit)
    (hmid : p = 0 ∨ limit ≤ (numeral r p.num).length ∨ (numeral r p.num).length + 3 ≤ limit ∨ str.length ≤ (numeral r p.num).length)
    (h1 : (str.length : Int) ≤ limit) (h2 : str.length ≤ (ratText r p).length) :
    FaultsOr env (mp_rat_to_string a.p r str limit) m .ub := by
  refine .of_wp ?_
  by_cases hs : str.length ≤ (numeral r p.num).length
  · unfold mp_rat_to_string
    exact wp_bind (mp_int_to_string_fault (ref_or env _) (.inl rfl) hr.1 hr.2 hlim (by omega) h.r2 ha.l.1)
  · have h0 : p ≠ 0 := by
      rintro rfl
      have e : ratText r 0 = numeral r (0 : ℚ).num := by simp [ratText]
      rw [e] at h2
      exact hs h2
    have e : ratText r p = numeral r p.num ++ 47 :: numeral r p.den := by simp [ratText, h0]
    rw [e, List.length_append, List.length_cons] at h2
    have h3 := (hmid.resolve_left h0)
    refine rat_to_string_den (ref_or env _) hr.1 hr.2 h.r2 ha.l h0 hlim (by omega) (by omega) fun m1 r1 Q2 => ?_
    refine mp_int_to_string_fault (ref_or env _) (.inl rfl) hr.1 hr.2 (by omega) ?_ r1 ha.l.2
    rw [List.length_drop]
    omega

example : ∃ m, State m demoQ ∧ FaultsOr env (mp_rat_to_string qa.p 10 [1, 2, 3, 4, 5] 20) m .ub := by
  obtain ⟨m, h⟩ := demoQ_state
  have e1 : (-22 / 7 : ℚ).num = -22 := by decide +kernel
  refine ⟨m, h, C41_to_string_short h demoQ_a (by omega) (by omega) (.inr (.inr (.inl ?_))) (by simp) (by rw [demoQ_text]; decide)⟩
  rw [e1]; simp [numeral, numeralN, digitChar]

end Imath
