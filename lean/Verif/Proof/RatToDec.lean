import Verif.Proof.RatDec
import Mathlib.Tactic.FieldSimp
import Mathlib.Tactic.Linarith

/-! # Output of rationals with a radix point -/

namespace Imath

variable {env : Env} {E : Fault → Prop} {m : Mem} {σ σ' : Id → Option Int} {s : Id → Option Cell} {z : Id} {a b c : MpQ}
  {x y w v : Int} {p q : ℚ} {r : Nat} {str : Bytes} {limit : Int}

/-! ### The digits -/

theorem fixed_len (r k n : Nat) : (fixedDigits r k n).length = k := by
  induction k generalizing n with
  | zero => rfl
  | succ k ih => unfold fixedDigits; rw [List.length_append, ih]; rfl

theorem fixed_mod (hr : 2 ≤ r) (k n : Nat) : fixedDigits r k (n % r ^ k) = fixedDigits r k n := by
  induction k generalizing n with
  | zero => rfl
  | succ k ih =>
    unfold fixedDigits
    have e1 : n % r ^ (k + 1) % r = n % r := Nat.mod_mod_of_dvd _ (Dvd.intro_left (r ^ k) (by rw [Nat.pow_succ]))
    have e2 : n % r ^ (k + 1) / r = n / r % r ^ k := by
      rw [Nat.pow_succ, Nat.mul_comm, Nat.mod_mul_right_div_self]
    rw [e1, e2, ih]

theorem fixed_zero (r k : Nat) : fixedDigits r k 0 = List.replicate k 48 := by
  induction k with
  | zero => rfl
  | succ k ih =>
    unfold fixedDigits
    rw [Nat.zero_div, ih, Nat.zero_mod, List.replicate_succ']; rfl

theorem fixed_pad (hr : 2 ≤ r) (z k : Nat) {n : Nat} (h : n < r ^ k) :
    fixedDigits r (z + k) n = List.replicate z 48 ++ fixedDigits r k n := by
  induction k generalizing n with
  | zero => have : n = 0 := by simpa using h
            subst this; rw [fixed_zero]; simp [fixedDigits]
  | succ k ih =>
    have : n / r < r ^ k := by
      rw [Nat.div_lt_iff_lt_mul (by omega)]; rwa [← Nat.pow_succ]
    show fixedDigits r (z + k) (n / r) ++ _ = _ ++ (fixedDigits r k (n / r) ++ _)
    rw [ih this, List.append_assoc]

theorem numeralN_step (hr : 2 ≤ r) {n : Nat} (h : r ≤ n) : numeralN r n = numeralN r (n / r) ++ [digitChar (n % r)] := by
  unfold numeralN
  have h1 : n / r ≠ 0 := by
    have := Nat.div_pos h (by omega : 0 < r); omega
  rw [if_neg (by omega), if_neg h1, Nat.digits_def' (by omega) (by omega)]
  simp

theorem numeralN_fixed (hr : 2 ≤ r) (k : Nat) {n : Nat} (h1 : n < r ^ (k + 1)) (h2 : k = 0 ∨ r ^ k ≤ n) :
    numeralN r n = fixedDigits r (k + 1) n := by
  induction k generalizing n with
  | zero =>
    rw [Nat.pow_one] at h1
    unfold numeralN fixedDigits fixedDigits
    rw [Nat.mod_eq_of_lt h1]
    split
    · next h => subst h; rfl
    · next h => rw [Nat.digits_of_lt r n h h1]; rfl
  | succ k ih =>
    have h3 : r ^ (k + 1) ≤ n := by simpa using h2
    have h4 : r ≤ n := Nat.le_trans (by rw [Nat.pow_succ]; exact Nat.le_mul_of_pos_left _ (Nat.pow_pos (by omega))) h3
    have h5 : n / r < r ^ (k + 1) := by rw [Nat.div_lt_iff_lt_mul (by omega), ← Nat.pow_succ]; exact h1
    have h6 : r ^ k ≤ n / r := by rw [Nat.le_div_iff_mul_le (by omega), ← Nat.pow_succ]; exact h3
    rw [numeralN_step hr h4, ih h5 (.inr h6)]; rfl

theorem numeral_nat (n : Nat) : numeral r (n : Int) = numeralN r n := by
  unfold numeral; rw [if_neg (by omega)]; rfl

/-! ### Rounding -/

theorem roundQ_eq {mode P D : Nat} (hD : 0 < D) (hm : mode ≤ 3) :
    roundQ mode ((P : ℚ) / D) = P / D + if (mode = 1 ∧ D ≤ 2 * (P % D)) ∨ (mode = 2 ∧ P % D ≠ 0) ∨ (mode = 3 ∧ D < 2 * (P % D)) then 1 else 0 := by
  have hD' : (0 : ℚ) < D := by exact_mod_cast hD
  have e := Nat.div_add_mod P D
  have hlt := Nat.mod_lt P hD
  generalize P / D = q at *
  generalize P % D = t at *
  have e' : (P : ℚ) / D = q + t / D := by
    rw [← e]; push_cast; field_simp
  rw [e']
  have t0 : (0 : ℚ) ≤ t / D := by positivity
  have t1 : (t : ℚ) / D < 1 := by rw [div_lt_one hD']; exact_mod_cast hlt
  have q0 : (0 : ℚ) ≤ q := by positivity
  unfold roundQ
  rcases show mode = 0 ∨ mode = 1 ∨ mode = 2 ∨ mode = 3 by omega with rfl | rfl | rfl | rfl
  · simp only [if_true]
    rw [if_neg (by simp), Nat.floor_eq_iff (by positivity)]
    simp only [Nat.add_zero]; constructor <;> linarith
  · rw [if_neg (by simp), if_pos rfl, Nat.floor_eq_iff (by positivity)]
    by_cases hc : D ≤ 2 * t
    · have : (1 : ℚ) / 2 ≤ t / D := by rw [div_le_div_iff₀ (by norm_num) hD']; exact_mod_cast by omega
      rw [if_pos (by simpa using hc)]; push_cast; constructor <;> linarith
    · have : (t : ℚ) / D < 1 / 2 := by rw [div_lt_div_iff₀ hD' (by norm_num)]; exact_mod_cast by omega
      rw [if_neg (by simpa using hc)]; push_cast; constructor <;> linarith
  · rw [if_neg (by simp), if_neg (by simp), if_pos rfl]
    by_cases hc : t = 0
    · subst hc
      rw [if_neg (by simp)]; simp
    · have : (0 : ℚ) < t / D := by have : (0 : ℚ) < t := by exact_mod_cast Nat.pos_of_ne_zero hc
                                   positivity
      rw [if_pos (by simpa using hc), Nat.ceil_eq_iff (by omega)]
      rw [show q + 1 - 1 = q by omega]
      push_cast; constructor <;> linarith
  · rw [if_neg (by simp), if_neg (by simp), if_neg (by simp)]
    by_cases hc : D < 2 * t
    · have : (1 : ℚ) / 2 < t / D := by rw [div_lt_div_iff₀ (by norm_num) hD']; exact_mod_cast by omega
      rw [if_pos (by simpa using hc), Nat.ceil_eq_iff (by omega), show q + 1 - 1 = q by omega]
      push_cast; constructor <;> linarith
    · have : (t : ℚ) / D ≤ 1 / 2 := by rw [div_le_div_iff₀ hD' (by norm_num)]; exact_mod_cast by omega
      rw [if_neg (by simpa using hc), Nat.add_zero]
      apply le_antisymm
      · rw [Nat.ceil_le]; linarith
      · have : (q : ℚ) - 1 < ⌈(q : ℚ) + t / D - 1 / 2⌉₊ := lt_of_lt_of_le (by linarith) (Nat.le_ceil _)
        have : (q : ℚ) < ⌈(q : ℚ) + t / D - 1 / 2⌉₊ + 1 := by linarith
        have : q < ⌈(q : ℚ) + t / D - 1 / 2⌉₊ + 1 := by exact_mod_cast this
        omega

/-! ### Local variables -/

theorem withLocalL_rep {α : Type} {ini : Id → M Int} {err : Int → α} {k : Id → M (α × Bool)} {Q : α × Bool → Mem → Prop}
    (h : Rep m s)
    (hi : ∀ t m1, s t = none → t.own = true → Decl m1 t → Rep m1 s →
      wp env E (ini t) (fun r m2 => r = MP_OK ∧
        wp env E (k t) (fun r m'' => r.2 = false ∧ ∃ s'' D, Rep m'' s'' ∧ s'' t = some D ∧
          (∀ m3, Rep m3 (upd s'' t none) → Q r m3)) m2) m1) :
    wp env E (withLocalL ini err k) Q m := by
  unfold withLocalL
  refine wp_bind (declInt_tmp_rep h fun t m1 hst hown hd h1 hv => ?_)
  refine wp_bind (wp_mono (hi t m1 hst hown hd h1) ?_)
  rintro r m2 ⟨rfl, hk⟩
  refine wp_if_neg (by simp) ?_
  refine wp_bind (wp_mono hk ?_)
  rintro r m3 ⟨hf, s'', D, h3, h4, h5⟩
  simp only [cwhen, hf, if_true]
  exact clear_drop_rep h3 h4 hown hv fun m4 h6 => wp_pure (h5 m4 h6)

theorem withLocalL_spec {α : Type} {ini : Id → M Int} {err : Int → α} {k : Id → M (α × Bool)} {Q : α × Bool → Mem → Prop}
    {n : Nat} {T : Nat → Id} {V : Nat → Int} (h : R2 m σ') (g : Tmps σ n T V σ')
    (hi : ∀ t m1 {P : Int → Mem → Prop}, R2 m1 σ' → Decl m1 t → σ' t = none → t.own = true →
      (∀ m', R2 m' (upd σ' t (some v)) → P MP_OK m') → wp env E (ini t) P m1)
    (hk : ∀ t m1, Tmps σ (n + 1) (nset T n t) (nset V n v) (upd σ' t (some v)) → R2 m1 (upd σ' t (some v)) →
      wp env E (k t) (fun r m'' => r.2 = false ∧ TDone (n + 1) (nset T n t) Q r m'') m1) :
    wp env E (withLocalL ini err k) (fun r m'' => r.2 = false ∧ TDone n T Q r m'') m := by
  obtain ⟨s, hr, hs⟩ := h
  refine withLocalL_rep hr fun t m1 hst ho hd h1 => ?_
  have ht : σ' t = none := hs.none_iff.1 hst
  refine hi t m1 ⟨s, h1, hs⟩ hd ht ho fun m2 h2 => ⟨rfl, ?_⟩
  refine wp_mono (hk t m2 (g.push ht ho v) h2) ?_
  rintro r m3 ⟨hf, σF, σ'', V', g', ⟨s', h3, hs'⟩, hQ⟩
  have e : nset T n t n = t := by simp
  obtain ⟨D, hD, -⟩ := hs'.get (z := t) (v := V' n) (by have := g'.get n (by omega); rwa [e] at this)
  refine ⟨hf, s', D, h3, hD, fun m4 h4 => ?_⟩
  have h5 : R2 m4 (upd σ'' t none) := ⟨_, h4, hs'.upd_none⟩
  rw [← e] at h5
  exact ⟨hf, σF, _, V', g'.pop.congr (fun j hj => by simp; omega) (fun _ _ => rfl), h5, hQ⟩

/-! ### The steps -/

theorem decLead_spec {Q : Int × Nat → Mem → Prop} {den : Id} {T : Nat → Id} {D : Nat} (hE : Ref env E) (hr : r < 2 ^ 32)
    (hd : σ den = some (D : Int)) :
    ∀ (n l R : Nat) (m : Mem) (σ' : Id → Option Int), Tmps σ 3 T (L [x, (R : Int), w]) σ' → R2 m σ' →
    (∀ m' σ'' j, j ≤ n → (j = n ∨ D ≤ R * r ^ j) → (∀ i, i < j → R * r ^ i < D) →
      Tmps σ 3 T (L [x, ((R * r ^ j : Nat) : Int), w]) σ'' → R2 m' σ'' → Q (MP_OK, l + j) m') →
    wp env E (decLead den (T 1) r n l) Q m := by
  have s1 : SMALL_MIN < (r : Int) := by omega
  have s2 : (r : Int) ≤ SMALL_MAX := by omega
  intro n
  induction n with
  | zero =>
    intro l R m σ' g h hQ
    exact wp_pure (hQ m σ' 0 (Nat.le_refl _) (.inl rfl) (by simp) (by simpa using g) h)
  | succ n ih =>
    intro l R m σ' g h hQ
    unfold decLead
    refine wp_bind (mp_int_compare_spec h (g.get 1) (g.out hd) ?_)
    simp only [L]
    refine wp_ite (fun hc => ?_) fun hc => ?_
    · have hlt : R < D := by
        simp only [cmpZ_neg] at hc; simpa using hc
      refine wp_bind (mp_int_mul_value_spec hE s1 s2 h (g.get 1) (g.get 1) (g.ow 1) fun m1 h1 => ?_)
      obtain ⟨σ2, r2, g2⟩ := g.up 1 h1
      tsimp at g2
      refine wp_if_neg (by simp) ?_
      refine ih (l + 1) (R * r) m1 σ2 (by simpa using g2) r2 fun m' σ'' j hj h2 h3 g' r' => ?_
      have e : ∀ i, R * r * r ^ i = R * r ^ (i + 1) := fun i => by rw [Nat.pow_succ]; ring
      simp only [e] at h2 h3 g'
      have := hQ m' σ'' (j + 1) (by omega) (by rcases h2 with h2 | h2
                                               · left; omega
                                               · right; exact h2) (fun i hi => ?_) g' r'
      · rwa [show l + (j + 1) = l + 1 + j by omega] at this
      · rcases i with _ | i
        · simpa using hlt
        · exact h3 i (by omega)
    · have hge : D ≤ R := by
        simp only [cmpZ_neg] at hc; simpa using hc
      exact wp_pure (hQ m σ' 0 (by omega) (.inr (by simpa using hge)) (by simp) (by simpa using g) h)

theorem decDiv_spec {Q : Int → Mem → Prop} {den : Id} {T : Nat → Id} {X D : Nat} {l : List Int} {i j : Nat} (hE : Ref env E)
    (hD : 0 < D) (hd : σ den = some (D : Int)) (g : Tmps σ 3 T (L l) σ') (h : R2 m σ') (hi : i < 3) (hj : j < 3) (hij : i ≠ j)
    (hl : l.length = 3) (hX : L l i = (X : Int))
    (hQ : ∀ m' σ'', Tmps σ 3 T (L ((l.set i ((X / D : Nat) : Int)).set j ((X % D : Nat) : Int))) σ'' → R2 m' σ'' → Q MP_OK m') :
    wp env E (mp_int_div (T i) den (some (T i)) (some (T j))) Q m := by
  have hD0 : (D : Int) ≠ 0 := by omega
  have gi := g.get i hi
  rw [hX] at gi
  refine mp_int_div_spec hE h gi (g.out hd) (fun e => g.neq i j hij hi hj (Option.some.inj e))
    (by rintro _ ⟨⟩; exact ⟨⟨_, gi⟩, g.ow i hi⟩) (by rintro _ ⟨⟩; exact ⟨⟨_, g.get j hj⟩, g.ow j hj⟩) (fun e => absurd e hD0)
    fun _ m2 h2 => ?_
  exact hQ m2 _ ((g.lset i _ hi (by omega)).lset j _ hj (by simp; omega)) h2

theorem decDigits_spec {Q : Int × Nat → Mem → Prop} {den : Id} {T : Nat → Id} {D prec : Nat} (hE : Ref env E)
    (hr : r < 2 ^ 32) (hD : 0 < D) (hp : prec < 2147483648) (hd : σ den = some (D : Int))
    (g : Tmps σ 3 T (L [x, 0, 0]) σ') (h : R2 m σ')
    (hQ : ∀ m' σ'' j, j ≤ prec → (j = prec ∨ D ≤ x.natAbs % D * r ^ j) → (∀ i, i < j → x.natAbs % D * r ^ i < D) →
      Tmps σ 3 T (L [((x.natAbs / D : Nat) : Int), ((x.natAbs % D * r ^ prec / D : Nat) : Int),
        ((x.natAbs % D * r ^ prec % D : Nat) : Int)]) σ'' → R2 m' σ'' → Q (MP_OK, j) m') :
    wp env E (decDigits den (T 0) (T 1) (T 2) r (prec : Int)) Q m := by
  have s1 : SMALL_MIN < (r : Int) := by omega
  have s2 : (r : Int) ≤ SMALL_MAX := by omega
  unfold decDigits
  refine wp_bind (mp_int_abs_spec hE h (g.get 0) (g.get 0) (g.ow 0) fun m1 h1 => ?_)
  obtain ⟨σ1, r1, g1⟩ := g.up 0 h1
  tsimp at g1
  rw [Int.abs_eq_natAbs] at g1
  generalize x.natAbs = X at *
  refine wp_bind (decDiv_spec (X := X) hE hD hd g1 r1 (by decide) (by decide) (by decide) rfl rfl fun m2 σ2 g2 r2 => ?_)
  refine wp_if_neg (by simp) ?_
  tsimp at g2
  refine wp_bind (decLead_spec hE hr hd _ 0 _ m2 σ2 g2 r2 fun m3 σ3 j hj h2 h3 g3 r3 => ?_)
  rw [Nat.zero_add]
  rw [Int.toNat_natCast] at hj h2
  refine wp_if_neg (by simp) ?_
  generalize X % D = R at *
  refine wp_bind (wp_mono (Q := fun res m4 => res = MP_OK ∧ ∃ w σ4,
    Tmps σ 3 T (L [((X / D : Nat) : Int), ((R * r ^ prec : Nat) : Int), w]) σ4 ∧ R2 m4 σ4) ?_ ?_)
  · refine wp_cif (fun hc => ?_) fun hc => wp_pure ⟨rfl, 0, σ3, ?_, r3⟩
    · refine wp_require (mp_int_expt_value_spec hE r3 s1 s2 (g3.get 2) (g3.ow 2) (fun h => by omega) fun _ m4 h4 => ⟨rfl, ?_⟩)
      have e : (((prec : Int) - (j : Int)) % 2 ^ 32).toNat = prec - j := by omega
      rw [e] at h4
      obtain ⟨σ4, r4, g4⟩ := g3.up 2 h4
      tsimp at g4
      refine mp_int_mul_spec hE r4 (g4.get 1) (g4.get 2) (g4.get 1) (g4.ow 1) fun m5 h5 => ?_
      obtain ⟨σ5, r5, g5⟩ := g4.up 1 h5
      tsimp at g5
      refine ⟨rfl, (r : Int) ^ (prec - j), σ5, ?_, r5⟩
      have e : ((R * r ^ prec : Nat) : Int) = ((R * r ^ j : Nat) : Int) * (r : Int) ^ (prec - j) := by
        push_cast; rw [mul_assoc, ← pow_add]; congr 2; omega
      rw [e]; exact g5
    · have : j = prec := by omega
      rw [← this]; exact g3
  · rintro res m4 ⟨rfl, w, σ4, g4, r4⟩
    refine wp_if_neg (by simp) ?_
    refine wp_bind (decDiv_spec (X := R * r ^ prec) hE hD hd g4 r4 (by decide) (by decide) (by decide) rfl rfl fun m5 σ5 g5 r5 => ?_)
    tsimp at g5
    exact wp_pure (hQ m5 σ5 j hj h2 h3 g5 r5)

/-- The condition under which the last digit is increased -/
def Bump (round D t : Nat) : Prop := (round = 1 ∧ D ≤ 2 * t) ∨ (round = 2 ∧ t ≠ 0) ∨ (round = 3 ∧ D < 2 * t)

instance (round D t : Nat) : Decidable (Bump round D t) := by unfold Bump; infer_instance

theorem decIncr_spec {Q : Int → Mem → Prop} {T : Nat → Id} {I A prec : Nat} (hE : Ref env E)
    (g : Tmps σ 3 T (L [(I : Int), (A : Int), w]) σ') (h : R2 m σ')
    (hQ : ∀ m' σ'', Tmps σ 3 T (L [((I + if prec = 0 then 1 else 0 : Nat) : Int),
      ((A + if prec = 0 then 0 else 1 : Nat) : Int), w]) σ'' → R2 m' σ'' → Q MP_OK m') :
    wp env E (decIncr (T 0) (T 1) prec) Q m := by
  unfold decIncr
  refine wp_ite (fun hp => ?_) fun hp => ?_
  · refine mp_int_add_value_spec hE (by norm_num) (by norm_num) h (g.get 0) (g.get 0) (g.ow 0) fun m1 h1 => ?_
    obtain ⟨σ1, r1, g1⟩ := g.up 0 h1
    tsimp at g1
    refine hQ m1 σ1 ?_ r1
    rw [if_pos hp, if_pos hp]; exact g1
  · refine mp_int_add_value_spec hE (by norm_num) (by norm_num) h (g.get 1) (g.get 1) (g.ow 1) fun m1 h1 => ?_
    obtain ⟨σ1, r1, g1⟩ := g.up 1 h1
    tsimp at g1
    refine hQ m1 σ1 ?_ r1
    rw [if_neg hp, if_neg hp]; exact g1

/-- A precision from 2^31 on is the same as 0 here. -/
theorem decDigits_toInt32 {den t0 t1 t2 : Id} {prec : Nat} (hp : prec < 4294967296) :
    decDigits den t0 t1 t2 r (toInt32 prec) = decDigits den t0 t1 t2 r ((if prec < 2147483648 then prec else 0 : Nat) : Int) := by
  have e : u32 prec = prec := Nat.mod_eq_of_lt (by omega)
  unfold toInt32
  rw [e]
  by_cases h : prec < 2147483648
  · rw [if_pos h, if_pos h]
  · rw [if_neg h, if_neg h]
    unfold decDigits
    have e1 : ((prec : Int) - 4294967296).toNat = ((0 : Nat) : Int).toNat := by omega
    have e2 : ∀ n : Nat, ((prec : Int) - 4294967296 > (n : Int)) = False := fun n => by simp; omega
    have e3 : ∀ n : Nat, (((0 : Nat) : Int) > (n : Int)) = False := fun n => by simp
    simp only [e1, e2, e3, cif, if_false]

theorem decRound_spec {Q : Int × Bool → Mem → Prop} {den : Id} {T : Nat → Id} {I A t D prec round : Nat} (hE : Ref env E)
    (hd : σ den = some (D : Int)) (hm : round ≤ 3)
    (g : Tmps σ 3 T (L [(I : Int), (A : Int), (t : Int)]) σ') (h : R2 m σ')
    (hQ : ∀ m' σ'' w, Tmps σ 3 T (L [((I + if Bump round D t ∧ prec = 0 then 1 else 0 : Nat) : Int),
      ((A + if Bump round D t ∧ prec ≠ 0 then 1 else 0 : Nat) : Int), w]) σ'' → R2 m' σ'' → Q (MP_OK, false) m') :
    wp env E (decRound den (T 0) (T 1) (T 2) prec round) Q m := by
  have up : Bump round D t → ∀ m1 σ1 w, Tmps σ 3 T (L [(I : Int), (A : Int), w]) σ1 → R2 m1 σ1 →
      wp env E (do let res ← decIncr (T 0) (T 1) prec; pure (res, false)) Q m1 := fun hb m1 σ1 w g1 r1 => by
    refine wp_bind (decIncr_spec hE g1 r1 fun m2 σ2 g2 r2 => wp_pure (hQ m2 σ2 w ?_ r2))
    by_cases hp : prec = 0 <;> simpa [hb, hp] using g2
  have stay : ¬ Bump round D t → ∀ m1 σ1 w, Tmps σ 3 T (L [(I : Int), (A : Int), w]) σ1 → R2 m1 σ1 →
      wp env E (pure (MP_OK, false)) Q m1 := fun hb m1 σ1 w g1 r1 => by
    refine wp_pure (hQ m1 σ1 w ?_ r1)
    simpa [hb] using g1
  unfold decRound MP_ROUND_UP MP_ROUND_HALF_UP MP_ROUND_HALF_DOWN MP_ROUND_DOWN
  refine wp_ite (fun h2 => ?_) fun h2 => wp_ite (fun h13 => ?_) fun h13 => wp_ite (fun h0 => ?_) fun h0 => by omega
  · refine wp_bind (mp_int_compare_zero_spec h (g.get 2) ?_)
    have e : (L [(I : Int), (A : Int), (t : Int)] 2).sign = 0 ↔ t = 0 := by
      rw [Int.sign_eq_zero_iff_zero]; simp [L]
    refine wp_ite (fun hc => up ?_ m σ' _ g h) fun hc => stay ?_ m σ' _ g h
    · exact .inr (.inl ⟨h2, fun e' => hc (e.2 e')⟩)
    · have : t = 0 := by by_contra e'; exact hc fun e'' => e' (e.1 e'')
      unfold Bump; omega
  · refine wp_bind (mp_int_mul_pow2_spec hE h (g.get 2) (g.get 2) (g.ow 2) (by norm_num) fun m1 h1 => ?_)
    obtain ⟨σ1, r1, g1⟩ := g.up 2 h1
    tsimp at g1
    refine wp_if_neg (by simp) (wp_bind (mp_int_compare_spec r1 (g1.get 2) (g1.out hd) ?_))
    have e1 : cmpZ (L [(I : Int), (A : Int), (t : Int) * 2 ^ 1] 2) (D : Int) = cmpZ ((t : Int) * 2) D := by simp [L]
    rw [e1]
    have e2 : (if round = 1 then cmpZ ((t : Int) * 2) D + 1 else cmpZ ((t : Int) * 2) D) > 0 ↔ Bump round D t := by
      unfold Bump cmpZ
      split <;> split <;> (try split) <;> omega
    refine wp_ite (fun hc => up (e2.1 hc) m1 σ1 _ g1 r1) fun hc => stay (fun hb => hc (e2.2 hb)) m1 σ1 _ g1 r1
  · exact stay (by unfold Bump; omega) m σ' _ g h

theorem bfill_spec {Q : Bytes → Mem → Prop} {ch : Nat} : ∀ (n : Nat) (P T : Bytes), n ≤ T.length →
    Q (P ++ (List.replicate n ch ++ T.drop n)) m → wp env E (bfill ch n (P ++ T) P.length) Q m := by
  intro n
  induction n with
  | zero => intro P T _ hQ; exact wp_pure (by simpa using hQ)
  | succ n ih =>
    intro P T hl hQ
    rcases T with _ | ⟨u, T⟩
    · simp at hl
    unfold bfill
    refine wp_bind (wp_bset (by simp) ?_)
    rw [set_append_len, show P.length + 1 = (P ++ [ch]).length by simp]
    refine ih (P ++ [ch]) T (by simpa using hl) ?_
    simpa [List.replicate_succ] using hQ

/-- The text that is written, whether correct or not -/
def decRaw (r prec lead : Nat) (neg : Bool) (I A : Nat) : Bytes :=
  (if neg = true then [45] else []) ++ numeralN r I ++
    if prec = 0 then [] else 46 :: (List.replicate (lead - 1) 48 ++ numeralN r A)

theorem decFrac_spec {Q : Int × Bytes → Mem → Prop} {t1 : Id} {A prec lead : Nat} {left : Int} {P T : Bytes} (hE : Ref env E)
    (hr2 : 2 ≤ r) (hr : r ≤ 36) (hp : (prec : Int) + 1 < 2147483648) (h : R2 m σ) (ht : σ t1 = some (A : Int)) (hl : 0 < lead)
    (hleft : (prec : Int) + 2 ≤ left) (hleft' : (lead : Int) + 1 + (numeralN r A).length < left)
    (hT : 1 + (lead - 1) + (numeralN r A).length + 1 ≤ T.length)
    (hQ : ∀ m', R2 m' σ → Q (MP_OK, P ++ ((46 :: (List.replicate (lead - 1) 48 ++ numeralN r A)) ++
      0 :: T.drop (1 + (lead - 1) + (numeralN r A).length + 1))) m') :
    wp env E (decFrac t1 r prec lead (P ++ T) P.length left) Q m := by
  unfold decFrac
  rcases T with _ | ⟨u, T⟩
  · simp at hT
  simp only [List.length_cons] at hT
  refine wp_bind (wp_bset (by simp) ?_)
  rw [set_append_len]
  have b2 : (prec : Int) + 1 ≤ 2147483647 := by omega
  have b1 : -2147483648 ≤ (prec : Int) + 1 := by omega
  generalize hz : (prec : Int) + 1 = z at *
  refine wp_bind (wp_cint b1 b2 ?_)
  refine wp_if_neg (by omega) (wp_if_neg (by omega) ?_)
  rw [show P.length + 1 = (P ++ [46]).length by simp]
  refine wp_bind (bfill_spec _ (P ++ [46]) T (by omega) ?_)
  have e : (P ++ [46]) ++ (List.replicate (lead - 1) 48 ++ T.drop (lead - 1)) =
    (P ++ [46] ++ List.replicate (lead - 1) 48) ++ T.drop (lead - 1) := by simp
  have e2 : List.length (P ++ [46]) + (lead - 1) = List.length (P ++ [46] ++ List.replicate (lead - 1) 48) := by simp; omega
  rw [e, e2]
  have hn := numeralN_pos r A hr2
  refine wp_atOff (mp_int_to_string_spec hE hr2 hr (by omega) ?_ h ht (fun m2 h2 _ => ?_) fun _ _ _ h1 => ?_)
  · rw [numeral_nat, List.length_drop]; omega
  · have := hQ m2 h2
    rw [numeral_nat]
    rw [show 1 + (lead - 1) + (numeralN r A).length + 1 = ((lead - 1) + ((numeralN r A).length + 1)) + 1 by omega,
      List.drop_succ_cons] at this
    simpa [List.drop_drop] using this
  · rw [numeral_nat] at h1; omega

theorem decOut_spec {Q : Int × Bytes → Mem → Prop} {num t0 t1 : Id} {I A prec lead : Nat} (hE : Ref env E)
    (hr2 : 2 ≤ r) (hr : r ≤ 36) (hp : (prec : Int) + 1 < 2147483648) (h : R2 m σ) (hn : σ num = some x)
    (h0 : σ t0 = some (I : Int)) (h1 : σ t1 = some (A : Int)) (hl : 0 < prec → 0 < lead) (hl2 : lead ≤ prec)
    (hfit : ((decRaw r prec lead (decide (x < 0 ∧ (I ≠ 0 ∨ A ≠ 0))) I A).length : Int) + (if prec = 0 then 1 else 2) ≤ limit)
    (hfit2 : 0 < prec → prec ≤ lead - 1 + (numeralN r A).length)
    (hbuf : (decRaw r prec lead (decide (x < 0 ∧ (I ≠ 0 ∨ A ≠ 0))) I A).length + 1 ≤ str.length)
    (hQ : ∀ m', R2 m' σ → Q (MP_OK, decRaw r prec lead (decide (x < 0 ∧ (I ≠ 0 ∨ A ≠ 0))) I A ++
      0 :: str.drop ((decRaw r prec lead (decide (x < 0 ∧ (I ≠ 0 ∨ A ≠ 0))) I A).length + 1)) m') :
    wp env E (decOut num t0 t1 r prec prec lead str limit) Q m := by
  unfold decOut
  refine wp_bind (MP_SIGN_spec h hn (wp_bind (mp_int_compare_zero_spec h h0 (wp_bind (mp_int_compare_zero_spec h h1 ?_)))))
  have e : decide (decide (x < 0) = true ∧ ((I : Int).sign ≠ 0 ∨ (A : Int).sign ≠ 0)) = decide (x < 0 ∧ (I ≠ 0 ∨ A ≠ 0)) := by
    simp [Int.sign_eq_zero_iff_zero]
  rw [e]
  clear e
  generalize decide (x < 0 ∧ (I ≠ 0 ∨ A ≠ 0)) = neg at *
  have hn := numeralN_pos r I hr2
  have hlen : (decRaw r prec lead neg I A).length = (if neg = true then 1 else 0) + (numeralN r I).length +
      if prec = 0 then 0 else 1 + (lead - 1) + (numeralN r A).length := by
    unfold decRaw
    rw [List.length_append, List.length_append]
    congr 1
    · congr 1; split <;> rfl
    · split
      · rfl
      · simp; omega
  -- the sign
  refine wp_bind (wp_mono (Q := fun s m' => m' = m ∧ s = (if neg = true then [45] else []) ++ str.drop (if neg = true then 1 else 0)) ?_ ?_)
  · refine wp_cif (fun hc => ?_) fun hc => wp_pure ⟨rfl, by simp [hc]⟩
    rcases str with _ | ⟨u, T⟩
    · simp at hbuf
    refine wp_bset (by simp) ⟨rfl, by simp [hc]⟩
  rintro _ _ ⟨rfl, rfl⟩
  generalize hP : (if neg = true then [45] else [] : Bytes) = P at *
  have hPl : (if neg = true then 1 else 0) = P.length := by rw [← hP]; split <;> rfl
  have hraw : decRaw r prec lead neg I A = P ++ (numeralN r I ++
      if prec = 0 then [] else 46 :: (List.replicate (lead - 1) 48 ++ numeralN r A)) := by
    unfold decRaw; rw [hP, List.append_assoc]
  rw [hPl] at hlen ⊢
  refine wp_bind (wp_atOff (mp_int_to_string_spec hE hr2 hr ?_ ?_ h h0 (fun m2 h2 _ => ?_) fun _ _ _ h1 => ?_))
  · split at hlen <;> split at hfit <;> omega
  · rw [numeral_nat, List.length_drop]; split at hlen <;> omega
  · rw [numeral_nat]
    dsimp only
    refine wp_if_neg (by simp) (wp_bind ?_)
    refine strlen_exact (by rw [← numeral_nat]; exact numeral_zero_notin hr2 hr _) (by simp; omega) ?_
    refine wp_ite (fun hp0 => wp_pure ?_) fun hp0 => ?_
    · have := hQ m2 h2
      rw [hlen, hraw, if_pos hp0, if_pos hp0] at this
      simpa [List.drop_drop, Nat.add_assoc] using this
    · rw [if_neg hp0] at hlen hraw
      rw [if_neg hp0] at hfit
      rw [← List.append_assoc, ← List.length_append]
      have hA := hfit2 (by omega)
      have hLA := hl (by omega)
      refine decFrac_spec hE hr2 hr hp h2 h1 (hl (by omega)) (by omega) (by omega) (by simp; omega) fun m3 h3 => ?_
      have := hQ m3 h3
      rw [hlen, hraw] at this
      have e : ∀ (u v : Nat) (S : Bytes), (0 :: S.drop (u + 1)).drop (v + 1) = S.drop (u + v + 1) := fun u v S => by
        rw [List.drop_succ_cons, List.drop_drop]; congr 1; omega
      rw [List.drop_drop, ← Nat.add_assoc, e]
      rw [show P.length + (numeralN r I).length + (1 + (lead - 1) + (numeralN r A).length) + 1 =
        P.length + (numeralN r I).length + (1 + (lead - 1) + (numeralN r A).length) + 1 from rfl] at this
      simpa [Nat.add_assoc] using this
  · rw [numeral_nat] at h1; split at hlen <;> split at hfit <;> omega

/-! ### The whole function -/

theorem dec_frac {n D prec j A b : Nat} (hr2 : 2 ≤ r) (hD : 0 < D) (hp : 0 < prec) (hj : j ≤ prec)
    (h2 : j = prec ∨ D ≤ n % D * r ^ j) (h3 : ∀ i, i < j → n % D * r ^ i < D) (hA : A = n % D * r ^ prec / D)
    (hb : b = 0 ∨ (b = 1 ∧ ∀ k, 0 < k → A + 1 ≠ r ^ k)) :
    0 < j ∧ A + b < r ^ prec ∧ prec ≤ j - 1 + (numeralN r (A + b)).length ∧
    List.replicate (j - 1) 48 ++ numeralN r (A + b) = fixedDigits r prec (A + b) := by
  have hR : n % D < D := Nat.mod_lt _ hD
  generalize n % D = R at *
  have hj0 : 0 < j := by
    by_contra h0
    have : j = 0 := by omega
    subst this
    rcases h2 with h2 | h2
    · omega
    · rw [Nat.pow_zero] at h2; omega
  obtain ⟨k, hk⟩ : ∃ k, prec = j + k := ⟨prec - j, by omega⟩
  obtain ⟨i, rfl⟩ : ∃ i, j = i + 1 := ⟨j - 1, by omega⟩
  have hlt : A < r ^ (k + 1) := by
    rw [hA, Nat.div_lt_iff_lt_mul hD, hk, show i + 1 + k = i + (k + 1) by omega, Nat.pow_add, ← Nat.mul_assoc, Nat.mul_comm _ D]
    exact Nat.mul_lt_mul_of_pos_right (h3 i (by omega)) (Nat.pow_pos (by omega))
  have hge : k = 0 ∨ r ^ k ≤ A := by
    rcases h2 with h2 | h2
    · left; omega
    · right
      rw [hA, Nat.le_div_iff_mul_le hD, hk, Nat.pow_add, ← Nat.mul_assoc, Nat.mul_comm _ D]
      exact Nat.mul_le_mul_right _ h2
  have hlt' : A + b < r ^ (k + 1) := by
    rcases hb with rfl | ⟨rfl, hb⟩
    · exact hlt
    · have := hb (k + 1) (by omega); omega
  have e := numeralN_fixed hr2 k hlt' (hge.imp id fun h => by omega)
  have hle : r ^ (k + 1) ≤ r ^ prec := Nat.pow_le_pow_right (by omega) (by omega)
  refine ⟨hj0, by omega, ?_, ?_⟩
  · rw [e, fixed_len]; omega
  · rw [e, ← fixed_pad hr2 _ _ hlt']; congr 1; omega

theorem dec_text {x : Int} {D prec j round I A t I' A' : Nat} {N F : Nat} (hr2 : 2 ≤ r) (hD : 0 < D) (hm : round ≤ 3) (hj : j ≤ prec)
    (h2 : j = prec ∨ D ≤ x.natAbs % D * r ^ j) (h3 : ∀ i, i < j → x.natAbs % D * r ^ i < D)
    (hI : I = x.natAbs / D) (hA : A = x.natAbs % D * r ^ prec / D) (ht : t = x.natAbs % D * r ^ prec % D)
    (hI' : I' = I + if Bump round D t ∧ prec = 0 then 1 else 0) (hA' : A' = A + if Bump round D t ∧ prec ≠ 0 then 1 else 0)
    (hN : N = roundQ round ((x.natAbs : ℚ) / D * r ^ prec)) (hF : F = roundQ 0 ((x.natAbs : ℚ) / D * r ^ prec))
    (hc : ¬ Carries r prec F N) :
    decRaw r prec j (decide (x < 0 ∧ (I' ≠ 0 ∨ A' ≠ 0))) I' A' = decText r prec (x < 0) N ∧ (0 < prec → 0 < j) ∧
    (0 < prec → prec ≤ j - 1 + (numeralN r A').length) := by
  have ePD : x.natAbs * r ^ prec = D * (I * r ^ prec) + x.natAbs % D * r ^ prec := by
    have := Nat.div_add_mod x.natAbs D
    rw [← hI] at this
    rw [← Nat.mul_assoc, ← Nat.add_mul, this]
  have e1 : x.natAbs * r ^ prec / D = I * r ^ prec + A := by rw [ePD, Nat.mul_add_div hD, ← hA]
  have e2 : x.natAbs * r ^ prec % D = t := by rw [ePD, Nat.mul_add_mod, ← ht]
  have e3 : (x.natAbs : ℚ) / D * r ^ prec = ((x.natAbs * r ^ prec : Nat) : ℚ) / D := by push_cast; ring
  rw [e3, roundQ_eq hD hm, e1, e2] at hN
  rw [e3, roundQ_eq hD (by omega), e1, if_neg (by simp)] at hF
  replace hF : F = I * r ^ prec + A := hF
  change N = _ + if Bump round D t then 1 else 0 at hN
  rcases Nat.eq_zero_or_pos prec with rfl | hp
  · have hA0 : A = 0 := by rw [hA, Nat.pow_zero, Nat.mul_one]; exact Nat.div_eq_of_lt (Nat.mod_lt _ hD)
    have hN' : N = I' := by rw [hN, hI', hA0]; simp
    have hA'0 : A' = 0 := by rw [hA', hA0]; simp
    refine ⟨?_, by omega, by omega⟩
    unfold decRaw decText
    rw [hN', hA'0]; simp
  · have hI2 : I' = I := by rw [hI', if_neg (by omega)]; omega
    have hA2 : A' = A + if Bump round D t then 1 else 0 := by
      rw [hA']; congr 1; apply if_congr _ rfl rfl
      simp; omega
    obtain ⟨f1, f2, f3, f4⟩ := dec_frac (b := if Bump round D t then 1 else 0) hr2 hD hp hj h2 h3 hA (by
      by_cases hb : Bump round D t
      · right
        refine ⟨if_pos hb, fun k hk e => hc ⟨hp, ?_, k, hk, ?_⟩⟩
        · rw [hN, hF, if_pos hb]; omega
        · rw [hF]
          rw [Nat.mul_comm I, Nat.mul_add_mod, Nat.mod_eq_of_lt, e]
          have hlt : x.natAbs % D * r ^ prec < D * r ^ prec := Nat.mul_lt_mul_of_pos_right (Nat.mod_lt _ hD) (Nat.pow_pos (by omega))
          rw [hA, Nat.div_lt_iff_lt_mul hD, Nat.mul_comm _ D]; exact hlt
      · left; exact if_neg hb)
    rw [← hA2] at f2 f3 f4
    refine ⟨?_, fun _ => f1, fun _ => f3⟩
    have hN2 : N = r ^ prec * I + A' := by rw [hN, hA2]; ring
    have g1 : N / r ^ prec = I := by
      rw [hN2, Nat.mul_add_div (Nat.pow_pos (by omega)), Nat.div_eq_of_lt f2, Nat.add_zero]
    have g2 : N % r ^ prec = A' := by rw [hN2, Nat.mul_add_mod, Nat.mod_eq_of_lt f2]
    have g3 : (I ≠ 0 ∨ A' ≠ 0) ↔ N ≠ 0 := by
      have : 0 < r ^ prec := Nat.pow_pos (by omega)
      constructor
      · rintro (h | h) e
        · rw [e, Nat.zero_div] at g1; omega
        · rw [e, Nat.zero_mod] at g2; omega
      · intro h
        by_contra hh
        have hI0 : I = 0 := by omega
        have hA0 : A' = 0 := by omega
        rw [hI0, hA0, Nat.mul_zero] at hN2; exact h hN2
    unfold decRaw decText
    rw [hI2, g1, f4, if_neg (show ¬ prec = 0 by omega), ← fixed_mod hr2 prec N, g2]
    simp only [decide_eq_true_eq, g3, show ¬ prec = 0 by omega, if_false]

theorem ratAbs_eq (q : ℚ) : |q| = (q.num.natAbs : ℚ) / q.den := by
  conv_lhs => rw [← Rat.num_div_den q]
  rw [abs_div, Nat.abs_cast, ← Int.cast_abs, Int.abs_eq_natAbs, Int.cast_natCast]

/-- With the text left open -/
theorem mp_rat_to_decimal_core {Q : Int × Bytes → Mem → Prop} {prec round : Nat} {x : Int} {D : Nat} {w : Bytes} (hE : Ref env E) (hr2 : 2 ≤ r) (hr : r ≤ 36)
    (hm : round ≤ 3) (hp : prec < 2147483647) (h : R2 m σ) (hD : 0 < D) (hnum : σ a.num = some x) (hden : σ a.den = some (D : Int))
    (hw : ∀ j I' A', j ≤ prec → (j = prec ∨ D ≤ x.natAbs % D * r ^ j) → (∀ i, i < j → x.natAbs % D * r ^ i < D) →
      I' = x.natAbs / D + (if Bump round D (x.natAbs % D * r ^ prec % D) ∧ prec = 0 then 1 else 0) →
      A' = x.natAbs % D * r ^ prec / D + (if Bump round D (x.natAbs % D * r ^ prec % D) ∧ prec ≠ 0 then 1 else 0) →
      decRaw r prec j (decide (x < 0 ∧ (I' ≠ 0 ∨ A' ≠ 0))) I' A' = w ∧ (0 < prec → 0 < j) ∧ (0 < prec → prec ≤ j - 1 + (numeralN r A').length))
    (hfit : (w.length : Int) + (if prec = 0 then 1 else 2) ≤ limit) (hbuf : w.length + 1 ≤ str.length)
    (hQ : ∀ m', R2 m' σ → Q (MP_OK, w ++ 0 :: str.drop (w.length + 1)) m') :
    wp env E (mp_rat_to_decimal a r prec round str limit) Q m := by
  unfold mp_rat_to_decimal
  refine wp_bind (wp_mono (withLocalL_spec (Q := fun o m' => wp env E (pure o.1) Q m') (v := x) h (Tmps.nil σ (fun _ => .tmp 0) fun _ => 0)
    (fun t m1 P h1 hd' hn ho hP => mp_int_init_copy_spec hE h1 hd' hn hnum hP) fun t m1 g h1 => ?_) fun _ _ h => TDone.elim h.2)
  refine withLocalL_spec (v := 0) h1 g (fun t m1 P h1 hd' hn ho hP => mp_int_init_spec h1 hd' hn hP) fun t' m2 g2 h2 => ?_
  refine withLocalL_spec (v := 0) h2 g2 (fun t m1 P h1 hd' hn ho hP => mp_int_init_spec h1 hd' hn hP) fun t'' m3 g3 h3 => ?_
  have g3 : Tmps σ 3 (nset (nset (nset (fun _ => .tmp 0) 0 t) 1 t') 2 t'') (L [x, 0, 0]) _ :=
    g3.congr (fun _ _ => rfl) fun i hi => by
      rcases show i = 0 ∨ i = 1 ∨ i = 2 by omega with rfl | rfl | rfl <;> rfl
  have e0 : nset (nset (nset (fun _ => Id.tmp 0) 0 t) 1 t') 2 t'' 0 = t := rfl
  have e1 : nset (nset (nset (fun _ => Id.tmp 0) 0 t) 1 t') 2 t'' 1 = t' := rfl
  have e2 : nset (nset (nset (fun _ => Id.tmp 0) 0 t) 1 t') 2 t'' 2 = t'' := rfl
  generalize hT : nset (nset (nset (fun _ => Id.tmp 0) 0 t) 1 t') 2 t'' = T at *
  have hz : toInt32 prec = (prec : Int) := by
    have : u32 prec = prec := Nat.mod_eq_of_lt (by omega)
    unfold toInt32; rw [this, if_pos (by omega)]
  rw [hz]
  subst e0 e1 e2
  refine wp_bind (decDigits_spec hE (by omega) hD (by omega) hden g3 h3 fun m4 σ4 j hj j2 j3 g4 h4 => ?_)
  refine wp_if_neg (by simp) (wp_bind (decRound_spec hE hden hm g4 h4 fun m5 σ5 w' g5 h5 => ?_))
  refine wp_if_neg (by simp) (wp_bind ?_)
  obtain ⟨f1, f2, f3⟩ := hw j _ _ hj j2 j3 rfl rfl
  rw [← f1] at hfit hbuf hQ
  refine decOut_spec hE hr2 hr (by omega) h5 (g5.out hnum) (g5.get 0) (g5.get 1) f2 hj hfit f3 hbuf fun m6 h6 => wp_pure ⟨rfl, ?_⟩
  exact .mk g5 h6 fun m' h => wp_pure (hQ m' h)

theorem mp_rat_to_decimal_spec {Q : Int × Bytes → Mem → Prop} {prec round : Nat} (hE : Ref env E) (hr2 : 2 ≤ r) (hr : r ≤ 36)
    (hm : round ≤ 3) (hp : prec < 2147483647) (h : R2 m σ) (ha : HasQ2 σ a p)
    (hc : ¬ Carries r prec (roundQ 0 (|p| * r ^ prec)) (roundQ round (|p| * r ^ prec)))
    (hfit : ((decText r prec (p < 0) (roundQ round (|p| * r ^ prec))).length : Int) + (if prec = 0 then 1 else 2) ≤ limit)
    (hbuf : (decText r prec (p < 0) (roundQ round (|p| * r ^ prec))).length + 1 ≤ str.length)
    (hQ : ∀ m', R2 m' σ → Q (MP_OK, decText r prec (p < 0) (roundQ round (|p| * r ^ prec)) ++
      0 :: str.drop ((decText r prec (p < 0) (roundQ round (|p| * r ^ prec))).length + 1)) m') :
    wp env E (mp_rat_to_decimal a r prec round str limit) Q m := by
  have hD : 0 < p.den := p.den_pos
  have hneg : ∀ N, decText r prec (p < 0) N = decText r prec (p.num < 0) N := fun N => by
    unfold decText; simp only [Rat.num_neg]
  simp only [ratAbs_eq, hneg] at hc hfit hbuf hQ
  obtain ⟨hnum, hden⟩ := ha
  exact mp_rat_to_decimal_core hE hr2 hr hm hp h hD hnum hden
    (fun j I' A' hj j2 j3 hI hA => dec_text hr2 hD hm hj j2 j3 rfl rfl rfl hI hA rfl rfl hc) hfit hbuf hQ

/-! ### Carries -/

theorem dec_carry {x : Int} {D prec j round I A t I' A' : Nat} {N F : Nat} (hr2 : 2 ≤ r) (hD : 0 < D) (hm : round ≤ 3) (hj : j ≤ prec)
    (h2 : j = prec ∨ D ≤ x.natAbs % D * r ^ j) (h3 : ∀ i, i < j → x.natAbs % D * r ^ i < D)
    (hI : I = x.natAbs / D) (hA : A = x.natAbs % D * r ^ prec / D) (ht : t = x.natAbs % D * r ^ prec % D)
    (hI' : I' = I + if Bump round D t ∧ prec = 0 then 1 else 0) (hA' : A' = A + if Bump round D t ∧ prec ≠ 0 then 1 else 0)
    (hN : N = roundQ round ((x.natAbs : ℚ) / D * r ^ prec)) (hF : F = roundQ 0 ((x.natAbs : ℚ) / D * r ^ prec))
    (hc : Carries r prec F N) :
    decRaw r prec j (decide (x < 0 ∧ (I' ≠ 0 ∨ A' ≠ 0))) I' A' = carryText r prec (x < 0) F ∧ (0 < prec → 0 < j) ∧
    (0 < prec → prec ≤ j - 1 + (numeralN r A').length) := by
  have ePD : x.natAbs * r ^ prec = D * (I * r ^ prec) + x.natAbs % D * r ^ prec := by
    have := Nat.div_add_mod x.natAbs D
    rw [← hI] at this
    rw [← Nat.mul_assoc, ← Nat.add_mul, this]
  have e1 : x.natAbs * r ^ prec / D = I * r ^ prec + A := by rw [ePD, Nat.mul_add_div hD, ← hA]
  have e2 : x.natAbs * r ^ prec % D = t := by rw [ePD, Nat.mul_add_mod, ← ht]
  have e3 : (x.natAbs : ℚ) / D * r ^ prec = ((x.natAbs * r ^ prec : Nat) : ℚ) / D := by push_cast; ring
  rw [e3, roundQ_eq hD hm, e1, e2] at hN
  rw [e3, roundQ_eq hD (by omega), e1, if_neg (by simp)] at hF
  replace hF : F = I * r ^ prec + A := hF
  change N = _ + if Bump round D t then 1 else 0 at hN
  obtain ⟨hp, hNF, K, hK, hcar⟩ := hc
  have hb : Bump round D t := by
    by_contra hb
    rw [if_neg hb] at hN; exact hNF (by rw [hN, hF]; rfl)
  have hlt0 : A < r ^ prec := by
    have hlt : x.natAbs % D * r ^ prec < D * r ^ prec := Nat.mul_lt_mul_of_pos_right (Nat.mod_lt _ hD) (Nat.pow_pos (by omega))
    rw [hA, Nat.div_lt_iff_lt_mul hD, Nat.mul_comm _ D]; exact hlt
  have eF : F % r ^ prec = A ∧ F / r ^ prec = I := by
    rw [hF, Nat.mul_comm I]
    exact ⟨by rw [Nat.mul_add_mod, Nat.mod_eq_of_lt hlt0], by rw [Nat.mul_add_div (Nat.pow_pos (by omega)), Nat.div_eq_of_lt hlt0, Nat.add_zero]⟩
  rw [eF.1] at hcar
  have hI2 : I' = I := by rw [hI', if_neg (by omega)]; omega
  have hA2 : A' = A + 1 := by rw [hA', if_pos ⟨hb, by omega⟩]
  have hR : x.natAbs % D < D := Nat.mod_lt _ hD
  generalize x.natAbs % D = R at *
  have hj0 : 0 < j := by
    by_contra h0
    have : j = 0 := by omega
    subst this
    rcases h2 with h2 | h2
    · omega
    · rw [Nat.pow_zero] at h2; omega
  obtain ⟨k, hk⟩ : ∃ k, prec = j + k := ⟨prec - j, by omega⟩
  obtain ⟨i, rfl⟩ : ∃ i, j = i + 1 := ⟨j - 1, by omega⟩
  have hlt : A < r ^ (k + 1) := by
    rw [hA, Nat.div_lt_iff_lt_mul hD, hk, show i + 1 + k = i + (k + 1) by omega, Nat.pow_add, ← Nat.mul_assoc, Nat.mul_comm _ D]
    exact Nat.mul_lt_mul_of_pos_right (h3 i (by omega)) (Nat.pow_pos (by omega))
  have hge : k = 0 ∨ r ^ k ≤ A := by
    rcases h2 with h2 | h2
    · left; omega
    · right
      rw [hA, Nat.le_div_iff_mul_le hD, hk, Nat.pow_add, ← Nat.mul_assoc, Nat.mul_comm _ D]
      exact Nat.mul_le_mul_right _ h2
  have hKk : k + 1 ≤ K := by
    rcases hge with rfl | hge
    · omega
    · by_contra hlt'
      have := Nat.pow_le_pow_right (show 0 < r by omega) (show K ≤ k by omega)
      omega
  have hAeq : A + 1 = r ^ (k + 1) := by
    have := Nat.pow_le_pow_right (show 0 < r by omega) hKk
    omega
  have hlt2 : A + 1 < r ^ (k + 1 + 1) := by
    rw [hAeq]; exact Nat.pow_lt_pow_right (by omega) (by omega)
  have e := numeralN_fixed hr2 (k + 1) hlt2 (.inr (by omega))
  refine ⟨?_, fun _ => by omega, fun _ => ?_⟩
  · unfold decRaw carryText
    rw [hI2, hA2, eF.1, eF.2, if_neg (by omega : ¬ prec = 0), e]
    have e4 : fixedDigits r (prec + 1) (A + 1) = List.replicate i 48 ++ fixedDigits r (k + 1 + 1) (A + 1) := by
      rw [← fixed_pad hr2 _ _ hlt2]; congr 1; omega
    rw [e4]
    simp
  · rw [hA2, e, fixed_len]; omega

theorem mp_rat_to_decimal_carry {Q : Int × Bytes → Mem → Prop} {prec round : Nat} (hE : Ref env E) (hr2 : 2 ≤ r) (hr : r ≤ 36)
    (hm : round ≤ 3) (hp : prec < 2147483647) (h : R2 m σ) (ha : HasQ2 σ a p)
    (hc : Carries r prec (roundQ 0 (|p| * r ^ prec)) (roundQ round (|p| * r ^ prec)))
    (hfit : ((carryText r prec (p < 0) (roundQ 0 (|p| * r ^ prec))).length : Int) + 2 ≤ limit)
    (hbuf : (carryText r prec (p < 0) (roundQ 0 (|p| * r ^ prec))).length + 1 ≤ str.length)
    (hQ : ∀ m', R2 m' σ → Q (MP_OK, carryText r prec (p < 0) (roundQ 0 (|p| * r ^ prec)) ++
      0 :: str.drop ((carryText r prec (p < 0) (roundQ 0 (|p| * r ^ prec))).length + 1)) m') :
    wp env E (mp_rat_to_decimal a r prec round str limit) Q m := by
  have hD : 0 < p.den := p.den_pos
  have hneg : ∀ N, carryText r prec (p < 0) N = carryText r prec (p.num < 0) N := fun N => by
    unfold carryText; simp only [Rat.num_neg]
  simp only [ratAbs_eq, hneg] at hc hfit hbuf hQ
  obtain ⟨hnum, hden⟩ := ha
  have hp0 : ¬ prec = 0 := by have := hc.1; omega
  exact mp_rat_to_decimal_core hE hr2 hr hm hp h hD hnum hden
    (fun j I' A' hj j2 j3 hI hA => dec_carry hr2 hD hm hj j2 j3 rfl rfl rfl hI hA rfl rfl hc) (by rw [if_neg hp0]; exact hfit) hbuf hQ

theorem digitChar_ne_point {d : Nat} : digitChar d ≠ 46 := by unfold digitChar; split <;> omega

theorem fixed_no_point (r k n : Nat) : 46 ∉ fixedDigits r k n := by
  induction k generalizing n with
  | zero => simp [fixedDigits]
  | succ k ih => unfold fixedDigits; simp [ih, digitChar_ne_point.symm]

/-- The text is never that of a number with `prec` digits. -/
theorem carry_ne {r prec F N : Nat} {neg : Prop} [Decidable neg] (hp : 0 < prec) : carryText r prec neg F ≠ decText r prec neg N := by
  intro h
  unfold carryText decText at h
  rw [if_neg (by omega : ¬ prec = 0)] at h
  have h2 := congrArg List.reverse h
  simp only [List.reverse_append, List.reverse_cons, List.append_assoc] at h2
  have key : ∀ (a b s t : List Nat), 46 ∉ a → 46 ∉ b → a ++ ([46] ++ s) = b ++ ([46] ++ t) → a.length = b.length := by
    intro a
    induction a with
    | nil =>
      intro b s t _ hb h
      rcases b with _ | ⟨c, b⟩
      · rfl
      · simp at h; simp [← h.1] at hb
    | cons d a ih =>
      intro b s t ha hb h
      rcases b with _ | ⟨c, b⟩
      · simp at h; simp [h.1] at ha
      · simp only [List.cons_append, List.cons.injEq] at h
        simp only [List.mem_cons, not_or] at ha hb
        simp [ih b s t ha.2 hb.2 h.2]
  have := key _ _ _ _ (by simpa using fixed_no_point r _ _) (by simpa using fixed_no_point r _ _) h2
  simp [fixed_len] at this

end Imath
