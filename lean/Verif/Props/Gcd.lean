import Verif.Props.Expt
import Verif.Proof.Egcd
import Verif.Proof.Root

/-! # Properties C21 - C25: greatest common divisors, inverses, roots -/

namespace Imath

variable {env : Env} {m : Mem} {ρ : Nat → Option Int} {a b c : Nat} {x y w : Int} {X Y : Option Nat}

/-! ### C21 greatest common divisor -/

theorem C21_gcd (h : State m ρ) (ha : ρ a = some x) (hb : ρ b = some y) (hc : ρ c = some w) (h0 : x ≠ 0 ∨ y ≠ 0) :
    Runs env (mp_int_gcd (.var a) (.var b) (.var c)) m fun res m' =>
      res = MP_OK ∧ ∃ g : Nat, 0 < g ∧ (g : Int) ∣ x ∧ (g : Int) ∣ y ∧ (∀ d : Int, d ∣ x → d ∣ y → d ∣ g) ∧
        State m' (put ρ c g) := by
  refine .of_wp (mp_int_gcd_spec (ref_refused env) h.r2 ha hb hc rfl (fun h1 h2 => by omega) fun _ m' h' =>
    ⟨rfl, Int.gcd x y, ?_, Int.gcd_dvd_left .., Int.gcd_dvd_right .., fun d h1 h2 => Int.dvd_coe_gcd h1 h2, ?_⟩)
  · rw [Int.gcd_pos_iff]; exact h0
  · rw [upd_lift] at h'; exact h'.state

theorem C21_gcd_zero (h : State m ρ) (ha : ρ a = some 0) (hb : ρ b = some 0) (hc : ρ c = some w) :
    Runs env (mp_int_gcd (.var a) (.var b) (.var c)) m fun res m' => res = MP_UNDEF ∧ m' = m :=
  .of_wp (mp_int_gcd_spec (ref_refused env) h.r2 ha hb hc rfl (fun _ _ => ⟨rfl, rfl⟩) fun h0 => absurd ⟨rfl, rfl⟩ h0)

example : ∃ m, State m demo ∧ Runs env (mp_int_gcd (.var 0) (.var 1) (.var 1)) m fun res m' =>
      res = MP_OK ∧ ∃ g : Nat, 0 < g ∧ (g : Int) ∣ 2 ^ 100 + 1 ∧ (g : Int) ∣ -2 ^ 70 ∧
        (∀ d : Int, d ∣ 2 ^ 100 + 1 → d ∣ -2 ^ 70 → d ∣ g) ∧ State m' (put demo 1 g) :=
  let ⟨m, h⟩ := demo_state; ⟨m, h, C21_gcd h rfl rfl rfl (.inl (by norm_num))⟩

example : ∃ m, State m demo ∧ Runs env (mp_int_gcd (.var 2) (.var 2) (.var 1)) m fun res m' => res = MP_UNDEF ∧ m' = m :=
  let ⟨m, h⟩ := demo_state; ⟨m, h, C21_gcd_zero h rfl rfl rfl⟩

/-! ### C22 extended greatest common divisor -/

theorem egcdPut_lift (ρ : Nat → Option Int) (X Y : Option Nat) (c : Nat) (P R G : Int) :
    egcdPut (lift ρ) (ids X) (ids Y) (.var c) P R G = lift (put (putO (putO ρ X P) Y R) c G) := by
  unfold egcdPut; rw [updO_lift, updO_lift, upd_lift]

theorem isGcd (x y : Int) (h0 : x ≠ 0 ∨ y ≠ 0) : 0 < Int.gcd x y ∧ (Int.gcd x y : Int) ∣ x ∧ (Int.gcd x y : Int) ∣ y ∧
    ∀ d : Int, d ∣ x → d ∣ y → d ∣ Int.gcd x y :=
  ⟨Int.gcd_pos_iff.2 h0, Int.gcd_dvd_left .., Int.gcd_dvd_right .., fun _ h1 h2 => Int.dvd_coe_gcd h1 h2⟩

/-- What `mp_int_egcd` does for all non-zero operands: the combination is one of the absolute values. `X` and `Y` are
the output variables for the coefficients, of which one may be NULL. -/
theorem C22_egcd_abs (h : State m ρ) (ha : ρ a = some x) (hb : ρ b = some y) (hc : ρ c = some w) (hx : x ≠ 0) (hy : y ≠ 0)
    (hX : HasO ρ X) (hY : HasO ρ Y) (hXY : X ≠ none ∨ Y ≠ none) :
    Runs env (mp_int_egcd (.var a) (.var b) (.var c) (ids X) (ids Y)) m fun res m' =>
      res = MP_OK ∧ ∃ (g : Nat) (P R : Int), (0 < g ∧ (g : Int) ∣ x ∧ (g : Int) ∣ y ∧ ∀ d : Int, d ∣ x → d ∣ y → d ∣ g) ∧
        (g : Int) = |x| * P + |y| * R ∧ State m' (put (putO (putO ρ X P) Y R) c g) := by
  refine .of_wp (mp_int_egcd_nz (ref_refused env) h.r2 ha hb hx hy (by cases X <;> cases Y <;> simp_all [ids]) hX.ok hY.ok hc rfl
    fun P R hPR _ m' h' => ⟨rfl, Int.gcd x y, P, R, isGcd x y (.inl hx), ?_, ?_⟩)
  · rw [hPR]; ring
  · rw [egcdPut_lift] at h'; exact h'.state

/-- Bezout's identity for non-negative operands.

Missing from the full property: negative operands (see `C22_negative`), and a NULL coefficient variable when an
operand is zero (see `C22_null_witness`). -/
theorem C22_egcd_partial {p q : Nat} (h : State m ρ) (ha : ρ a = some x) (hb : ρ b = some y) (hc : ρ c = some w) (hx : 0 ≤ x) (hy : 0 ≤ y)
    (h0 : x ≠ 0 ∨ y ≠ 0) (hX : ∃ v, ρ p = some v) (hY : ∃ v, ρ q = some v) (hpq : p ≠ q) (hcp : c ≠ p) (hcq : c ≠ q) :
    Runs env (mp_int_egcd (.var a) (.var b) (.var c) (some (.var p)) (some (.var q))) m fun res m' =>
      res = MP_OK ∧ ∃ (g : Nat) (P R : Int), (0 < g ∧ (g : Int) ∣ x ∧ (g : Int) ∣ y ∧ ∀ d : Int, d ∣ x → d ∣ y → d ∣ g) ∧
        (g : Int) = x * P + y * R ∧ State m' (put (put (put ρ p P) q R) c g) := by
  obtain ⟨vx, hX⟩ := hX
  obtain ⟨vy, hY⟩ := hY
  have n1 : Id.var c ≠ Id.var p := by simpa using hcp
  have n2 : Id.var c ≠ Id.var q := by simpa using hcq
  have n3 : Id.var p ≠ Id.var q := by simpa using hpq
  by_cases ex : x = 0
  · subst ex
    refine .of_wp (mp_int_egcd_left0 (X := .var p) (Y := .var q) (ref_refused env) h.r2 ha hb (by simpa using h0) hX hY rfl hc rfl n1 n2 n3
      fun m' h' => ⟨rfl, Int.gcd 0 y, 0, 1, isGcd 0 y h0, ?_, ?_⟩)
    · rw [Int.gcd_zero_left]; omega
    · rw [show |y| = (Int.gcd 0 y : Int) by rw [Int.gcd_zero_left, Int.abs_eq_natAbs]] at h'
      exact (egcdPut_lift ρ (some p) (some q) c _ _ _ ▸ h' : R2 m' _).state
  by_cases ey : y = 0
  · subst ey
    refine .of_wp (mp_int_egcd_right0 (X := .var p) (Y := .var q) (ref_refused env) h.r2 ha hb ex hX hY rfl hc rfl n1 n2 n3
      fun m' h' => ⟨rfl, Int.gcd x 0, 1, 0, isGcd x 0 h0, ?_, ?_⟩)
    · rw [Int.gcd_zero_right]; omega
    · rw [show |x| = (Int.gcd x 0 : Int) by rw [Int.gcd_zero_right, Int.abs_eq_natAbs]] at h'
      exact (egcdPut_lift ρ (some p) (some q) c _ _ _ ▸ h' : R2 m' _).state
  have := C22_egcd_abs (env := env) (X := some p) (Y := some q) h ha hb hc ex ey
    (by rintro _ ⟨⟩; exact ⟨_, hX⟩) (by rintro _ ⟨⟩; exact ⟨_, hY⟩) (by simp)
  rw [abs_of_nonneg hx, abs_of_nonneg hy] at this
  exact this

/-- For two negative operands the combination has the wrong sign. -/
theorem C22_negative {p q : Nat} (h : State m ρ) (ha : ρ a = some x) (hb : ρ b = some y) (hc : ρ c = some w) (hx : x < 0) (hy : y < 0)
    (hX : ∃ v, ρ p = some v) (hY : ∃ v, ρ q = some v) :
    Runs env (mp_int_egcd (.var a) (.var b) (.var c) (some (.var p)) (some (.var q))) m fun res m' =>
      res = MP_OK ∧ ∃ (g : Nat) (P R : Int), g ≠ x * P + y * R ∧ State m' (put (put (put ρ p P) q R) c g) := by
  have := C22_egcd_abs (env := env) (X := some p) (Y := some q) h ha hb hc (by omega) (by omega)
    (by rintro _ ⟨⟩; exact hX) (by rintro _ ⟨⟩; exact hY) (by simp)
  rw [abs_of_neg hx, abs_of_neg hy] at this
  refine Runs.mono this ?_
  rintro res m' ⟨h1, g, P, R, h2, h3, h4⟩
  refine ⟨h1, g, P, R, fun e => ?_, h4⟩
  have : -x * P + -y * R = -(x * P + y * R) := by ring
  omega

theorem C22_zero (h : State m ρ) (ha : ρ a = some 0) (hb : ρ b = some 0) (hXY : X ≠ none ∨ Y ≠ none) :
    Runs env (mp_int_egcd (.var a) (.var b) (.var c) (ids X) (ids Y)) m fun res m' => res = MP_UNDEF ∧ m' = m :=
  .of_wp (mp_int_egcd_00 (a := .var a) (b := .var b) h.r2 ha hb (by cases X <;> cases Y <;> simp_all [ids]) ⟨rfl, rfl⟩)

/-- One negative operand: 1 = 1 * 0 + (-1) * 1 is reported. -/
theorem C22_witness : outcome (mp_int_egcd (.var 0) (.var 1) (.var 2) (some (.var 3)) (some (.var 4))) [1, -1, 0, 0, 0] =
    some (MP_OK, [some 1, some (-1), some 1, some 0, some 1]) := by decide +kernel

/-- With a zero operand, an omitted coefficient fails an assertion. -/
theorem C22_null_witness : faultOf (mp_int_egcd (.var 0) (.var 1) (.var 2) (some (.var 3)) none) [0, 5, 0, 0] = some .assert := by
  decide +kernel

example : ∃ m, State m demo ∧ Runs env (mp_int_egcd (.var 0) (.var 2) (.var 2) (some (.var 1)) (some (.var 3))) m fun res m' =>
      res = MP_OK ∧ ∃ (g : Nat) (P R : Int), (0 < g ∧ (g : Int) ∣ 2 ^ 100 + 1 ∧ (g : Int) ∣ 0 ∧ ∀ d : Int, d ∣ 2 ^ 100 + 1 → d ∣ 0 → d ∣ g) ∧
        (g : Int) = (2 ^ 100 + 1) * P + 0 * R ∧ State m' (put (put (put demo 1 P) 3 R) 2 g) :=
  let ⟨m, h⟩ := demo_state
  ⟨m, h, C22_egcd_partial h rfl rfl rfl (by norm_num) (by norm_num) (.inl (by norm_num)) ⟨_, rfl⟩ ⟨_, rfl⟩ (by decide) (by decide) (by decide)⟩

example : ∃ m, State m demo ∧ Runs env (mp_int_egcd (.var 0) (.var 1) (.var 2) (ids (some 3)) (ids none)) m fun res m' =>
      res = MP_OK ∧ ∃ (g : Nat) (P R : Int), (0 < g ∧ (g : Int) ∣ 2 ^ 100 + 1 ∧ (g : Int) ∣ -2 ^ 70 ∧ ∀ d : Int, d ∣ 2 ^ 100 + 1 → d ∣ -2 ^ 70 → d ∣ g) ∧
        (g : Int) = |2 ^ 100 + 1| * P + |-2 ^ 70| * R ∧ State m' (put (putO (putO demo (some 3) P) none R) 2 g) :=
  let ⟨m, h⟩ := demo_state
  ⟨m, h, C22_egcd_abs h rfl rfl rfl (by norm_num) (by norm_num) (by rintro _ ⟨⟩; exact ⟨_, rfl⟩) (by rintro _ ⟨⟩) (by simp)⟩

example : ∃ m, State m demo ∧ Runs env (mp_int_egcd (.var 1) (.var 3) (.var 2) (some (.var 0)) (some (.var 1))) m fun res m' =>
      res = MP_OK ∧ ∃ (g : Nat) (P R : Int), g ≠ -2 ^ 70 * P + -7 * R ∧ State m' (put (put (put demo 0 P) 1 R) 2 g) :=
  let ⟨m, h⟩ := demo_state
  ⟨m, h, C22_negative h rfl rfl rfl (by norm_num) (by norm_num) ⟨_, rfl⟩ ⟨_, rfl⟩⟩

/-! ### C23 least common multiple -/

theorem lcm_tdiv (x y : Int) (h0 : x ≠ 0 ∨ y ≠ 0) : |x.tdiv (Int.gcd x y) * y| = Int.lcm x y ∧
    (x.tdiv (Int.gcd x y) * y) * Int.gcd x y = x * y := by
  have hg : 0 < Int.gcd x y := Int.gcd_pos_iff.2 h0
  have h1 := Int.gcd_mul_lcm x y
  obtain ⟨k, hk⟩ : (Int.gcd x y : Int) ∣ x := Int.gcd_dvd_left ..
  generalize Int.gcd x y = g at *
  generalize Int.lcm x y = l at *
  subst hk
  rw [Int.mul_tdiv_cancel_left _ (by omega)]
  refine ⟨?_, by ring⟩
  rw [Int.natAbs_mul, Int.natAbs_natCast, Nat.mul_assoc, ← Int.natAbs_mul] at h1
  rw [Int.abs_eq_natAbs, Nat.eq_of_mul_eq_mul_left hg h1]

/-- The value stored has the sign of `x * y` and is the least common multiple in magnitude. -/
theorem C23_lcm (h : State m ρ) (ha : ρ a = some x) (hb : ρ b = some y) (hc : ρ c = some w) (h0 : x ≠ 0 ∨ y ≠ 0) :
    Runs env (mp_int_lcm (.var a) (.var b) (.var c)) m fun res m' =>
      res = MP_OK ∧ ∃ l : Int, l.sign = (x * y).sign ∧ x ∣ l ∧ y ∣ l ∧ (∀ k : Int, x ∣ k → y ∣ k → l ∣ k) ∧
        State m' (put ρ c l) := by
  obtain ⟨e1, e2⟩ := lcm_tdiv x y h0
  have hg : 0 < Int.gcd x y := Int.gcd_pos_iff.2 h0
  refine .of_wp (mp_int_lcm_spec (ref_refused env) h.r2 ha hb hc rfl (fun h1 h2 => by omega) fun _ m' h' =>
    ⟨rfl, x.tdiv (Int.gcd x y) * y, ?_, ?_, ?_, fun k hx hy => ?_, ?_⟩)
  · rw [← e2, Int.sign_mul _ (Int.gcd x y : Int), Int.sign_natCast_of_ne_zero (by omega), Int.mul_one]
  · rw [← dvd_abs, e1]; exact Int.dvd_lcm_left ..
  · rw [← dvd_abs, e1]; exact Int.dvd_lcm_right ..
  · rw [← abs_dvd, e1]; exact Int.coe_lcm_dvd hx hy
  · rw [upd_lift] at h'; exact h'.state

theorem C23_lcm_zero (h : State m ρ) (ha : ρ a = some 0) (hb : ρ b = some 0) (hc : ρ c = some w) :
    Runs env (mp_int_lcm (.var a) (.var b) (.var c)) m fun res m' => res = MP_UNDEF ∧ State m' ρ :=
  .of_wp (mp_int_lcm_spec (ref_refused env) h.r2 ha hb hc rfl (fun _ _ _ h' => ⟨rfl, h'.state⟩) fun h0 => absurd ⟨rfl, rfl⟩ h0)

/-- Contrary to the usual convention, the result may be negative. -/
theorem C23_witness : outcome (mp_int_lcm (.var 0) (.var 1) (.var 1)) [-4, 6] = some (MP_OK, [some (-4), some (-12)]) := by
  decide +kernel

example : ∃ m, State m demo ∧ Runs env (mp_int_lcm (.var 0) (.var 1) (.var 1)) m fun res m' =>
      res = MP_OK ∧ ∃ l : Int, l.sign = ((2 ^ 100 + 1) * -2 ^ 70 : Int).sign ∧ 2 ^ 100 + 1 ∣ l ∧ -2 ^ 70 ∣ l ∧
        (∀ k : Int, 2 ^ 100 + 1 ∣ k → -2 ^ 70 ∣ k → l ∣ k) ∧ State m' (put demo 1 l) :=
  let ⟨m, h⟩ := demo_state; ⟨m, h, C23_lcm h rfl rfl rfl (.inl (by norm_num))⟩

example : ∃ m, State m demo ∧ Runs env (mp_int_lcm (.var 2) (.var 2) (.var 1)) m fun res m' => res = MP_UNDEF ∧ State m' demo :=
  let ⟨m, h⟩ := demo_state; ⟨m, h, C23_lcm_zero h rfl rfl rfl⟩

/-! ### C24 modular inverse -/

/-- Missing from the full property: a negative number modulo 1 (see `C24_witness`). -/
theorem C24_invmod_partial (h : State m ρ) (ha : ρ a = some x) (hb : ρ b = some y) (hc : ρ c = some w) (hx : x ≠ 0) (hy : 0 < y)
    (hg : Int.gcd x y = 1) (h1 : ¬ (x < 0 ∧ y = 1)) :
    Runs env (mp_int_invmod (.var a) (.var b) (.var c)) m fun res m' =>
      res = MP_OK ∧ ∃ i : Int, 0 ≤ i ∧ i < y ∧ y ∣ x * i - 1 ∧ State m' (put ρ c i) := by
  refine .of_wp (mp_int_invmod_spec (ref_refused env) h.r2 ha hb hc rfl (fun h0 => by omega) (fun _ _ h2 => absurd hg h2)
    fun P R _ _ _ hPR m' h' => ⟨rfl, _, ?_, ?_, ?_, (upd_lift .. ▸ h' : R2 m' _).state⟩)
  all_goals
    have l1 := Int.emod_nonneg P (show y ≠ 0 by omega)
    have l2 := Int.emod_lt_of_pos P hy
    have l3 := Int.emod_add_mul_ediv P y
  · split <;> omega
  · split
    · rename_i hneg
      by_contra hlt
      have hz : P % y = 0 := by omega
      rw [hz, Int.zero_add] at l3
      rw [← l3] at hPR
      have hd : y ∣ 1 := ⟨P / y * |x| + R, by rw [← hPR]; ring⟩
      have := Int.eq_one_of_dvd_one (by omega) hd
      omega
    · exact l2
  · split
    · rename_i hneg
      rw [abs_of_neg hneg] at hPR
      refine ⟨x + x * (P / y) - R, ?_⟩
      rw [← hPR]; conv_lhs => rw [show P % y = P - y * (P / y) by omega]
      ring
    · rename_i hneg
      rw [abs_of_nonneg (by omega)] at hPR
      refine ⟨- x * (P / y) - R, ?_⟩
      rw [← hPR]; conv_lhs => rw [show P % y = P - y * (P / y) by omega]
      ring

theorem C24_invmod_range (h : State m ρ) (ha : ρ a = some x) (hb : ρ b = some y) (hc : ρ c = some w) (h0 : x = 0 ∨ y ≤ 0) :
    Runs env (mp_int_invmod (.var a) (.var b) (.var c)) m fun res m' => res = MP_RANGE ∧ m' = m :=
  .of_wp (mp_int_invmod_spec (ref_refused env) h.r2 ha hb hc rfl (fun _ => ⟨rfl, rfl⟩) (fun _ _ => by omega) fun _ _ _ _ => by omega)

theorem C24_invmod_undef (h : State m ρ) (ha : ρ a = some x) (hb : ρ b = some y) (hc : ρ c = some w) (hx : x ≠ 0) (hy : 0 < y)
    (hg : Int.gcd x y ≠ 1) :
    Runs env (mp_int_invmod (.var a) (.var b) (.var c)) m fun res m' => res = MP_UNDEF ∧ State m' ρ :=
  .of_wp (mp_int_invmod_spec (ref_refused env) h.r2 ha hb hc rfl (fun h0 => by omega) (fun _ _ _ _ h' => ⟨rfl, h'.state⟩)
    fun _ _ _ _ h1 => absurd h1 hg)

/-- The inverse of -1 modulo 1 is reported as 1, not 0. -/
theorem C24_witness : outcome (mp_int_invmod (.var 0) (.var 1) (.var 2)) [-1, 1, 0] =
    some (MP_OK, [some (-1), some 1, some 1]) := by decide +kernel

example : ∃ m, State m demo ∧ Runs env (mp_int_invmod (.var 1) (.var 0) (.var 0)) m fun res m' =>
      res = MP_OK ∧ ∃ i : Int, 0 ≤ i ∧ i < 2 ^ 100 + 1 ∧ 2 ^ 100 + 1 ∣ (-2 ^ 70) * i - 1 ∧ State m' (put demo 0 i) :=
  let ⟨m, h⟩ := demo_state
  ⟨m, h, C24_invmod_partial h rfl rfl rfl (by norm_num) (by norm_num) (by decide +kernel) (by norm_num)⟩

/-! ### C25 roots -/

/-- The result is `sign x * ⌊|x|^(1/k)⌋`.

Missing from the full property: exponents from 2^32 on, for which it is false (see `C25_witness`, and `C25_root_any` for what happens). -/
theorem C25_root_partial {k : Nat} (h : State m ρ) (ha : ρ a = some x) (hc : ρ c = some w) (hk : 0 < k) (hk2 : k < 2 ^ 32)
    (h0 : 0 ≤ x ∨ k % 2 = 1) :
    Runs env (mp_int_root (.var a) k (.var c)) m fun res m' =>
      res = MP_OK ∧ ∃ r : Nat, r ^ k ≤ x.natAbs ∧ x.natAbs < (r + 1) ^ k ∧ State m' (put ρ c (if x < 0 then -r else r)) := by
  refine .of_wp (mp_int_root_spec (ref_refused env) h.r2 ha hc rfl hk hk2 (fun h1 h2 => by omega) fun _ r h1 h2 m' h' =>
    ⟨rfl, r, h1, h2, ?_⟩)
  rw [upd_lift] at h'; exact h'.state

theorem C25_root_undef {k : Nat} (h : State m ρ) (ha : ρ a = some x) (hc : ρ c = some w) (hk : 0 < k) (hk2 : k < 2 ^ 63)
    (h0 : x < 0) (h1 : k % 2 = 0) :
    Runs env (mp_int_root (.var a) k (.var c)) m fun res m' => res = MP_UNDEF ∧ m' = m :=
  .of_wp (mp_int_root_gen (ref_refused env) h.r2 ha hc rfl hk hk2 rfl (fun _ _ => ⟨rfl, rfl⟩) (fun _ h2 => by omega)
    (fun _ h2 => by omega) fun h2 => absurd ⟨h0, h1⟩ h2)

/-- For every degree a `mp_small` can hold: only the low 32 bits of the degree count. (`mp_int_expt` keeps the exponent in an
`unsigned int`, imath.c:911. The whole degree is used in imath.c:1376, which only makes the steps shorter.) -/
theorem C25_root_any {k : Nat} (h : State m ρ) (ha : ρ a = some x) (hc : ρ c = some w) (hk : k < 2 ^ 63) (hk2 : 0 < k % 2 ^ 32)
    (h0 : 0 ≤ x ∨ k % 2 = 1) :
    Runs env (mp_int_root (.var a) k (.var c)) m fun res m' =>
      res = MP_OK ∧ ∃ r : Nat, r ^ (k % 2 ^ 32) ≤ x.natAbs ∧ x.natAbs < (r + 1) ^ (k % 2 ^ 32) ∧
        State m' (put ρ c (if x < 0 then -r else r)) := by
  refine .of_wp (mp_int_root_gen (ref_refused env) h.r2 ha hc rfl (by omega) hk rfl (fun h1 h2 => by omega) (fun _ h2 => by omega)
    (fun _ h2 => by omega) fun _ _ r h1 h2 m' h' => ⟨rfl, r, h1, h2, ?_⟩)
  rw [upd_lift] at h'; exact h'.state

/-- If the degree is a multiple of `2^32`, the "root" of a positive number is the number itself. -/
theorem C25_root_multiple {k : Nat} (h : State m ρ) (ha : ρ a = some x) (hc : ρ c = some w) (hk : 0 < k) (hk2 : k < 2 ^ 63)
    (hk3 : k % 2 ^ 32 = 0) (h0 : 0 < x) :
    Runs env (mp_int_root (.var a) k (.var c)) m fun res m' => res = MP_OK ∧ State m' (put ρ c x) := by
  refine .of_wp (mp_int_root_gen (ref_refused env) h.r2 ha hc rfl hk hk2 hk3 (fun h1 h2 => by omega) (fun _ _ h2 => by omega)
    (fun _ _ m' h' => ⟨rfl, ?_⟩) fun _ h2 => by omega)
  rw [upd_lift] at h'; exact h'.state

/-- If the degree is a multiple of `2^32`, the root of zero is refused as a division by zero. -/
theorem C25_root_multiple_zero {k : Nat} (h : State m ρ) (ha : ρ a = some 0) (hc : ρ c = some w) (hk : 0 < k) (hk2 : k < 2 ^ 63)
    (hk3 : k % 2 ^ 32 = 0) :
    Runs env (mp_int_root (.var a) k (.var c)) m fun res m' => res = MP_UNDEF ∧ State m' ρ :=
  .of_wp (mp_int_root_gen (ref_refused env) h.r2 ha hc rfl hk hk2 hk3 (fun h1 h2 => by omega)
    (fun _ _ m' h' => ⟨rfl, h'.state⟩) (fun _ _ h2 => by omega) fun _ h2 => by omega)

/-- `mp_int_sqrt` (imath.h:310-311) is the second root; there is no bound to impose. -/
theorem C25_sqrt (h : State m ρ) (ha : ρ a = some x) (hc : ρ c = some w) (h0 : 0 ≤ x) :
    Runs env (mp_int_root (.var a) 2 (.var c)) m fun res m' =>
      res = MP_OK ∧ ∃ r : Nat, (r : Int) ^ 2 ≤ x ∧ x < (r + 1) ^ 2 ∧ State m' (put ρ c r) := by
  have := C25_root_partial (env := env) (k := 2) h ha hc (by decide) (by decide) (.inl h0)
  refine Runs.mono this ?_
  rintro res m' ⟨h1, r, h2, h3, h4⟩
  rw [if_neg (by omega)] at h4
  refine ⟨h1, r, ?_, ?_, h4⟩
  · have : ((r ^ 2 : Nat) : Int) ≤ (x.natAbs : Int) := by exact_mod_cast h2
    rw [Int.natAbs_of_nonneg h0] at this; exact_mod_cast this
  · have : (x.natAbs : Int) < ((r + 1) ^ 2 : Nat) := by exact_mod_cast h3
    rw [Int.natAbs_of_nonneg h0] at this; exact_mod_cast this

/-- The 2^32-th root of 2 comes out as 2. -/
theorem C25_witness : outcome (mp_int_root (.var 0) (2 ^ 32) (.var 1)) [2, 0] = some (MP_OK, [some 2, some 2]) := by decide +kernel

example : ∃ m, State m demo ∧ Runs env (mp_int_root (.var 1) (5 : Nat) (.var 1)) m fun res m' =>
      res = MP_OK ∧ ∃ r : Nat, r ^ 5 ≤ (-2 ^ 70 : Int).natAbs ∧ (-2 ^ 70 : Int).natAbs < (r + 1) ^ 5 ∧
        State m' (put demo 1 (if (-2 ^ 70 : Int) < 0 then -r else r)) :=
  let ⟨m, h⟩ := demo_state; ⟨m, h, C25_root_partial h rfl rfl (by norm_num) (by norm_num) (.inr rfl)⟩

example : ∃ m, State m (vars [-1000, 0, 77]) ∧
    (Runs env (mp_int_root (.var 0) (2 ^ 40 + 3 : Nat) (.var 1)) m fun res m' =>
      res = MP_OK ∧ ∃ r : Nat, r ^ ((2 ^ 40 + 3) % 2 ^ 32) ≤ (-1000 : Int).natAbs ∧ (-1000 : Int).natAbs < (r + 1) ^ ((2 ^ 40 + 3) % 2 ^ 32) ∧
        State m' (put (vars [-1000, 0, 77]) 1 (if (-1000 : Int) < 0 then -r else r))) ∧
    (Runs env (mp_int_root (.var 2) (2 ^ 40 : Nat) (.var 0)) m fun res m' => res = MP_OK ∧ State m' (put (vars [-1000, 0, 77]) 0 77)) ∧
    (Runs env (mp_int_root (.var 1) (2 ^ 40 : Nat) (.var 0)) m fun res m' => res = MP_UNDEF ∧ State m' (vars [-1000, 0, 77])) ∧
    Runs env (mp_int_root (.var 0) (2 ^ 40 : Nat) (.var 0)) m fun res m' => res = MP_UNDEF ∧ m' = m := by
  obtain ⟨m, h⟩ := vars_state (l := [-1000, 0, 77]) (by simp)
  exact ⟨m, h, C25_root_any h rfl rfl (by norm_num) (by norm_num) (.inr (by norm_num)),
    C25_root_multiple h rfl rfl (by norm_num) (by norm_num) (by norm_num) (by norm_num),
    C25_root_multiple_zero h rfl rfl (by norm_num) (by norm_num) (by norm_num),
    C25_root_undef h rfl rfl (by norm_num) (by norm_num) (by norm_num) (by norm_num)⟩

example : ∃ m, State m demo ∧ Runs env (mp_int_root (.var 0) 2 (.var 1)) m fun res m' =>
      res = MP_OK ∧ ∃ r : Nat, (r : Int) ^ 2 ≤ 2 ^ 100 + 1 ∧ 2 ^ 100 + 1 < ((r : Int) + 1) ^ 2 ∧ State m' (put demo 1 r) :=
  let ⟨m, h⟩ := demo_state; ⟨m, h, C25_sqrt h rfl rfl (by norm_num)⟩

end Imath
