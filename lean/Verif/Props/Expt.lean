import Verif.Props.Div

/-! # Properties C17, C18, C26, C27: powers, conversion to machine integers, bit counts, parity -/

namespace Imath

variable {env : Env} {m : Mem} {ρ : Nat → Option Int} {a b c : Nat} {x y w : Int}

/-! ### C17 powers with a machine integer as exponent -/

/-- Missing from the full property: exponents from 2^32 on (see `C17_expt_truncates`). -/
theorem C17_expt_partial {k : Nat} (h : State m ρ) (ha : ρ a = some x) (hc : ρ c = some w) (hk : k < 2 ^ 32) :
    Runs env (mp_int_expt (.var a) k (.var c)) m fun res m' => res = MP_OK ∧ State m' (put ρ c (x ^ k)) := by
  refine .of_wp (mp_int_expt_spec (ref_refused env) h.r2 ha hc rfl (fun h0 => by omega) fun _ m' h' => ⟨rfl, ?_⟩)
  rw [upd_lift, show Int.toNat ((k : Int) % 2 ^ 32) = k by omega] at h'; exact h'.state

/-- Missing from the full property: exponents from 2^32 on, and the base -2^63. -/
theorem C17_expt_value_partial {k : Nat} {v : Int} (h : State m ρ) (hv : -2 ^ 63 < v ∧ v < 2 ^ 63) (hc : ρ c = some w) (hk : k < 2 ^ 32) :
    Runs env (mp_int_expt_value v k (.var c)) m fun res m' => res = MP_OK ∧ State m' (put ρ c (v ^ k)) := by
  refine .of_wp (mp_int_expt_value_spec (ref_refused env) h.r2 (by omega) (by omega) hc rfl (fun h0 => by omega) fun _ m' h' => ⟨rfl, ?_⟩)
  rw [upd_lift, show Int.toNat ((k : Int) % 2 ^ 32) = k by omega] at h'; exact h'.state

theorem C17_expt_negative {k : Int} (h : State m ρ) (ha : ρ a = some x) (hc : ρ c = some w) (hk : k < 0) :
    Runs env (mp_int_expt (.var a) k (.var c)) m fun res m' => res = MP_RANGE ∧ m' = m :=
  .of_wp (mp_int_expt_spec (ref_refused env) h.r2 ha hc rfl (fun _ => ⟨rfl, rfl⟩) fun h0 => by omega)

theorem C17_expt_value_negative {k v : Int} (h : State m ρ) (hv : -2 ^ 63 < v ∧ v < 2 ^ 63) (hc : ρ c = some w) (hk : k < 0) :
    Runs env (mp_int_expt_value v k (.var c)) m fun res m' => res = MP_RANGE ∧ m' = m :=
  .of_wp (mp_int_expt_value_spec (ref_refused env) h.r2 (by omega) (by omega) hc rfl (fun _ => ⟨rfl, rfl⟩) fun h0 => by omega)

/-- What happens for every non-negative exponent: only its low 32 bits count. -/
theorem C17_expt_truncates {k : Nat} (h : State m ρ) (ha : ρ a = some x) (hc : ρ c = some w) :
    Runs env (mp_int_expt (.var a) k (.var c)) m fun res m' => res = MP_OK ∧ State m' (put ρ c (x ^ (k % 2 ^ 32))) := by
  refine .of_wp (mp_int_expt_spec (ref_refused env) h.r2 ha hc rfl (fun h0 => by omega) fun _ m' h' => ⟨rfl, ?_⟩)
  rw [upd_lift, show Int.toNat ((k : Int) % 2 ^ 32) = k % 2 ^ 32 by omega] at h'; exact h'.state

/-- 0 to the power of 2^32 comes out as 1. -/
theorem C17_witness : outcome (mp_int_expt (.var 0) (2 ^ 32) (.var 0)) [0] = some (MP_OK, [some 1]) := by decide +kernel

example : ∃ m, State m demo ∧ Runs env (mp_int_expt (.var 0) (1000 : Nat) (.var 0)) m fun res m' =>
    res = MP_OK ∧ State m' (put demo 0 ((2 ^ 100 + 1) ^ 1000)) :=
  let ⟨m, h⟩ := demo_state; ⟨m, h, C17_expt_partial h rfl rfl (by norm_num)⟩

example : ∃ m, State m demo ∧ Runs env (mp_int_expt_value (-(2 ^ 62)) (1000 : Nat) (.var 0)) m fun res m' =>
    res = MP_OK ∧ State m' (put demo 0 ((-(2 ^ 62)) ^ 1000)) :=
  let ⟨m, h⟩ := demo_state; ⟨m, h, C17_expt_value_partial h (by norm_num) rfl (by norm_num)⟩

example : ∃ m, State m demo ∧ Runs env (mp_int_expt (.var 0) (-3) (.var 0)) m fun res m' => res = MP_RANGE ∧ m' = m :=
  let ⟨m, h⟩ := demo_state; ⟨m, h, C17_expt_negative h rfl rfl (by norm_num)⟩

/-! ### C18 powers with a big exponent -/

/-- Missing from the full property: the result variable may not be the exponent variable (see
`C18_alias_witness`). -/
theorem C18_expt_full_partial (h : State m ρ) (ha : ρ a = some x) (hb : ρ b = some y) (hc : ρ c = some w)
    (hcb : c ≠ b) (hy : 0 ≤ y) :
    Runs env (mp_int_expt_full (.var a) (.var b) (.var c)) m fun res m' =>
      res = MP_OK ∧ State m' (put ρ c (x ^ y.toNat)) := by
  refine .of_wp (mp_int_expt_full_spec (ref_refused env) h.r2 ha hb hc rfl (by simpa using hcb) (fun h0 => by omega)
    fun _ m' h' => ⟨rfl, ?_⟩)
  rw [upd_lift] at h'; exact h'.state

theorem C18_expt_full_negative (h : State m ρ) (hb : ρ b = some y) (hy : y < 0) :
    Runs env (mp_int_expt_full (.var a) (.var b) (.var c)) m fun res m' => res = MP_RANGE ∧ m' = m := by
  refine .of_wp ?_
  unfold mp_int_expt_full
  exact wp_bind (MP_SIGN_spec h.r2 hb (wp_if_pos (by simpa using hy) (wp_pure ⟨rfl, rfl⟩)))

/-- 2 to the power of 3, stored in the exponent variable, comes out as 2. -/
theorem C18_alias_witness : outcome (mp_int_expt_full (.var 0) (.var 1) (.var 1)) [2, 3] =
    some (MP_OK, [some 2, some 2]) := by decide +kernel

example : ∃ m, State m demo ∧ Runs env (mp_int_expt_full (.var 3) (.var 0) (.var 3)) m fun res m' =>
    res = MP_OK ∧ State m' (put demo 3 ((-7) ^ (2 ^ 100 + 1 : Int).toNat)) :=
  let ⟨m, h⟩ := demo_state; ⟨m, h, C18_expt_full_partial h rfl rfl rfl (by decide) (by norm_num)⟩

/-! ### C26 conversion to machine integers

The second component of the result is what is stored in `*out`. -/

/-- Missing from the full property: the value -2^63 (see `C26_min_ub`). -/
theorem C26_to_int_partial (h : State m ρ) (ha : ρ a = some x) (hx : x ≠ -2 ^ 63) :
    Runs env (mp_int_to_int (.var a)) m fun res m' =>
      res = (if -2 ^ 63 ≤ x ∧ x < 2 ^ 63 then (MP_OK, some x) else (MP_RANGE, none)) ∧ State m' ρ := by
  refine .of_wp (mp_int_to_int_spec h.r2 ha (by norm_num at hx ⊢; exact hx) (fun h0 m' h' => ⟨?_, h'.state⟩) fun h1 h2 m' h' => ⟨?_, h'.state⟩)
  · rw [if_neg (by omega)]
  · rw [if_pos (by omega)]

/-- The loop of `mp_int_to_int` shifts a signed integer beyond its range when the value is -2^63. -/
theorem C26_min_ub : faultOf (mp_int_to_int (.var 0)) [-2 ^ 63] = some .ub := by decide +kernel

theorem C26_to_uint (h : State m ρ) (ha : ρ a = some x) :
    Runs env (mp_int_to_uint (.var a)) m fun res m' =>
      res = (if 0 ≤ x ∧ x < 2 ^ 64 then (MP_OK, some x.toNat) else (MP_RANGE, none)) ∧ State m' ρ := by
  refine .of_wp (mp_int_to_uint_spec h.r2 ha (fun h0 m' h' => ⟨?_, h'.state⟩) fun h1 h2 m' h' => ⟨?_, h'.state⟩)
  · rw [if_neg (by omega)]
  · rw [if_pos (by omega), show x.natAbs = x.toNat by omega]

example : ∃ m, State m demo ∧ Runs env (mp_int_to_int (.var 3)) m fun res m' =>
      res = (MP_OK, some (-7)) ∧ State m' demo :=
  let ⟨m, h⟩ := demo_state; ⟨m, h, by simpa using C26_to_int_partial (x := -7) h rfl (by decide)⟩

example : ∃ m, State m demo ∧ Runs env (mp_int_to_uint (.var 0)) m fun res m' =>
      res = (MP_RANGE, none) ∧ State m' demo :=
  let ⟨m, h⟩ := demo_state; ⟨m, h, by simpa using C26_to_uint (a := 0) (x := 2 ^ 100 + 1) h rfl⟩

/-! ### C27 powers of two, bit length, parity -/

/-- Missing from the full property: zero, and the sign (see the witnesses). -/
theorem C27_is_pow2_partial (h : State m ρ) (ha : ρ a = some x) (hx : 0 < x) :
    Runs env (mp_int_is_pow2 (.var a)) m fun res m' =>
      ((∃ k : Nat, x = 2 ^ k ∧ res = k) ∨ (∀ k : Nat, x ≠ 2 ^ k) ∧ res = -1) ∧ m' = m := by
  refine .of_wp (mp_int_is_pow2_spec h.r2 ha (by omega) (fun k hk => ⟨.inl ⟨k, ?_, rfl⟩, rfl⟩) fun hk => ⟨.inr ⟨fun k hh => ?_, rfl⟩, rfl⟩)
  · have : (x.natAbs : Int) = ((2 ^ k : Nat) : Int) := by rw [hk]
    push_cast at this
    rw [← this, abs_of_pos hx]
  · refine hk k ?_
    have h1 : ((x.natAbs : Nat) : Int) = ((2 ^ k : Nat) : Int) := by push_cast; rw [← hh]; exact abs_of_pos hx
    exact_mod_cast h1

theorem C27_zero_witness : outcome (mp_int_is_pow2 (.var 0)) [0] = some (0, [some 0]) := by decide +kernel
theorem C27_negative_witness : outcome (mp_int_is_pow2 (.var 0)) [-8] = some (3, [some (-8)]) := by decide +kernel

theorem C27_count_bits (h : State m ρ) (ha : ρ a = some x) :
    Runs env (mp_int_count_bits (.var a)) m fun res m' =>
      (x = 0 → res = 1) ∧ (x ≠ 0 → ∃ n : Nat, res = n + 1 ∧ 2 ^ n ≤ |x| ∧ |x| < 2 ^ (n + 1)) ∧ m' = m := by
  refine .of_wp (mp_int_count_bits_spec h.r2 ha (fun h0 => ⟨fun _ => rfl, fun h1 => absurd h0 h1, rfl⟩) fun h0 =>
    ⟨fun h1 => absurd h1 h0, fun _ => ?_, rfl⟩)
  have h1 : 1 ≤ Nat.size x.natAbs := Nat.size_pos.2 (by omega)
  have h2 : 2 ^ (Nat.size x.natAbs - 1) ≤ x.natAbs := Nat.lt_size.1 (by omega)
  have h3 := Nat.lt_size_self x.natAbs
  refine ⟨Nat.size x.natAbs - 1, by omega, ?_, ?_⟩
  · rw [Int.abs_eq_natAbs]; exact_mod_cast h2
  · rw [Nat.sub_add_cancel h1, Int.abs_eq_natAbs]; exact_mod_cast h3

theorem C27_is_odd (h : State m ρ) (ha : ρ a = some x) :
    Runs env (mp_int_is_odd (.var a)) m fun res m' => (res = true ↔ ¬ 2 ∣ x) ∧ m' = m :=
  .of_wp (mp_int_is_odd_spec h.r2 ha ⟨by rw [decide_eq_true_eq]; omega, rfl⟩)

theorem C27_is_even (h : State m ρ) (ha : ρ a = some x) :
    Runs env (mp_int_is_even (.var a)) m fun res m' => (res = true ↔ 2 ∣ x) ∧ m' = m :=
  .of_wp (mp_int_is_even_spec h.r2 ha ⟨by rw [decide_eq_true_eq]; omega, rfl⟩)

example : ∃ m, State m demo ∧ Runs env (mp_int_is_pow2 (.var 0)) m fun res m' =>
      ((∃ k : Nat, (2 ^ 100 + 1 : Int) = 2 ^ k ∧ res = k) ∨ (∀ k : Nat, (2 ^ 100 + 1 : Int) ≠ 2 ^ k) ∧ res = -1) ∧ m' = m :=
  let ⟨m, h⟩ := demo_state; ⟨m, h, C27_is_pow2_partial h rfl (by norm_num)⟩

example : ∃ m, State m demo ∧ Runs env (mp_int_count_bits (.var 1)) m fun res m' =>
      ((-(2 ^ 70) : Int) = 0 → res = 1) ∧
      ((-(2 ^ 70) : Int) ≠ 0 → ∃ n : Nat, res = n + 1 ∧ 2 ^ n ≤ |(-(2 ^ 70) : Int)| ∧ |(-(2 ^ 70) : Int)| < 2 ^ (n + 1)) ∧ m' = m :=
  let ⟨m, h⟩ := demo_state; ⟨m, h, C27_count_bits h rfl⟩

example : ∃ m, State m demo ∧ Runs env (mp_int_is_odd (.var 3)) m fun res m' => (res = true ↔ ¬ 2 ∣ (-7 : Int)) ∧ m' = m :=
  let ⟨m, h⟩ := demo_state; ⟨m, h, C27_is_odd h rfl⟩

example : ∃ m, State m demo ∧ Runs env (mp_int_is_even (.var 3)) m fun res m' => (res = true ↔ 2 ∣ (-7 : Int)) ∧ m' = m :=
  let ⟨m, h⟩ := demo_state; ⟨m, h, C27_is_even h rfl⟩

end Imath
