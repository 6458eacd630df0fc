import Verif.Props.Expt
import Verif.Proof.Exptmod

/-! # Properties C19, C20: modular powers -/

namespace Imath

variable {env : Env} {m : Mem} {ρ : Nat → Option Int} {a b c d u : Nat} {x y v w : Int}

/-! ### C19 modular powers -/

/-- Missing from the full property: the modulus 1 with the exponent 0, where 1 is stored (see `C19_witness`).
Any of the variables may coincide. -/
theorem C19_exptmod_partial (h : State m ρ) (ha : ρ a = some x) (hb : ρ b = some y) (hd : ρ d = some v)
    (hc : ρ c = some w) (hv : 0 < v) (hy : 0 ≤ y) (h1 : y ≠ 0 ∨ v ≠ 1) :
    Runs env (mp_int_exptmod (.var a) (.var b) (.var d) (.var c)) m fun res m' =>
      res = MP_OK ∧ State m' (put ρ c (x ^ y.toNat % v)) := by
  refine .of_wp (mp_int_exptmod_spec (ref_refused env) h.r2 ha hb hd hc rfl hv (fun _ => by omega) fun _ m' h' => ⟨rfl, ?_⟩)
  rw [upd_lift, if_neg (by omega)] at h'; exact h'.state

theorem C19_exptmod_undef (h : State m ρ) (hd : ρ d = some 0) :
    Runs env (mp_int_exptmod (.var a) (.var b) (.var d) (.var c)) m fun res m' => res = MP_UNDEF ∧ m' = m :=
  .of_wp (mp_int_exptmod_undef h.r2 hd ⟨rfl, rfl⟩)

theorem C19_exptmod_range (h : State m ρ) (ha : ρ a = some x) (hb : ρ b = some y) (hd : ρ d = some v)
    (hc : ρ c = some w) (hv : 0 < v) (hy : y < 0) :
    Runs env (mp_int_exptmod (.var a) (.var b) (.var d) (.var c)) m fun res m' => res = MP_RANGE ∧ m' = m :=
  .of_wp (mp_int_exptmod_spec (ref_refused env) h.r2 ha hb hd hc rfl hv (fun _ => ⟨rfl, rfl⟩) fun _ => by omega)

/-- The exponent is a machine integer. Missing from the full property: as for `C19_exptmod_partial`, and the value
-2^63, for which `s_fake` negates LONG_MIN. -/
theorem C19_evalue_partial (h : State m ρ) (hr : -2 ^ 63 < y ∧ y < 2 ^ 63) (ha : ρ a = some x) (hd : ρ d = some v)
    (hc : ρ c = some w) (hv : 0 ≤ v) (h1 : y ≠ 0 ∨ v ≠ 1) :
    Runs env (mp_int_exptmod_evalue (.var a) y (.var d) (.var c)) m fun res m' =>
      (v = 0 → res = MP_UNDEF ∧ State m' ρ) ∧
      (v ≠ 0 → y < 0 → res = MP_RANGE ∧ State m' ρ) ∧
      (v ≠ 0 → 0 ≤ y → res = MP_OK ∧ State m' (put ρ c (x ^ y.toNat % v))) := by
  refine .of_wp (mp_int_exptmod_evalue_spec (ref_refused env) h.r2 (by omega) (by omega) ha hd hc rfl hv
    (fun h0 m' h' => ⟨fun _ => ⟨rfl, h'.state⟩, fun h2 => absurd h0 h2, fun h2 => absurd h0 h2⟩)
    (fun h0 h2 m' h' => ⟨fun h3 => absurd h3 h0, fun _ _ => ⟨rfl, h'.state⟩, fun _ _ => by omega⟩)
    (fun h0 h2 m' h' => ⟨fun h3 => absurd h3 h0, fun _ _ => by omega, fun _ _ => ⟨rfl, ?_⟩⟩))
  rw [upd_lift, if_neg (by omega)] at h'; exact h'.state

/-- The base is a machine integer. Missing from the full property: as for `C19_exptmod_partial`, and the value
-2^63, for which `s_fake` negates LONG_MIN. -/
theorem C19_bvalue_partial (h : State m ρ) (hr : -2 ^ 63 < x ∧ x < 2 ^ 63) (hb : ρ b = some y) (hd : ρ d = some v)
    (hc : ρ c = some w) (hv : 0 ≤ v) (h1 : y ≠ 0 ∨ v ≠ 1) :
    Runs env (mp_int_exptmod_bvalue x (.var b) (.var d) (.var c)) m fun res m' =>
      (v = 0 → res = MP_UNDEF ∧ State m' ρ) ∧
      (v ≠ 0 → y < 0 → res = MP_RANGE ∧ State m' ρ) ∧
      (v ≠ 0 → 0 ≤ y → res = MP_OK ∧ State m' (put ρ c (x ^ y.toNat % v))) := by
  refine .of_wp (mp_int_exptmod_bvalue_spec (ref_refused env) h.r2 (by omega) (by omega) hb hd hc rfl hv
    (fun h0 m' h' => ⟨fun _ => ⟨rfl, h'.state⟩, fun h2 => absurd h0 h2, fun h2 => absurd h0 h2⟩)
    (fun h0 h2 m' h' => ⟨fun h3 => absurd h3 h0, fun _ _ => ⟨rfl, h'.state⟩, fun _ _ => by omega⟩)
    (fun h0 h2 m' h' => ⟨fun h3 => absurd h3 h0, fun _ _ => by omega, fun _ _ => ⟨rfl, ?_⟩⟩))
  rw [upd_lift, if_neg (by omega)] at h'; exact h'.state

/-- 5 to the power of 0 modulo 1 comes out as 1, which is not in [0, 1). This refutes the full property. -/
theorem C19_witness : outcome (mp_int_exptmod (.var 0) (.var 1) (.var 2) (.var 3)) [5, 0, 1, 7] =
    some (MP_OK, [some 5, some 0, some 1, some 1]) := by decide +kernel

/-- A negative modulus, which the documentation does not exclude: 2 to the power of 3 modulo -5 comes out as 13, which
is not reduced. -/
theorem C19_negative_modulus : outcome (mp_int_exptmod (.var 0) (.var 1) (.var 2) (.var 3)) [2, 3, -5, 0] =
    some (MP_OK, [some 2, some 3, some (-5), some 13]) := by decide +kernel

/-- A negative modulus for which the result is not even congruent to the power. -/
theorem C19_negative_modulus_wrong :
    outcome (mp_int_exptmod (.var 0) (.var 1) (.var 2) (.var 3)) [3, 64, -4294901761, 0] =
      some (MP_OK, [some 3, some 64, some (-4294901761), some 15545955142]) ∧
    ¬ (-4294901761 : Int) ∣ 15545955142 - 3 ^ 64 := by
  constructor <;> decide +kernel

/-- Memory with a modulus of four digits. -/
abbrev demoMod : Nat → Option Int := fun n => [(-2) ^ 100 - 1, 2 ^ 70 + 3, 2 ^ 127 - 1, 0][n]?

theorem demoMod_state : State (memOf [(-2) ^ 100 - 1, 2 ^ 70 + 3, 2 ^ 127 - 1, 0]) demoMod :=
  memOf_state _ (by intro v hv; simp only [List.mem_cons, List.not_mem_nil, or_false] at hv; rcases hv with rfl | rfl | rfl | rfl <;> norm_num)

example : ∃ m, State m demoMod ∧ Runs env (mp_int_exptmod (.var 0) (.var 1) (.var 2) (.var 2)) m fun res m' =>
    res = MP_OK ∧ State m' (put demoMod 2 (((-2) ^ 100 - 1) ^ (2 ^ 70 + 3 : Int).toNat % (2 ^ 127 - 1))) :=
  ⟨_, demoMod_state, C19_exptmod_partial demoMod_state rfl rfl rfl rfl (by norm_num) (by norm_num) (.inl (by norm_num))⟩

example : ∃ m, State m demoMod ∧ Runs env (mp_int_exptmod (.var 0) (.var 1) (.var 3) (.var 2)) m fun res m' =>
    res = MP_UNDEF ∧ m' = m :=
  ⟨_, demoMod_state, C19_exptmod_undef demoMod_state rfl⟩

example : ∃ m, State m demo ∧ Runs env (mp_int_exptmod (.var 0) (.var 1) (.var 0) (.var 2)) m fun res m' =>
    res = MP_RANGE ∧ m' = m :=
  let ⟨m, h⟩ := demo_state; ⟨m, h, C19_exptmod_range h rfl rfl rfl rfl (by norm_num) (by norm_num)⟩

example : ∃ m, State m demoMod ∧ Runs env (mp_int_exptmod_evalue (.var 0) (10 ^ 18) (.var 2) (.var 0)) m fun res m' =>
    ((2 : Int) ^ 127 - 1 = 0 → res = MP_UNDEF ∧ State m' demoMod) ∧
    ((2 : Int) ^ 127 - 1 ≠ 0 → (10 : Int) ^ 18 < 0 → res = MP_RANGE ∧ State m' demoMod) ∧
    ((2 : Int) ^ 127 - 1 ≠ 0 → (0 : Int) ≤ 10 ^ 18 →
      res = MP_OK ∧ State m' (put demoMod 0 (((-2) ^ 100 - 1) ^ (10 ^ 18 : Int).toNat % (2 ^ 127 - 1)))) :=
  ⟨_, demoMod_state, C19_evalue_partial demoMod_state (by norm_num) rfl rfl rfl (by norm_num) (.inl (by norm_num))⟩

example : ∃ m, State m demoMod ∧ Runs env (mp_int_exptmod_bvalue (-7) (.var 1) (.var 2) (.var 1)) m fun res m' =>
    ((2 : Int) ^ 127 - 1 = 0 → res = MP_UNDEF ∧ State m' demoMod) ∧
    ((2 : Int) ^ 127 - 1 ≠ 0 → (2 : Int) ^ 70 + 3 < 0 → res = MP_RANGE ∧ State m' demoMod) ∧
    ((2 : Int) ^ 127 - 1 ≠ 0 → (0 : Int) ≤ 2 ^ 70 + 3 →
      res = MP_OK ∧ State m' (put demoMod 1 ((-7) ^ (2 ^ 70 + 3 : Int).toNat % (2 ^ 127 - 1)))) :=
  ⟨_, demoMod_state, C19_bvalue_partial demoMod_state (by norm_num) rfl rfl rfl (by norm_num) (.inl (by norm_num))⟩

/-! ### C20 modular powers with a precomputed constant -/

theorem ndigI {k : Nat} (hk : 1 ≤ k) (h1 : (2 : Int) ^ (32 * (k - 1)) ≤ v) (h2 : v < 2 ^ (32 * k)) : NDig v.toNat k := by
  have e : ∀ n, (4294967296 : Nat) ^ n = 2 ^ (32 * n) := fun n => by rw [Nat.pow_mul]
  have hp : (0 : Int) < 2 ^ (32 * (k - 1)) := by positivity
  refine ⟨hk, ?_, ?_⟩
  · rw [e]; zify; rw [Int.toNat_of_nonneg (by omega)]; exact h1
  · rw [e]; zify; rw [Int.toNat_of_nonneg (by omega)]; exact h2

/-- The modulus `v` has `k` digits of 32 bits. Missing from the full property: a negative old value of the result variable (see
`C20_negative_witness`), and a result variable that is the modulus variable (the assertion fails). -/
theorem C20_redux_const_partial {k : Nat} (h : State m ρ) (hd : ρ d = some v) (hc : ρ c = some w) (hw : 0 ≤ w) (hcd : c ≠ d)
    (hk : 1 ≤ k) (h1 : 2 ^ (32 * (k - 1)) ≤ v) (h2 : v < 2 ^ (32 * k)) :
    Runs env (mp_int_redux_const (.var d) (.var c)) m fun res m' =>
      res = MP_OK ∧ State m' (put ρ c (2 ^ (64 * k) / v)) := by
  have hp : (0 : Int) < 2 ^ (32 * (k - 1)) := by positivity
  obtain ⟨n, rfl⟩ := Int.eq_ofNat_of_zero_le (show 0 ≤ v by omega)
  refine .of_wp (mp_int_redux_const_spec (ref_refused env) h.r2 hc hd rfl hw (by simpa using hcd)
    (by have := ndigI hk h1 h2; rwa [Int.toNat_natCast] at this) fun m' h' => ⟨rfl, ?_⟩)
  rw [upd_lift, show (4294967296 : Nat) = 2 ^ 32 by norm_num, ← Nat.pow_mul, show 32 * (2 * k) = 64 * k by ring] at h'
  push_cast at h'
  exact h'.state

/-- `mp_int_exptmod_known` with the constant of `mp_int_redux_const`. Missing from the full property: the modulus 1
with the exponent 0 (as for `mp_int_exptmod`), and a result variable that is the variable of the constant (see
`C20_alias_witness`). The sign of the constant does not matter. -/
theorem C20_exptmod_known_partial {k : Nat} {U : Int} (h : State m ρ) (ha : ρ a = some x) (hb : ρ b = some y) (hd : ρ d = some v)
    (hu : ρ u = some U) (hU : |U| = 2 ^ (64 * k) / v) (hc : ρ c = some w) (hcu : c ≠ u) (hy : 0 ≤ y) (h0 : y ≠ 0 ∨ v ≠ 1)
    (hk : 1 ≤ k) (h1 : 2 ^ (32 * (k - 1)) ≤ v) (h2 : v < 2 ^ (32 * k)) :
    Runs env (mp_int_exptmod_known (.var a) (.var b) (.var d) (.var u) (.var c)) m fun res m' =>
      res = MP_OK ∧ State m' (put ρ c (x ^ y.toNat % v)) := by
  have hp : (0 : Int) < 2 ^ (32 * (k - 1)) := by positivity
  refine .of_wp (mp_int_exptmod_known_spec (k := k) (ref_refused env) h.r2 ha hb hd hu ?_ hc rfl (by omega) (ndigI hk h1 h2) (by simpa using hcu)
    (fun _ => by omega) fun _ m' h' => ⟨rfl, ?_⟩)
  · obtain ⟨n, rfl⟩ := Int.eq_ofNat_of_zero_le (show 0 ≤ v by omega)
    rw [Int.abs_eq_natAbs] at hU
    rw [Int.toNat_natCast, show (4294967296 : Nat) = 2 ^ 32 by norm_num, ← pow_mul, show 32 * (2 * k) = 64 * k by ring]
    exact_mod_cast hU
  · rw [upd_lift, if_neg (by omega)] at h'; exact h'.state

theorem C20_known_undef (h : State m ρ) (hd : ρ d = some 0) :
    Runs env (mp_int_exptmod_known (.var a) (.var b) (.var d) (.var u) (.var c)) m fun res m' => res = MP_UNDEF ∧ m' = m :=
  .of_wp (mp_int_exptmod_known_undef h.r2 hd ⟨rfl, rfl⟩)

/-- The constant of 2^31 comes out negative if the result variable was negative. -/
theorem C20_negative_witness : outcome (mp_int_redux_const (.var 0) (.var 1)) [2 ^ 31, -1] =
    some (MP_OK, [some (2 ^ 31), some (-2 ^ 33)]) := by decide +kernel

/-- If the result variable is that of the constant, the constant is overwritten before it is used: 3 to the power of 7
modulo 10 comes out as 407, not as 7. -/
theorem C20_alias_witness : outcome (mp_int_redux_const (.var 0) (.var 1)) [10, 0] = some (MP_OK, [some 10, some (2 ^ 64 / 10)]) ∧
    outcome (mp_int_exptmod_known (.var 0) (.var 1) (.var 2) (.var 3) (.var 3)) [3, 7, 10, 2 ^ 64 / 10] =
      some (MP_OK, [some 3, some 7, some 10, some 407]) := by decide +kernel

example : ∃ m, State m demoMod ∧ Runs env (mp_int_redux_const (.var 2) (.var 3)) m fun res m' =>
    res = MP_OK ∧ State m' (put demoMod 3 (2 ^ (64 * 4) / (2 ^ 127 - 1))) :=
  ⟨_, demoMod_state, C20_redux_const_partial demoMod_state rfl rfl (by norm_num) (by norm_num) (by norm_num) (by norm_num) (by norm_num)⟩

/-- The two functions composed: whatever `mp_int_redux_const` computes serves `mp_int_exptmod_known`. -/
theorem C20_compose_partial {k : Nat} (h : State m ρ) (ha : ρ a = some x) (hb : ρ b = some y) (hd : ρ d = some v)
    (hu : ρ u = some w) (hw : 0 ≤ w) (hc : ∃ w', ρ c = some w') (hcu : c ≠ u) (hau : a ≠ u) (hbu : b ≠ u) (hdu : u ≠ d)
    (hy : 0 ≤ y) (h0 : y ≠ 0 ∨ v ≠ 1) (hk : 1 ≤ k) (h1 : 2 ^ (32 * (k - 1)) ≤ v) (h2 : v < 2 ^ (32 * k)) :
    Runs env (mp_int_redux_const (.var d) (.var u)) m fun _ m1 =>
      Runs env (mp_int_exptmod_known (.var a) (.var b) (.var d) (.var u) (.var c)) m1 fun res m' =>
        res = MP_OK ∧ State m' (put (put ρ u (2 ^ (64 * k) / v)) c (x ^ y.toNat % v)) := by
  refine Runs.mono (C20_redux_const_partial h hd hu hw hdu hk h1 h2) fun _ m1 ⟨_, hs⟩ => ?_
  obtain ⟨w', hc⟩ := hc
  have p : ∀ {i : Nat} {t : Int}, i ≠ u → ρ i = some t → put ρ u (2 ^ (64 * k) / v) i = some t := fun hi ht => by
    simp only [put, if_neg hi]; exact ht
  refine C20_exptmod_known_partial hs (p hau ha) (p hbu hb) (p hdu.symm hd) (by simp [put]) (abs_of_nonneg (Int.ediv_nonneg (by positivity) ?_)) (p hcu hc) hcu hy h0 hk h1 h2
  exact le_trans (by positivity) h1

example : ∃ m, State m demoMod ∧ Runs env (mp_int_redux_const (.var 2) (.var 3)) m fun _ m1 =>
    Runs env (mp_int_exptmod_known (.var 0) (.var 1) (.var 2) (.var 3) (.var 0)) m1 fun res m' =>
      res = MP_OK ∧ State m' (put (put demoMod 3 (2 ^ (64 * 4) / (2 ^ 127 - 1))) 0
        (((-2) ^ 100 - 1) ^ (2 ^ 70 + 3 : Int).toNat % (2 ^ 127 - 1))) :=
  ⟨_, demoMod_state, C20_compose_partial demoMod_state rfl rfl rfl rfl (by norm_num) ⟨_, rfl⟩ (by norm_num) (by norm_num) (by norm_num)
    (by norm_num) (by norm_num) (.inl (by norm_num)) (by norm_num) (by norm_num) (by norm_num)⟩

end Imath
