import Verif.Props.Basic
import Verif.Concrete
import Verif.Proof.Expt

/-!
# Properties C05 - C09: division, remainders, powers of two

Optional output arguments (`NULL` or a variable) are `Option Nat`; `ids` turns them into arguments of
the modelled functions, `putO` is the effect of storing through them.
-/

namespace Imath

variable {env : Env} {m : Mem} {ρ : Nat → Option Int} {a b c : Nat} {q r : Option Nat} {x y w : Int}

/-- An optional output argument. -/
def ids (q : Option Nat) : Option Id := q.map .var

/-- `ρ` after storing a value in an optional output variable. -/
def putO (ρ : Nat → Option Int) (q : Option Nat) (v : Int) : Nat → Option Int :=
  match q with
  | some n => put ρ n v
  | none => ρ

/-- The optional output variable is initialised. -/
def HasO (ρ : Nat → Option Int) (q : Option Nat) : Prop := ∀ n, q = some n → ∃ w, ρ n = some w

theorem updO_lift (ρ : Nat → Option Int) (q : Option Nat) (v : Int) :
    updO (lift ρ) (ids q) v = lift (putO ρ q v) := by
  cases q with
  | none => rfl
  | some n => exact upd_lift ρ n v

theorem HasO.ok (h : HasO ρ q) : ∀ z, ids q = some z → (∃ w, lift ρ z = some w) ∧ z.own = true := by
  intro z hz
  cases q with
  | none => simp [ids] at hz
  | some n => cases hz; exact ⟨h n rfl, rfl⟩

theorem ids_ne (h : q ≠ r) : ids q ≠ ids r := by
  cases q <;> cases r <;> simp_all [ids]

/-! ### C05 division -/

/-- Division by a non-zero integer: any of the four variables may coincide, except that quotient and
remainder must not be the same (nor both be NULL, which `mp_int_div` asserts). -/
theorem C05_div (h : State m ρ) (ha : ρ a = some x) (hb : ρ b = some y) (hy : y ≠ 0)
    (hq : HasO ρ q) (hr : HasO ρ r) (hqr : q ≠ r) :
    Runs env (mp_int_div (.var a) (.var b) (ids q) (ids r)) m fun res m' =>
      res = MP_OK ∧ ∃ Q R : Int, x = Q * y + R ∧ |R| < |y| ∧ (R = 0 ∨ R.sign = x.sign) ∧
        Q = x.tdiv y ∧ State m' (putO (putO ρ q Q) r R) := by
  refine .of_wp (mp_int_div_spec (ref_refused env) h.r2 ha hb (ids_ne hqr) hq.ok hr.ok (fun h0 => absurd h0 hy)
    fun _ m' h' => ⟨rfl, x.tdiv y, x.tmod y, ?_, ?_, ?_, rfl, ?_⟩)
  · rw [Int.mul_comm]; exact (Int.mul_tdiv_add_tmod x y).symm
  · have := Nat.mod_lt x.natAbs (show 0 < y.natAbs by omega)
    rw [← Int.natAbs_tmod] at this
    rw [Int.abs_eq_natAbs, Int.abs_eq_natAbs]
    exact_mod_cast this
  · by_cases h0 : x.tmod y = 0
    · exact .inl h0
    · right
      rcases lt_trichotomy x 0 with hx | hx | hx
      · have h1 : 0 ≤ (-x).tmod y := Int.tmod_nonneg y (by omega)
        rw [Int.neg_tmod] at h1
        rw [Int.sign_eq_neg_one_of_neg hx, Int.sign_eq_neg_one_of_neg (by omega)]
      · subst hx; simp at h0
      · have h1 : 0 ≤ x.tmod y := Int.tmod_nonneg y (by omega)
        rw [Int.sign_eq_one_of_pos hx, Int.sign_eq_one_of_pos (by omega)]
  · rw [updO_lift, updO_lift] at h'; exact h'.state

example : ∃ m, State m demo ∧ Runs env (mp_int_div (.var 0) (.var 3) (ids (some 3)) (ids (some 0))) m fun res m' =>
    res = MP_OK ∧ ∃ Q R : Int, 2 ^ 100 + 1 = Q * (-7) + R ∧ |R| < |-7| ∧ (R = 0 ∨ R.sign = Int.sign (2 ^ 100 + 1)) ∧
        Q = Int.tdiv (2 ^ 100 + 1) (-7) ∧ State m' (putO (putO demo (some 3) Q) (some 0) R) :=
  let ⟨m, h⟩ := demo_state
  ⟨m, h, C05_div h rfl rfl (by decide) (by rintro n ⟨⟩; exact ⟨_, rfl⟩) (by rintro n ⟨⟩; exact ⟨_, rfl⟩) (by decide)⟩

theorem C05_div_zero (h : State m ρ) (ha : ρ a = some x) (hb : ρ b = some 0)
    (hq : HasO ρ q) (hr : HasO ρ r) (hqr : q ≠ r) :
    Runs env (mp_int_div (.var a) (.var b) (ids q) (ids r)) m fun res m' => res = MP_UNDEF ∧ m' = m :=
  .of_wp (mp_int_div_spec (ref_refused env) h.r2 ha hb (ids_ne hqr) hq.ok hr.ok (fun _ => ⟨rfl, rfl⟩)
    fun h0 => absurd rfl h0)

example : ∃ m, State m demo ∧ Runs env (mp_int_div (.var 0) (.var 2) (ids (some 1)) (ids none)) m fun res m' =>
    res = MP_UNDEF ∧ m' = m :=
  let ⟨m, h⟩ := demo_state
  ⟨m, h, C05_div_zero h rfl rfl (by rintro n ⟨⟩; exact ⟨_, rfl⟩) (by rintro n ⟨⟩) (by decide)⟩

/-! ### C06 the documented range of the remainder

imath.h:196-205 claims `0 ≤ r < b`.  This holds for non-negative `a` (with `|b|` instead of `b`), and
fails for every negative `a` that is not a multiple of `b`. -/

theorem C06_remainder_range_partial (h : State m ρ) (ha : ρ a = some x) (hb : ρ b = some y) (hy : y ≠ 0)
    (hq : HasO ρ q) (hc : ρ c = some w) (hqr : q ≠ some c) (hx : 0 ≤ x) :
    Runs env (mp_int_div (.var a) (.var b) (ids q) (ids (some c))) m fun res m' =>
      res = MP_OK ∧ ∃ R, 0 ≤ R ∧ R < |y| ∧ Holds m' (.var c) R := by
  refine .of_wp (mp_int_div_spec (ref_refused env) h.r2 ha hb (ids_ne hqr) hq.ok
    (HasO.ok (by rintro n ⟨⟩; exact ⟨w, hc⟩)) (fun h0 => absurd h0 hy)
    fun _ m' h' => ⟨rfl, x.tmod y, Int.tmod_nonneg y hx, ?_, ?_⟩)
  · have := Nat.mod_lt x.natAbs (show 0 < y.natAbs by omega)
    rw [← Int.natAbs_tmod] at this
    have h1 := Int.tmod_nonneg y hx
    rw [Int.abs_eq_natAbs]; omega
  · rw [updO_lift, updO_lift] at h'
    exact h'.state.holds (by simp [putO, put])

theorem C06_remainder_negative (h : State m ρ) (ha : ρ a = some x) (hb : ρ b = some y) (hy : ¬ y ∣ x)
    (hy0 : y ≠ 0) (hq : HasO ρ q) (hc : ρ c = some w) (hqr : q ≠ some c) (hx : x < 0) :
    Runs env (mp_int_div (.var a) (.var b) (ids q) (ids (some c))) m fun res m' =>
      res = MP_OK ∧ ∃ R, R < 0 ∧ Holds m' (.var c) R := by
  refine .of_wp (mp_int_div_spec (ref_refused env) h.r2 ha hb (ids_ne hqr) hq.ok
    (HasO.ok (by rintro n ⟨⟩; exact ⟨w, hc⟩)) (fun h0 => absurd h0 hy0)
    fun _ m' h' => ⟨rfl, x.tmod y, ?_, ?_⟩)
  · have h1 := Int.tmod_nonneg (a := -x) y (by omega)
    have h2 : x.tmod y ≠ 0 := fun h2 => hy (Int.dvd_iff_tmod_eq_zero.2 h2)
    rw [Int.neg_tmod] at h1
    omega
  · rw [updO_lift, updO_lift] at h'
    exact h'.state.holds (by simp [putO, put])

example : ∃ m, State m demo ∧ Runs env (mp_int_div (.var 0) (.var 3) (ids none) (ids (some 2))) m fun res m' =>
      res = MP_OK ∧ ∃ R, 0 ≤ R ∧ R < |-7| ∧ Holds m' (.var 2) R :=
  let ⟨m, h⟩ := demo_state
  ⟨m, h, C06_remainder_range_partial h rfl rfl (by decide) (by rintro n ⟨⟩) rfl (by decide) (by decide)⟩

example : ∃ m, State m demo ∧ Runs env (mp_int_div (.var 3) (.var 0) (ids none) (ids (some 2))) m fun res m' =>
      res = MP_OK ∧ ∃ R, R < 0 ∧ Holds m' (.var 2) R :=
  let ⟨m, h⟩ := demo_state
  ⟨m, h, C06_remainder_negative h rfl rfl (by decide) (by decide) (by rintro n ⟨⟩) rfl (by decide) (by decide)⟩

/-- The concrete counterexample: -7 divided by 2 gives remainder -1. -/
theorem C06_witness : outcome (mp_int_div (.var 0) (.var 1) none (some (.var 2))) [-7, 2, 0] =
    some (MP_OK, [some (-7), some 2, some (-1)]) := by decide +kernel

/-! ### C07 division by a machine integer

The second component of the result is what is stored in `*r`. -/

theorem C07_div_value {v : Int} (h : State m ρ) (ha : ρ a = some x) (hq : HasO ρ q) (hv : -2 ^ 63 < v ∧ v < 2 ^ 63) (h0 : v ≠ 0) :
    Runs env (mp_int_div_value (.var a) v (ids q)) m fun res m' =>
      ∃ Q R : Int, res = (MP_OK, some R) ∧ x = Q * v + R ∧ |R| < |v| ∧ Q = x.tdiv v ∧ State m' (putO ρ q Q) := by
  refine .of_wp (mp_int_div_value_spec (ref_refused env) (by omega) (by omega) h.r2 ha hq.ok (fun h1 => absurd h1 h0)
    fun _ m' h' => ⟨x.tdiv v, x.tmod v, rfl, ?_, ?_, rfl, ?_⟩)
  · rw [Int.mul_comm]; exact (Int.mul_tdiv_add_tmod x v).symm
  · have := Nat.mod_lt x.natAbs (show 0 < v.natAbs by omega)
    rw [← Int.natAbs_tmod] at this
    rw [Int.abs_eq_natAbs, Int.abs_eq_natAbs]
    exact_mod_cast this
  · rw [updO_lift] at h'; exact h'.state

theorem C07_div_value_zero (h : State m ρ) (ha : ρ a = some x) (hq : HasO ρ q) :
    Runs env (mp_int_div_value (.var a) 0 (ids q)) m fun res m' => res = (MP_UNDEF, none) ∧ State m' ρ :=
  .of_wp (mp_int_div_value_spec (ref_refused env) (by omega) (by omega) h.r2 ha hq.ok (fun _ _ h' => ⟨rfl, h'.state⟩)
    fun h0 => absurd rfl h0)

theorem C07_divisible_value {v : Int} (h : State m ρ) (ha : ρ a = some x) (hv : -2 ^ 63 < v ∧ v < 2 ^ 63) :
    Runs env (mp_int_divisible_value (.var a) v) m fun res m' =>
      (res = true ↔ v ≠ 0 ∧ v ∣ x) ∧ State m' ρ :=
  .of_wp (mp_int_divisible_value_spec (ref_refused env) (by omega) (by omega) h.r2 ha fun m' h' =>
    ⟨by simp, h'.state⟩)

example : ∃ m, State m demo ∧ Runs env (mp_int_div_value (.var 0) (-(2 ^ 62)) (ids (some 0))) m fun res m' =>
    ∃ Q R : Int, res = (MP_OK, some R) ∧ 2 ^ 100 + 1 = Q * (-(2 ^ 62)) + R ∧ |R| < |-(2 ^ 62)| ∧
      Q = Int.tdiv (2 ^ 100 + 1) (-(2 ^ 62)) ∧ State m' (putO demo (some 0) Q) :=
  let ⟨m, h⟩ := demo_state
  ⟨m, h, C07_div_value h rfl (by rintro n ⟨⟩; exact ⟨_, rfl⟩) (by norm_num) (by decide)⟩

example : ∃ m, State m demo ∧ Runs env (mp_int_div_value (.var 0) 0 (ids (some 0))) m fun res m' =>
    res = (MP_UNDEF, none) ∧ State m' demo :=
  let ⟨m, h⟩ := demo_state
  ⟨m, h, C07_div_value_zero h rfl (by rintro n ⟨⟩; exact ⟨_, rfl⟩)⟩

example : ∃ m, State m demo ∧ Runs env (mp_int_divisible_value (.var 3) 7) m fun res m' =>
    (res = true ↔ (7 : Int) ≠ 0 ∧ 7 ∣ (-7 : Int)) ∧ State m' demo :=
  let ⟨m, h⟩ := demo_state
  ⟨m, h, C07_divisible_value h rfl (by norm_num)⟩

/-! ### C08 residues -/

theorem C08_mod (h : State m ρ) (ha : ρ a = some x) (hb : ρ b = some y) (hc : ρ c = some w) (hy : 0 < y) :
    Runs env (mp_int_mod (.var a) (.var b) (.var c)) m fun res m' =>
      res = MP_OK ∧ ∃ R, 0 ≤ R ∧ R < y ∧ y ∣ x - R ∧ State m' (put ρ c R) := by
  refine .of_wp (mp_int_mod_spec (ref_refused env) h.r2 ha hb hc rfl (fun h0 => by omega)
    fun _ m' h' => ⟨rfl, x % y, Int.emod_nonneg x (by omega), Int.emod_lt_of_pos x hy, Int.dvd_self_sub_emod, ?_⟩)
  rw [modOf_pos x hy, upd_lift] at h'; exact h'.state

theorem C08_mod_zero (h : State m ρ) (ha : ρ a = some x) (hb : ρ b = some 0) (hc : ρ c = some w) :
    Runs env (mp_int_mod (.var a) (.var b) (.var c)) m fun res m' => res = MP_UNDEF ∧ State m' ρ :=
  .of_wp (mp_int_mod_spec (ref_refused env) h.r2 ha hb hc rfl (fun _ _ h' => ⟨rfl, h'.state⟩) fun h0 => absurd rfl h0)

example : ∃ m, State m demo ∧ Runs env (mp_int_mod (.var 3) (.var 0) (.var 0)) m fun res m' =>
    res = MP_OK ∧ ∃ R, 0 ≤ R ∧ R < 2 ^ 100 + 1 ∧ (2 ^ 100 + 1 : Int) ∣ -7 - R ∧ State m' (put demo 0 R) :=
  let ⟨m, h⟩ := demo_state; ⟨m, h, C08_mod h rfl rfl rfl (by decide)⟩

example : ∃ m, State m demo ∧ Runs env (mp_int_mod (.var 3) (.var 2) (.var 0)) m fun res m' =>
    res = MP_UNDEF ∧ State m' demo :=
  let ⟨m, h⟩ := demo_state; ⟨m, h, C08_mod_zero h rfl rfl rfl⟩

/-- Outside the property: with a negative modulus the result is not even of smaller magnitude than
the modulus. -/
theorem C08_negative_modulus : outcome (mp_int_mod (.var 0) (.var 1) (.var 2)) [-5, -3, 0] =
    some (MP_OK, [some (-5), some (-3), some (-5)]) := by decide +kernel

/-! ### C09 powers of two

The property as stated is false in three ways, each shown by a witness below:
exponents are truncated to 32 bits; `mp_int_div_pow2` produces a negative zero as remainder; and it
computes the remainder from the quotient when `q` and `a` are the same variable. -/

/-- Missing from the full property: exponents from 2^32 on (see `C09_mul_pow2_truncates`). -/
theorem C09_mul_pow2_partial {p : Nat} (h : State m ρ) (ha : ρ a = some x) (hc : ρ c = some w) (hp : p < 2 ^ 32) :
    Runs env (mp_int_mul_pow2 (.var a) p (.var c)) m fun res m' =>
      res = MP_OK ∧ State m' (put ρ c (x * 2 ^ p)) := by
  refine .of_wp (mp_int_mul_pow2_spec (ref_refused env) h.r2 ha hc rfl hp fun m' h' => ⟨rfl, ?_⟩)
  rw [upd_lift] at h'; exact h'.state

example : ∃ m, State m demo ∧ Runs env (mp_int_mul_pow2 (.var 1) (1000 : Nat) (.var 1)) m fun res m' =>
    res = MP_OK ∧ State m' (put demo 1 (-(2 ^ 70) * 2 ^ 1000)) :=
  let ⟨m, h⟩ := demo_state; ⟨m, h, C09_mul_pow2_partial h rfl rfl (by norm_num)⟩

/-- What happens for every exponent: only its low 32 bits count. -/
theorem C09_mul_pow2_truncates {p : Nat} (h : State m ρ) (ha : ρ a = some x) (hc : ρ c = some w) :
    Runs env (mp_int_mul_pow2 (.var a) p (.var c)) m fun res m' =>
      res = MP_OK ∧ State m' (put ρ c (x * 2 ^ (p % 2 ^ 32))) := by
  have e : mp_int_mul_pow2 (.var a) p (.var c) = mp_int_mul_pow2 (.var a) ((p % 2 ^ 32 : Nat) : Int) (.var c) := by
    have h1 : intU32 ((p % 2 ^ 32 : Nat) : Int) = intU32 p := by unfold intU32; omega
    have h2 : decide ((p : Int) ≥ 0) = decide (((p % 2 ^ 32 : Nat) : Int) ≥ 0) := by
      rw [decide_eq_true (show (p : Int) ≥ 0 by omega), decide_eq_true (by omega)]
    unfold mp_int_mul_pow2
    rw [h1, h2]
  rw [e]
  exact C09_mul_pow2_partial h ha hc (Nat.mod_lt _ (by norm_num))

theorem C09_mul_pow2_witness : outcome (mp_int_mul_pow2 (.var 0) (2 ^ 32) (.var 0)) [1] =
    some (MP_OK, [some 1]) := by decide +kernel

/-- Missing from the full property: exponents from 2^32 on; `q = a` with a remainder wanted; a
remainder that is zero for a negative dividend. -/
theorem C09_div_pow2_partial {p : Nat} (h : State m ρ) (ha : ρ a = some x) (hp : p < 2 ^ 32)
    (hq : HasO ρ q) (hr : HasO ρ r) (hqr : q ≠ r) (hal : q = some a → r = none)
    (hnz : r ≠ none → x < 0 → ¬ 2 ^ p ∣ x) :
    Runs env (mp_int_div_pow2 (.var a) p (ids q) (ids r)) m fun res m' =>
      res = MP_OK ∧ ∃ Q R : Int, x = Q * 2 ^ p + R ∧ |R| < 2 ^ p ∧ Q = x.tdiv (2 ^ p) ∧
        State m' (putO (putO ρ q Q) r R) := by
  refine .of_wp (mp_int_div_pow2_spec (ref_refused env) h.r2 ha (ids_ne hqr) hp hq.ok hr.ok ?_ ?_
    fun m' h' => ⟨rfl, x.tdiv (2 ^ p), x.tmod (2 ^ p), ?_, ?_, rfl, ?_⟩)
  · intro hh
    cases q with
    | none => simp [ids] at hh
    | some n =>
      simp only [ids, Option.map_some, Option.some.injEq, Id.var.injEq] at hh
      rw [hal (by rw [hh])]; rfl
  · intro hr' hx h0
    refine hnz ?_ hx (Int.dvd_iff_tmod_eq_zero.2 h0)
    rintro rfl; exact hr' rfl
  · rw [Int.mul_comm]; exact (Int.mul_tdiv_add_tmod x _).symm
  · have hpos : (0 : Int) < 2 ^ p := by positivity
    have := Nat.mod_lt x.natAbs (show 0 < ((2 : Int) ^ p).natAbs by omega)
    rw [← Int.natAbs_tmod] at this
    rw [Int.abs_eq_natAbs]; omega
  · rw [updO_lift, updO_lift] at h'; exact h'.state

example : ∃ m, State m demo ∧ Runs env (mp_int_div_pow2 (.var 3) (2 : Nat) (ids (some 0)) (ids (some 3))) m fun res m' =>
    res = MP_OK ∧ ∃ Q R : Int, -7 = Q * 2 ^ 2 + R ∧ |R| < 2 ^ 2 ∧ Q = Int.tdiv (-7) (2 ^ 2) ∧
        State m' (putO (putO demo (some 0) Q) (some 3) R) :=
  let ⟨m, h⟩ := demo_state
  ⟨m, h, C09_div_pow2_partial h rfl (by norm_num) (by rintro n ⟨⟩; exact ⟨_, rfl⟩) (by rintro n ⟨⟩; exact ⟨_, rfl⟩)
    (by decide) (by decide) (by decide)⟩

/-- Dividing -8 by 2^2 leaves a remainder with magnitude zero and negative sign (`used`, `sign`,
digits); `mp_int_compare` then finds it to be less than zero. -/
theorem C09_negative_zero :
    (match mp_int_div_pow2 (.var 0) 2 none (some (.var 1)) env0 (memOf [-8, 0]) with
      | .ok r m' => some (r, rawAt m' 1)
      | _ => none) = some (MP_OK, some (1, true, [0])) ∧
    outcome (do let _ ← mp_int_div_pow2 (.var 0) 2 none (some (.var 1)); mp_int_compare (.var 1) (.var 2)) [-8, 5, 0] =
      some (-1, [some (-8), some 0, some 0]) := by decide +kernel

/-- 5 divided by 2 with `q` the same variable as `a`: the quotient is 2, but the remainder is
computed as 2 mod 2. -/
theorem C09_alias_witness : outcome (mp_int_div_pow2 (.var 0) 1 (some (.var 0)) (some (.var 1))) [5, 7] =
    some (MP_OK, [some 2, some 0]) := by decide +kernel

end Imath
