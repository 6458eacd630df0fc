import Verif.Proof.Bridge

/-!
# Properties C01 - C04, C10, C11: ring operations, comparison, copying, initialisation

`State m ρ` and `Runs` are defined in `Verif.Spec`.  In every theorem the environment (allocator and
contents of new memory), the memory and the values are arbitrary, and the variables may coincide.
-/

namespace Imath

variable {env : Env} {m : Mem} {ρ : Nat → Option Int} {a b c : Nat} {x y w : Int}

/-- Four variables with large values of both signs, and a fifth one that is not initialised. -/
def demo : Nat → Option Int
  | 0 => some (2 ^ 100 + 1)
  | 1 => some (-(2 ^ 70))
  | 2 => some 0
  | 3 => some (-7)
  | _ => none

/-- The hypotheses `State m ρ`, `ρ a = some x` of the theorems below can be met: there is a memory
that represents `demo`. -/
theorem demo_state : ∃ m, State m demo := by
  refine exists_state demo 4 ?_ ?_
  · intro n hn
    match n, hn with
    | n + 4, _ => rfl
  · have hb : 2 ^ 100 + 1 < (2 ^ 32) ^ MAXD := by
      rw [← Nat.pow_mul]
      exact Nat.lt_of_lt_of_le (show 2 ^ 100 + 1 < 2 ^ 101 by norm_num) (Nat.pow_le_pow_right (by norm_num) (by norm_num))
    have hc : ∀ k, k ≤ 2 ^ 100 + 1 → k < (2 ^ 32) ^ MAXD := fun k hk => Nat.lt_of_le_of_lt hk hb
    intro n v hv
    refine hc _ ?_
    match n, hv with
    | 0, hv => simp only [demo, Option.some.injEq] at hv; subst hv; norm_num
    | 1, hv => simp only [demo, Option.some.injEq] at hv; subst hv; norm_num
    | 2, hv => simp only [demo, Option.some.injEq] at hv; subst hv; norm_num
    | 3, hv => simp only [demo, Option.some.injEq] at hv; subst hv; norm_num
    | n + 4, hv => simp [demo] at hv

/-- The variables 0, 1, 2, ... have the given values. -/
def vars (l : List Int) : Nat → Option Int := fun n => l[n]?

theorem vars_state {l : List Int} (hl : ∀ v ∈ l, v.natAbs ≤ 2 ^ 100) : ∃ m, State m (vars l) := by
  refine exists_state _ l.length (fun n hn => List.getElem?_eq_none hn) fun n v hv => ?_
  refine Nat.lt_of_le_of_lt (hl v (List.mem_of_getElem? hv)) ?_
  rw [← Nat.pow_mul]
  exact Nat.pow_lt_pow_right (by norm_num) (by norm_num)

/-! ### C01 addition -/

theorem C01_add (h : State m ρ) (ha : ρ a = some x) (hb : ρ b = some y) (hc : ρ c = some w) :
    Runs env (mp_int_add (.var a) (.var b) (.var c)) m fun r m' =>
      r = MP_OK ∧ State m' (put ρ c (x + y)) := by
  refine .of_wp (mp_int_add_spec (ref_refused env) h.r2 ha hb hc rfl fun m' h' => ⟨rfl, ?_⟩)
  rw [upd_lift] at h'; exact h'.state

example : ∃ m, State m demo ∧ Runs env (mp_int_add (.var 0) (.var 1) (.var 1)) m fun r m' =>
    r = MP_OK ∧ State m' (put demo 1 (2 ^ 100 + 1 + -(2 ^ 70))) :=
  let ⟨m, h⟩ := demo_state; ⟨m, h, C01_add h rfl rfl rfl⟩

theorem C01_add_value {v : Int} (h : State m ρ) (ha : ρ a = some x) (hc : ρ c = some w)
    (hv : -2 ^ 63 < v ∧ v < 2 ^ 63) :
    Runs env (mp_int_add_value (.var a) v (.var c)) m fun r m' =>
      r = MP_OK ∧ State m' (put ρ c (x + v)) := by
  refine .of_wp (mp_int_add_value_spec (ref_refused env) (by omega) (by omega) h.r2 ha hc rfl fun m' h' => ⟨rfl, ?_⟩)
  rw [upd_lift] at h'; exact h'.state

example : ∃ m, State m demo ∧ Runs env (mp_int_add_value (.var 0) (-(2 ^ 40)) (.var 0)) m fun r m' =>
    r = MP_OK ∧ State m' (put demo 0 (2 ^ 100 + 1 + -(2 ^ 40))) :=
  let ⟨m, h⟩ := demo_state; ⟨m, h, C01_add_value h rfl rfl (by norm_num)⟩

/-! ### C02 subtraction -/

theorem C02_sub (h : State m ρ) (ha : ρ a = some x) (hb : ρ b = some y) (hc : ρ c = some w) :
    Runs env (mp_int_sub (.var a) (.var b) (.var c)) m fun r m' =>
      r = MP_OK ∧ State m' (put ρ c (x - y)) := by
  refine .of_wp (mp_int_sub_spec (ref_refused env) h.r2 ha hb hc rfl fun m' h' => ⟨rfl, ?_⟩)
  rw [upd_lift] at h'; exact h'.state

example : ∃ m, State m demo ∧ Runs env (mp_int_sub (.var 1) (.var 0) (.var 0)) m fun r m' =>
    r = MP_OK ∧ State m' (put demo 0 (-(2 ^ 70) - (2 ^ 100 + 1))) :=
  let ⟨m, h⟩ := demo_state; ⟨m, h, C02_sub h rfl rfl rfl⟩

theorem C02_sub_value {v : Int} (h : State m ρ) (ha : ρ a = some x) (hc : ρ c = some w)
    (hv : -2 ^ 63 < v ∧ v < 2 ^ 63) :
    Runs env (mp_int_sub_value (.var a) v (.var c)) m fun r m' =>
      r = MP_OK ∧ State m' (put ρ c (x - v)) := by
  refine .of_wp (mp_int_sub_value_spec (ref_refused env) (by omega) (by omega) h.r2 ha hc rfl fun m' h' => ⟨rfl, ?_⟩)
  rw [upd_lift] at h'; exact h'.state

example : ∃ m, State m demo ∧ Runs env (mp_int_sub_value (.var 0) (2 ^ 63 - 1) (.var 2)) m fun r m' =>
    r = MP_OK ∧ State m' (put demo 2 (2 ^ 100 + 1 - (2 ^ 63 - 1))) :=
  let ⟨m, h⟩ := demo_state; ⟨m, h, C02_sub_value h rfl rfl (by norm_num)⟩

/-! ### C03 multiplication -/

theorem C03_mul (h : State m ρ) (ha : ρ a = some x) (hb : ρ b = some y) (hc : ρ c = some w) :
    Runs env (mp_int_mul (.var a) (.var b) (.var c)) m fun r m' =>
      r = MP_OK ∧ State m' (put ρ c (x * y)) := by
  refine .of_wp (mp_int_mul_spec (ref_refused env) h.r2 ha hb hc rfl fun m' h' => ⟨rfl, ?_⟩)
  rw [upd_lift] at h'; exact h'.state

example : ∃ m, State m demo ∧ Runs env (mp_int_mul (.var 1) (.var 0) (.var 0)) m fun r m' =>
    r = MP_OK ∧ State m' (put demo 0 (-(2 ^ 70) * (2 ^ 100 + 1))) :=
  let ⟨m, h⟩ := demo_state; ⟨m, h, C03_mul h rfl rfl rfl⟩

theorem C03_mul_value {v : Int} (h : State m ρ) (ha : ρ a = some x) (hc : ρ c = some w)
    (hv : -2 ^ 63 < v ∧ v < 2 ^ 63) :
    Runs env (mp_int_mul_value (.var a) v (.var c)) m fun r m' =>
      r = MP_OK ∧ State m' (put ρ c (x * v)) := by
  refine .of_wp (mp_int_mul_value_spec (ref_refused env) (by omega) (by omega) h.r2 ha hc rfl fun m' h' => ⟨rfl, ?_⟩)
  rw [upd_lift] at h'; exact h'.state

example : ∃ m, State m demo ∧ Runs env (mp_int_mul_value (.var 0) (-12) (.var 0)) m fun r m' =>
    r = MP_OK ∧ State m' (put demo 0 ((2 ^ 100 + 1) * -12)) :=
  let ⟨m, h⟩ := demo_state; ⟨m, h, C03_mul_value h rfl rfl (by norm_num)⟩

/-! ### C04 squaring -/

theorem C04_sqr (h : State m ρ) (ha : ρ a = some x) (hc : ρ c = some w) :
    Runs env (mp_int_sqr (.var a) (.var c)) m fun r m' =>
      r = MP_OK ∧ State m' (put ρ c (x ^ 2)) := by
  refine .of_wp (mp_int_sqr_spec (ref_refused env) h.r2 ha hc rfl fun m' h' => ⟨rfl, ?_⟩)
  rw [upd_lift] at h'; rw [pow_two]; exact h'.state

example : ∃ m, State m demo ∧ Runs env (mp_int_sqr (.var 1) (.var 1)) m fun r m' =>
    r = MP_OK ∧ State m' (put demo 1 ((-(2 ^ 70)) ^ 2)) :=
  let ⟨m, h⟩ := demo_state; ⟨m, h, C04_sqr h rfl rfl⟩

/-! ### C10 comparison -/

/-- `r` has the sign of the comparison of `x` with `y`. -/
def Cmp (r x y : Int) : Prop := (r < 0 ↔ x < y) ∧ (r = 0 ↔ x = y) ∧ (0 < r ↔ y < x)

theorem cmp_cmpZ (x y : Int) : Cmp (cmpZ x y) x y := by
  unfold Cmp cmpZ
  refine ⟨?_, ?_, ?_⟩ <;> (repeat' split) <;> omega

theorem cmp_sign (x : Int) : Cmp x.sign x 0 := by
  refine ⟨Int.sign_neg_iff, Int.sign_eq_zero_iff_zero, Int.sign_pos_iff⟩

theorem C10_compare (h : State m ρ) (ha : ρ a = some x) (hb : ρ b = some y) :
    Runs env (mp_int_compare (.var a) (.var b)) m fun r m' => Cmp r x y ∧ m' = m :=
  .of_wp (mp_int_compare_spec h.r2 ha hb ⟨cmp_cmpZ x y, rfl⟩)

example : ∃ m, State m demo ∧ Runs env (mp_int_compare (.var 0) (.var 1)) m fun r m' =>
    Cmp r (2 ^ 100 + 1) (-(2 ^ 70)) ∧ m' = m :=
  let ⟨m, h⟩ := demo_state; ⟨m, h, C10_compare h rfl rfl⟩

theorem C10_compare_unsigned (h : State m ρ) (ha : ρ a = some x) (hb : ρ b = some y) :
    Runs env (mp_int_compare_unsigned (.var a) (.var b)) m fun r m' => Cmp r |x| |y| ∧ m' = m :=
  .of_wp (mp_int_compare_unsigned_spec h.r2 ha hb ⟨cmp_cmpZ _ _, rfl⟩)

example : ∃ m, State m demo ∧ Runs env (mp_int_compare_unsigned (.var 1) (.var 3)) m fun r m' =>
    Cmp r |-(2 ^ 70)| |-7| ∧ m' = m :=
  let ⟨m, h⟩ := demo_state; ⟨m, h, C10_compare_unsigned h rfl rfl⟩

theorem C10_compare_zero (h : State m ρ) (ha : ρ a = some x) :
    Runs env (mp_int_compare_zero (.var a)) m fun r m' => Cmp r x 0 ∧ m' = m :=
  .of_wp (mp_int_compare_zero_spec h.r2 ha ⟨cmp_sign x, rfl⟩)

example : ∃ m, State m demo ∧ Runs env (mp_int_compare_zero (.var 1)) m fun r m' =>
    Cmp r (-(2 ^ 70)) 0 ∧ m' = m :=
  let ⟨m, h⟩ := demo_state; ⟨m, h, C10_compare_zero h rfl⟩

/-- All values of type `mp_small`, including `MP_SMALL_MIN`. -/
theorem C10_compare_value {v : Int} (h : State m ρ) (ha : ρ a = some x) (hv : -2 ^ 63 ≤ v ∧ v < 2 ^ 63) :
    Runs env (mp_int_compare_value (.var a) v) m fun r m' => Cmp r x v ∧ State m' ρ :=
  .of_wp (mp_int_compare_value_spec (by omega) (by omega) h.r2 ha fun _ h' => ⟨cmp_cmpZ x v, h'.state⟩)

example : ∃ m, State m demo ∧ Runs env (mp_int_compare_value (.var 1) (-2 ^ 63)) m fun r m' =>
    Cmp r (-(2 ^ 70)) (-2 ^ 63) ∧ State m' demo :=
  let ⟨m, h⟩ := demo_state; ⟨m, h, C10_compare_value h rfl (by norm_num)⟩

theorem C10_compare_uvalue {v : Nat} (h : State m ρ) (ha : ρ a = some x) (hv : v < 2 ^ 64) :
    Runs env (mp_int_compare_uvalue (.var a) v) m fun r m' => Cmp r x v ∧ State m' ρ :=
  .of_wp (mp_int_compare_uvalue_spec (by omega) h.r2 ha fun _ h' => ⟨cmp_cmpZ x v, h'.state⟩)

example : ∃ m, State m demo ∧ Runs env (mp_int_compare_uvalue (.var 0) (2 ^ 64 - 1)) m fun r m' =>
    Cmp r (2 ^ 100 + 1) ((2 ^ 64 - 1 : Nat) : Int) ∧ State m' demo :=
  let ⟨m, h⟩ := demo_state; ⟨m, h, C10_compare_uvalue h rfl (by norm_num)⟩

/-! ### C11 copying, sign, exchange, assignment, initialisation, release -/

theorem C11_copy (h : State m ρ) (ha : ρ a = some x) (hc : ρ c = some w) :
    Runs env (mp_int_copy (.var a) (.var c)) m fun r m' => r = MP_OK ∧ State m' (put ρ c x) := by
  refine .of_wp (mp_int_copy_spec (ref_refused env) h.r2 ha hc rfl fun m' h' => ⟨rfl, ?_⟩)
  rw [upd_lift] at h'; exact h'.state

example : ∃ m, State m demo ∧ Runs env (mp_int_copy (.var 1) (.var 2)) m fun r m' =>
    r = MP_OK ∧ State m' (put demo 2 (-(2 ^ 70))) :=
  let ⟨m, h⟩ := demo_state; ⟨m, h, C11_copy h rfl rfl⟩

theorem C11_neg (h : State m ρ) (ha : ρ a = some x) (hc : ρ c = some w) :
    Runs env (mp_int_neg (.var a) (.var c)) m fun r m' => r = MP_OK ∧ State m' (put ρ c (-x)) := by
  refine .of_wp (mp_int_neg_spec (ref_refused env) h.r2 ha hc rfl fun m' h' => ⟨rfl, ?_⟩)
  rw [upd_lift] at h'; exact h'.state

example : ∃ m, State m demo ∧ Runs env (mp_int_neg (.var 2) (.var 2)) m fun r m' =>
    r = MP_OK ∧ State m' (put demo 2 (-0)) :=
  let ⟨m, h⟩ := demo_state; ⟨m, h, C11_neg h rfl rfl⟩

theorem C11_abs (h : State m ρ) (ha : ρ a = some x) (hc : ρ c = some w) :
    Runs env (mp_int_abs (.var a) (.var c)) m fun r m' => r = MP_OK ∧ State m' (put ρ c |x|) := by
  refine .of_wp (mp_int_abs_spec (ref_refused env) h.r2 ha hc rfl fun m' h' => ⟨rfl, ?_⟩)
  rw [upd_lift] at h'; exact h'.state

example : ∃ m, State m demo ∧ Runs env (mp_int_abs (.var 1) (.var 3)) m fun r m' =>
    r = MP_OK ∧ State m' (put demo 3 |-(2 ^ 70)|) :=
  let ⟨m, h⟩ := demo_state; ⟨m, h, C11_abs h rfl rfl⟩

theorem C11_zero (h : State m ρ) (hc : ρ c = some w) :
    Runs env (mp_int_zero (.var c)) m fun _ m' => State m' (put ρ c 0) := by
  refine .of_wp (mp_int_zero_spec (σ := lift ρ) h.r2 hc fun m' h' => ?_)
  rw [upd_lift] at h'; exact h'.state

example : ∃ m, State m demo ∧ Runs env (mp_int_zero (.var 1)) m fun _ m' => State m' (put demo 1 0) :=
  let ⟨m, h⟩ := demo_state; ⟨m, h, C11_zero h rfl⟩

theorem C11_swap (h : State m ρ) (ha : ρ a = some x) (hc : ρ c = some y) :
    Runs env (mp_int_swap (.var a) (.var c)) m fun _ m' => State m' (put (put ρ a y) c x) := by
  refine .of_wp (mp_int_swap_spec h.r2 ha hc rfl rfl fun m' h' => ?_)
  rw [upd_lift, upd_lift] at h'; exact h'.state

example : ∃ m, State m demo ∧ Runs env (mp_int_swap (.var 1) (.var 3)) m fun _ m' =>
    State m' (put (put demo 1 (-7)) 3 (-(2 ^ 70))) :=
  let ⟨m, h⟩ := demo_state; ⟨m, h, C11_swap h rfl rfl⟩

theorem C11_set_value {v : Int} (h : State m ρ) (hc : ρ c = some w) (hv : -2 ^ 63 < v ∧ v < 2 ^ 63) :
    Runs env (mp_int_set_value (.var c) v) m fun r m' => r = MP_OK ∧ State m' (put ρ c v) := by
  refine .of_wp (mp_int_set_value_spec (ref_refused env) (by omega) (by omega) h.r2 hc rfl fun m' h' => ⟨rfl, ?_⟩)
  rw [upd_lift] at h'; exact h'.state

example : ∃ m, State m demo ∧ Runs env (mp_int_set_value (.var 1) (-(2 ^ 50))) m fun r m' =>
    r = MP_OK ∧ State m' (put demo 1 (-(2 ^ 50))) :=
  let ⟨m, h⟩ := demo_state; ⟨m, h, C11_set_value h rfl (by norm_num)⟩

theorem C11_set_uvalue {v : Nat} (h : State m ρ) (hc : ρ c = some w) (hv : v < 2 ^ 64) :
    Runs env (mp_int_set_uvalue (.var c) v) m fun r m' => r = MP_OK ∧ State m' (put ρ c v) := by
  refine .of_wp (mp_int_set_uvalue_spec (ref_refused env) (by omega) h.r2 hc rfl fun m' h' => ⟨rfl, ?_⟩)
  rw [upd_lift] at h'; exact h'.state

example : ∃ m, State m demo ∧ Runs env (mp_int_set_uvalue (.var 1) (2 ^ 64 - 1)) m fun r m' =>
    r = MP_OK ∧ State m' (put demo 1 ((2 ^ 64 - 1 : Nat) : Int)) :=
  let ⟨m, h⟩ := demo_state; ⟨m, h, C11_set_uvalue h rfl (by norm_num)⟩

theorem C11_init (h : State m ρ) (hc : ρ c = none) :
    Runs env (mp_int_init (.var c)) m fun r m' => r = MP_OK ∧ State m' (put ρ c 0) := by
  refine .of_wp (mp_int_init_spec h.r2 (R2.declVar h.r2 c) hc fun m' h' => ⟨rfl, ?_⟩)
  rw [upd_lift] at h'; exact h'.state

example : ∃ m, State m demo ∧ Runs env (mp_int_init (.var 4)) m fun r m' =>
    r = MP_OK ∧ State m' (put demo 4 0) :=
  let ⟨m, h⟩ := demo_state; ⟨m, h, C11_init h rfl⟩

/-- Any requested precision but `UINT_MAX`; for that one see `C13_init_size_max`. -/
theorem C11_init_size {prec : Nat} (h : State m ρ) (hc : ρ c = none) (hp : prec < 2 ^ 32 - 1) :
    Runs env (mp_int_init_size (.var c) prec) m fun r m' => r = MP_OK ∧ State m' (put ρ c 0) := by
  refine .of_wp (mp_int_init_size_spec (ref_refused env) h.r2 (R2.declVar h.r2 c) hc (by omega) fun m' h' => ⟨rfl, ?_⟩)
  rw [upd_lift] at h'; exact h'.state

example : ∃ m, State m demo ∧ Runs env (mp_int_init_size (.var 4) 17) m fun r m' =>
    r = MP_OK ∧ State m' (put demo 4 0) :=
  let ⟨m, h⟩ := demo_state; ⟨m, h, C11_init_size h rfl (by norm_num)⟩

theorem C11_init_copy (h : State m ρ) (hc : ρ c = none) (ha : ρ a = some x) :
    Runs env (mp_int_init_copy (.var c) (.var a)) m fun r m' => r = MP_OK ∧ State m' (put ρ c x) := by
  refine .of_wp (mp_int_init_copy_spec (ref_refused env) h.r2 (R2.declVar h.r2 c) hc ha fun m' h' => ⟨rfl, ?_⟩)
  rw [upd_lift] at h'; exact h'.state

example : ∃ m, State m demo ∧ Runs env (mp_int_init_copy (.var 4) (.var 1)) m fun r m' =>
    r = MP_OK ∧ State m' (put demo 4 (-(2 ^ 70))) :=
  let ⟨m, h⟩ := demo_state; ⟨m, h, C11_init_copy h rfl rfl⟩

theorem C11_init_value {v : Int} (h : State m ρ) (hc : ρ c = none) (hv : -2 ^ 63 < v ∧ v < 2 ^ 63) :
    Runs env (mp_int_init_value (.var c) v) m fun r m' => r = MP_OK ∧ State m' (put ρ c v) := by
  refine .of_wp (mp_int_init_value_spec (ref_refused env) (by omega) (by omega) h.r2 hc fun m' h' => ⟨rfl, ?_⟩)
  rw [upd_lift] at h'; exact h'.state

example : ∃ m, State m demo ∧ Runs env (mp_int_init_value (.var 4) (-(2 ^ 40))) m fun r m' =>
    r = MP_OK ∧ State m' (put demo 4 (-(2 ^ 40))) :=
  let ⟨m, h⟩ := demo_state; ⟨m, h, C11_init_value h rfl (by norm_num)⟩

theorem C11_init_uvalue {v : Nat} (h : State m ρ) (hc : ρ c = none) (hv : v < 2 ^ 64) :
    Runs env (mp_int_init_uvalue (.var c) v) m fun r m' => r = MP_OK ∧ State m' (put ρ c v) := by
  refine .of_wp (mp_int_init_uvalue_spec (ref_refused env) (by omega) h.r2 hc fun m' h' => ⟨rfl, ?_⟩)
  rw [upd_lift] at h'; exact h'.state

example : ∃ m, State m demo ∧ Runs env (mp_int_init_uvalue (.var 4) (2 ^ 64 - 1)) m fun r m' =>
    r = MP_OK ∧ State m' (put demo 4 ((2 ^ 64 - 1 : Nat) : Int)) :=
  let ⟨m, h⟩ := demo_state; ⟨m, h, C11_init_uvalue h rfl (by norm_num)⟩

theorem C11_clear (h : State m ρ) (hc : ρ c = some w) :
    Runs env (mp_int_clear (.var c)) m fun _ m' => State m' (del ρ c) := by
  refine .of_wp (mp_int_clear_spec h.r2 hc fun m' h' => ?_)
  rw [upd_lift_none] at h'; exact h'.state

example : ∃ m, State m demo ∧ Runs env (mp_int_clear (.var 1)) m fun _ m' => State m' (del demo 1) :=
  let ⟨m, h⟩ := demo_state; ⟨m, h, C11_clear h rfl⟩

end Imath
