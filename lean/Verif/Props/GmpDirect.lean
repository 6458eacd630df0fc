import Verif.Props.Gmp
import Verif.Props.Rat
import Verif.Concrete

/-!
# Property C74: the functions of the GMP-compatible interface that call one function of the library

In gmp_compat.c the result comes first among the arguments, in imath.c and imrat.c last: the theorems fix
which argument is written and the order of the operands.
-/

namespace Imath

variable {env : Env} {m : Mem} {ρ : Nat → Option Int} {a b c : Nat} {x y w : Int} {p q : ℚ} {s t d : RVar}

/-- A call that returns `MP_OK` passes `CHECK`. -/
theorem Runs.check {f : M Int} {P : Mem → Prop} (h : Runs env f m fun r m' => r = MP_OK ∧ P m') :
    Runs env (CHECK f) m fun _ m' => P m' := by
  unfold Runs at h ⊢
  have hc : CHECK f env m = match f env m with
    | .ok r m' => (cassert (r = MP_OK) : M Unit) env m'
    | .fault e => .fault e := by
    unfold CHECK
    show (bind f _ : M Unit) env m = _
    cases hf : f env m <;> simp only [bind, M.bind, hf]
  rw [hc]
  cases hf : f env m with
  | ok r m' =>
    rw [hf] at h
    obtain ⟨h1, h2⟩ := h
    subst h1
    exact h2
  | fault e =>
    rw [hf] at h
    cases e <;> exact h

/-! ### Integers -/

theorem C74_abs (h : State m ρ) (ha : ρ a = some x) (hc : ρ c = some w) :
    Runs env (impz_abs (.var c) (.var a)) m fun _ m' => State m' (put ρ c |x|) := (C11_abs h ha hc).check

theorem C74_neg (h : State m ρ) (ha : ρ a = some x) (hc : ρ c = some w) :
    Runs env (impz_neg (.var c) (.var a)) m fun _ m' => State m' (put ρ c (-x)) := (C11_neg h ha hc).check

theorem C74_set (h : State m ρ) (ha : ρ a = some x) (hc : ρ c = some w) :
    Runs env (impz_set (.var c) (.var a)) m fun _ m' => State m' (put ρ c x) := (C11_copy h ha hc).check

theorem C74_add (h : State m ρ) (ha : ρ a = some x) (hb : ρ b = some y) (hc : ρ c = some w) :
    Runs env (impz_add (.var c) (.var a) (.var b)) m fun _ m' => State m' (put ρ c (x + y)) := (C01_add h ha hb hc).check

theorem C74_sub (h : State m ρ) (ha : ρ a = some x) (hb : ρ b = some y) (hc : ρ c = some w) :
    Runs env (impz_sub (.var c) (.var a) (.var b)) m fun _ m' => State m' (put ρ c (x - y)) := (C02_sub h ha hb hc).check

theorem C74_mul (h : State m ρ) (ha : ρ a = some x) (hb : ρ b = some y) (hc : ρ c = some w) :
    Runs env (impz_mul (.var c) (.var a) (.var b)) m fun _ m' => State m' (put ρ c (x * y)) := (C03_mul h ha hb hc).check

theorem C74_swap (h : State m ρ) (ha : ρ a = some x) (hc : ρ c = some y) :
    Runs env (impz_swap (.var a) (.var c)) m fun _ m' => State m' (put (put ρ a y) c x) := C11_swap h ha hc

/-- Every value of type `long` but the least -/
theorem C74_set_si_partial {v : Int} (h : State m ρ) (hc : ρ c = some w) (hv : -2 ^ 63 < v ∧ v < 2 ^ 63) :
    Runs env (impz_set_si (.var c) v) m fun _ m' => State m' (put ρ c v) := (C11_set_value h hc hv).check

/-- With the least value the behaviour is undefined: imath.c negates it. -/
theorem C74_set_si_min : faultOf (impz_set_si (.var 0) (-2 ^ 63)) [0] = some .ub := by decide +kernel

theorem C74_set_ui {v : Nat} (h : State m ρ) (hc : ρ c = some w) (hv : v < 2 ^ 64) :
    Runs env (impz_set_ui (.var c) v) m fun _ m' => State m' (put ρ c v) := (C11_set_uvalue h hc hv).check

theorem C74_init (h : State m ρ) (hc : ρ c = none) :
    Runs env (impz_init (.var c)) m fun _ m' => State m' (put ρ c 0) := (C11_init h hc).check

theorem C74_clear (h : State m ρ) (hc : ρ c = some w) :
    Runs env (impz_clear (.var c)) m fun _ m' => State m' (del ρ c) := C11_clear h hc

theorem C74_cmp (h : State m ρ) (ha : ρ a = some x) (hb : ρ b = some y) :
    Runs env (impz_cmp (.var a) (.var b)) m fun r m' => Cmp r x y ∧ m' = m := C10_compare h ha hb

theorem C74_cmpabs (h : State m ρ) (ha : ρ a = some x) (hb : ρ b = some y) :
    Runs env (impz_cmpabs (.var a) (.var b)) m fun r m' => Cmp r |x| |y| ∧ m' = m := C10_compare_unsigned h ha hb

theorem C74_cmp_si {v : Int} (h : State m ρ) (ha : ρ a = some x) (hv : -2 ^ 63 ≤ v ∧ v < 2 ^ 63) :
    Runs env (impz_cmp_si (.var a) v) m fun r m' => Cmp r x v ∧ State m' ρ := C10_compare_value h ha hv

theorem C74_sgn (h : State m ρ) (ha : ρ a = some x) :
    Runs env (impz_sgn (.var a)) m fun r m' => Cmp r x 0 ∧ m' = m := C10_compare_zero h ha

/-- The sum, the difference, the product; the result replaces an operand. -/
example : ∃ m, State m (vars [-7, 2 ^ 70, 0]) ∧
    Runs env (impz_add (.var 2) (.var 0) (.var 1)) m (fun _ m' => State m' (put (vars [-7, 2 ^ 70, 0]) 2 (-7 + 2 ^ 70))) ∧
    Runs env (impz_sub (.var 0) (.var 0) (.var 1)) m (fun _ m' => State m' (put (vars [-7, 2 ^ 70, 0]) 0 (-7 - 2 ^ 70))) ∧
    Runs env (impz_mul (.var 1) (.var 1) (.var 1)) m (fun _ m' => State m' (put (vars [-7, 2 ^ 70, 0]) 1 (2 ^ 70 * 2 ^ 70))) ∧
    Runs env (impz_abs (.var 2) (.var 0)) m (fun _ m' => State m' (put (vars [-7, 2 ^ 70, 0]) 2 |-7|)) ∧
    Runs env (impz_neg (.var 0) (.var 1)) m (fun _ m' => State m' (put (vars [-7, 2 ^ 70, 0]) 0 (-2 ^ 70))) ∧
    Runs env (impz_set (.var 0) (.var 1)) m (fun _ m' => State m' (put (vars [-7, 2 ^ 70, 0]) 0 (2 ^ 70))) ∧
    Runs env (impz_swap (.var 0) (.var 1)) m (fun _ m' => State m' (put (put (vars [-7, 2 ^ 70, 0]) 0 (2 ^ 70)) 1 (-7))) :=
  let ⟨m, h⟩ := vars_state (l := [-7, 2 ^ 70, 0]) (by simp)
  ⟨m, h, C74_add (a := 0) (b := 1) h rfl rfl rfl, C74_sub (a := 0) (b := 1) h rfl rfl rfl,
    C74_mul (a := 1) (b := 1) h rfl rfl rfl, C74_abs (a := 0) h rfl rfl, C74_neg (a := 1) h rfl rfl, C74_set (a := 1) h rfl rfl,
    C74_swap h rfl rfl⟩

example : ∃ m, State m (vars [-7, 2 ^ 70, 0]) ∧
    Runs env (impz_set_si (.var 1) (-2 ^ 63 + 1)) m (fun _ m' => State m' (put (vars [-7, 2 ^ 70, 0]) 1 (-2 ^ 63 + 1))) ∧
    Runs env (impz_set_ui (.var 1) 18446744073709551615) m
      (fun _ m' => State m' (put (vars [-7, 2 ^ 70, 0]) 1 (18446744073709551615 : Nat))) ∧
    Runs env (impz_init (.var 9)) m (fun _ m' => State m' (put (vars [-7, 2 ^ 70, 0]) 9 0)) ∧
    Runs env (impz_clear (.var 1)) m (fun _ m' => State m' (del (vars [-7, 2 ^ 70, 0]) 1)) ∧
    Runs env (impz_cmp (.var 0) (.var 1)) m (fun r m' => Cmp r (-7) (2 ^ 70) ∧ m' = m) ∧
    Runs env (impz_cmpabs (.var 0) (.var 2)) m (fun r m' => Cmp r |-7| |0| ∧ m' = m) ∧
    Runs env (impz_cmp_si (.var 0) (-2 ^ 63)) m (fun r m' => Cmp r (-7) (-2 ^ 63) ∧ State m' (vars [-7, 2 ^ 70, 0])) ∧
    Runs env (impz_sgn (.var 0)) m (fun r m' => Cmp r (-7) 0 ∧ m' = m) :=
  let ⟨m, h⟩ := vars_state (l := [-7, 2 ^ 70, 0]) (by simp)
  ⟨m, h, C74_set_si_partial h rfl (by norm_num), C74_set_ui h rfl (by norm_num), C74_init h rfl, C74_clear h rfl,
    C74_cmp h rfl rfl, C74_cmpabs h rfl rfl, C74_cmp_si h rfl (by norm_num), C74_sgn h rfl⟩

/-! ### Rational numbers -/

theorem C74_q_init (h : State m ρ) (hne : d.num ≠ d.den) (h1 : ρ d.num = none) (h2 : ρ d.den = none) :
    Runs env (impq_init d.p) m fun _ m' => State m' (putQ ρ d 0) := (C38_init h hne h1 h2).check

theorem C74_q_clear (h : State m ρ) (hc : ReadyQ ρ d) :
    Runs env (impq_clear d.p) m fun _ m' => State m' (del (del ρ d.num) d.den) := C38_clear h hc

theorem C74_q_set (h : State m ρ) (ha : HasQ ρ s p) (hc : ReadyQ ρ d) (sa : SepV s d) :
    Runs env (impq_set d.p s.p) m fun _ m' => State m' (putQ ρ d p) := (C38_copy h ha hc sa).check

theorem C74_q_mul (h : State m ρ) (ha : HasQ ρ s p) (hb : HasQ ρ t q) (hc : ReadyQ ρ d) (sa : SepV s d) (sb : SepV t d) :
    Runs env (impq_mul d.p s.p t.p) m fun _ m' => State m' (putQ ρ d (p * q)) := (C38_mul h ha hb hc sa sb).check

theorem C74_q_cmp (h : State m ρ) (ha : HasQ ρ s p) (hb : HasQ ρ t q) :
    Runs env (impq_cmp s.p t.p) m fun r m' => r = cmp3Q p q ∧ State m' ρ := C39_compare h ha hb

theorem C74_q_sgn (h : State m ρ) (ha : HasQ ρ s p) :
    Runs env (impq_sgn s.p) m fun r m' => r = cmp3Q p 0 ∧ m' = m := C39_compare_zero h ha

/-- The fraction is brought to lowest terms, which GMP's function leaves to `mpq_canonicalize`. -/
theorem C74_q_set_ui {u v : Nat} (h : State m ρ) (hc : ReadyQ ρ d) (hu : u < 2 ^ 64) (hv : v < 2 ^ 64) (h0 : v ≠ 0) :
    Runs env (impq_set_ui d.p u v) m fun _ m' => State m' (putQ ρ d ((u : ℚ) / v)) := (C38_set_uvalue h hc hu hv h0).check

/-- With the denominator zero, which GMP's function accepts, the assertion fails. -/
theorem C74_q_set_ui_zero {u : Nat} : Faults env (impq_set_ui d.p u 0) m .assert := rfl

/-- Every denominator but zero -/
theorem C74_q_canonicalize_partial (h : State m ρ) (hc : d.num ≠ d.den) (hx : ρ d.num = some x) (hy : ρ d.den = some y) (h0 : y ≠ 0) :
    Runs env (impq_canonicalize d.p) m fun _ m' => State m' (putQ ρ d ((x : ℚ) / y)) := (C37_reduce_partial h hc hx hy h0).check

/-- With the denominator zero the function returns and leaves -1/0. -/
theorem C74_q_canonicalize_zero :
    outcome (impq_canonicalize ⟨.var 0, .var 1⟩) [-6, 0] = some ((), [some (-1), some 0]) := by decide +kernel

example : ∃ m, State m demoQ ∧
    Runs env (impq_mul qc.p qa.p qb.p) m (fun _ m' => State m' (putQ demoQ qc (-22 / 7 * (100000000000000000000 / 3)))) ∧
    Runs env (impq_canonicalize (⟨2, 6⟩ : RVar).p) m (fun _ m' =>
      State m' (putQ demoQ ⟨2, 6⟩ (((100000000000000000000 : Int) : ℚ) / ((-9 : Int) : ℚ)))) ∧
    Runs env (impq_set_ui qa.p 15 18446744073709551615) m (fun _ m' =>
      State m' (putQ demoQ qa (((15 : Nat) : ℚ) / ((18446744073709551615 : Nat) : ℚ)))) :=
  let ⟨m, h⟩ := demoQ_state
  ⟨m, h, C74_q_mul h demoQ_a demoQ_b (demoQ_c.ready (by decide)) (.inr (by decide)) (.inr (by decide)),
    C74_q_canonicalize_partial h (by decide) rfl rfl (by norm_num),
    C74_q_set_ui h (demoQ_a.ready (by decide)) (by norm_num) (by norm_num) (by norm_num)⟩

end Imath
