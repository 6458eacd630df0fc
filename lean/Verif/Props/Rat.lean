import Verif.SpecRat
import Verif.Proof.RatOps
import Verif.Proof.Bridge
import Verif.Concrete

/-!
# Properties C38 and C39: arithmetic and comparison of rationals

`HasQ`, `putQ`, `ReadyQ` and `SepV` are defined in `Verif/SpecRat.lean`.  In every theorem the environment,
the memory and the values are arbitrary; the rational variables may coincide (`SepV a c` excludes only
objects that overlap partially, which C does not have), and the output may hold any value before.
-/

namespace Imath

variable {env : Env} {m : Mem} {ρ : Nat → Option Int} {a b c : RVar} {n : Nat} {x y : Int} {p q : ℚ}

theorem HasQ.l (h : HasQ ρ a q) : HasQ2 (lift ρ) a.p q := h

theorem ReadyQ.l (h : ReadyQ ρ c) : OutQ (lift ρ) c.p :=
  ⟨by simpa [RVar.p] using h.1, h.2.1, h.2.2, rfl, rfl⟩

theorem SepV.l (h : SepV a c) : SepQ a.p c.p := by
  rcases h with rfl | h
  · exact .inl rfl
  · exact .inr (by simpa [RVar.p] using h)

theorem updQ_lift (ρ : Nat → Option Int) (c : RVar) (q : ℚ) : updQ (lift ρ) c.p q = lift (putQ ρ c q) := by
  unfold updQ putQ RVar.p
  rw [upd_lift, upd_lift]

theorem R2.stateQ {m' : Mem} (h : R2 m' (updQ (lift ρ) c.p q)) : State m' (putQ ρ c q) := by
  rw [updQ_lift] at h; exact h.state

/-- Rational variables 0/1: -22/7, 2/3: 10^20/3, 4/5: 0; integers 6: -9, 7: 0. -/
def demoQ : Nat → Option Int
  | 0 => some (-22)
  | 1 => some 7
  | 2 => some 100000000000000000000
  | 3 => some 3
  | 4 => some 0
  | 5 => some 1
  | 6 => some (-9)
  | 7 => some 0
  | _ => none

def qa : RVar := ⟨0, 1⟩
def qb : RVar := ⟨2, 3⟩
def qc : RVar := ⟨4, 5⟩

theorem demoQ_state : ∃ m, State m demoQ := by
  refine exists_state demoQ 8 ?_ ?_
  · intro n hn
    match n, hn with
    | n + 8, _ => rfl
  · have hb : 2 ^ 100 + 1 < (2 ^ 32) ^ MAXD := by
      rw [← Nat.pow_mul]
      exact Nat.lt_of_lt_of_le (show 2 ^ 100 + 1 < 2 ^ 101 by norm_num) (Nat.pow_le_pow_right (by norm_num) (by norm_num))
    have hc : ∀ k, k ≤ 2 ^ 100 + 1 → k < (2 ^ 32) ^ MAXD := fun k hk => Nat.lt_of_le_of_lt hk hb
    intro n v hv
    refine hc _ ?_
    match n, hv with
    | 0, hv => simp only [demoQ, Option.some.injEq] at hv; subst hv; norm_num
    | 1, hv => simp only [demoQ, Option.some.injEq] at hv; subst hv; norm_num
    | 2, hv => simp only [demoQ, Option.some.injEq] at hv; subst hv; norm_num
    | 3, hv => simp only [demoQ, Option.some.injEq] at hv; subst hv; norm_num
    | 4, hv => simp only [demoQ, Option.some.injEq] at hv; subst hv; norm_num
    | 5, hv => simp only [demoQ, Option.some.injEq] at hv; subst hv; norm_num
    | 6, hv => simp only [demoQ, Option.some.injEq] at hv; subst hv; norm_num
    | 7, hv => simp only [demoQ, Option.some.injEq] at hv; subst hv; norm_num
    | n + 8, hv => simp [demoQ] at hv

theorem demoQ_a : HasQ demoQ qa (-22 / 7) := by
  refine ⟨?_, ?_⟩ <;> decide +kernel

theorem demoQ_b : HasQ demoQ qb (100000000000000000000 / 3) := by
  refine ⟨?_, ?_⟩ <;> decide +kernel

theorem demoQ_c : HasQ demoQ qc 0 := ⟨rfl, rfl⟩

theorem HasQ.ready (h : HasQ ρ a q) (hne : a.num ≠ a.den) : ReadyQ ρ a := ⟨hne, ⟨_, h.1⟩, _, h.2⟩

/-! ### C38 arithmetic -/

theorem C38_add (h : State m ρ) (ha : HasQ ρ a p) (hb : HasQ ρ b q) (hc : ReadyQ ρ c) (sa : SepV a c) (sb : SepV b c) :
    Runs env (mp_rat_add a.p b.p c.p) m fun r m' => r = MP_OK ∧ State m' (putQ ρ c (p + q)) :=
  .of_wp (mp_rat_add_spec (ref_refused env) h.r2 ha.l hb.l hc.l sa.l sb.l fun _ h' => ⟨rfl, h'.stateQ⟩)

example : ∃ m, State m demoQ ∧ Runs env (mp_rat_add qa.p qb.p qa.p) m fun r m' =>
    r = MP_OK ∧ State m' (putQ demoQ qa (-22 / 7 + 100000000000000000000 / 3)) :=
  let ⟨m, h⟩ := demoQ_state
  ⟨m, h, C38_add h demoQ_a demoQ_b (demoQ_a.ready (by decide)) (.inl rfl) (.inr (by decide))⟩

theorem C38_sub (h : State m ρ) (ha : HasQ ρ a p) (hb : HasQ ρ b q) (hc : ReadyQ ρ c) (sa : SepV a c) (sb : SepV b c) :
    Runs env (mp_rat_sub a.p b.p c.p) m fun r m' => r = MP_OK ∧ State m' (putQ ρ c (p - q)) :=
  .of_wp (mp_rat_sub_spec (ref_refused env) h.r2 ha.l hb.l hc.l sa.l sb.l fun _ h' => ⟨rfl, h'.stateQ⟩)

example : ∃ m, State m demoQ ∧ Runs env (mp_rat_sub qa.p qb.p qb.p) m fun r m' =>
    r = MP_OK ∧ State m' (putQ demoQ qb (-22 / 7 - 100000000000000000000 / 3)) :=
  let ⟨m, h⟩ := demoQ_state
  ⟨m, h, C38_sub h demoQ_a demoQ_b (demoQ_b.ready (by decide)) (.inr (by decide)) (.inl rfl)⟩

theorem C38_mul (h : State m ρ) (ha : HasQ ρ a p) (hb : HasQ ρ b q) (hc : ReadyQ ρ c) (sa : SepV a c) (sb : SepV b c) :
    Runs env (mp_rat_mul a.p b.p c.p) m fun r m' => r = MP_OK ∧ State m' (putQ ρ c (p * q)) :=
  .of_wp (mp_rat_mul_spec (ref_refused env) h.r2 ha.l hb.l hc.l sa.l sb.l fun _ h' => ⟨rfl, h'.stateQ⟩)

example : ∃ m, State m demoQ ∧ Runs env (mp_rat_mul qa.p qa.p qa.p) m fun r m' =>
    r = MP_OK ∧ State m' (putQ demoQ qa (-22 / 7 * (-22 / 7))) :=
  let ⟨m, h⟩ := demoQ_state
  ⟨m, h, C38_mul h demoQ_a demoQ_a (demoQ_a.ready (by decide)) (.inl rfl) (.inl rfl)⟩

theorem C38_div (h : State m ρ) (ha : HasQ ρ a p) (hb : HasQ ρ b q) (hc : ReadyQ ρ c) (sa : SepV a c) (sb : SepV b c)
    (hq : q ≠ 0) :
    Runs env (mp_rat_div a.p b.p c.p) m fun r m' => r = MP_OK ∧ State m' (putQ ρ c (p / q)) :=
  .of_wp (mp_rat_div_spec (ref_refused env) h.r2 ha.l hb.l hc.l sa.l sb.l (fun h => absurd h hq) fun _ _ h' => ⟨rfl, h'.stateQ⟩)

example : ∃ m, State m demoQ ∧ Runs env (mp_rat_div qa.p qb.p qb.p) m fun r m' =>
    r = MP_OK ∧ State m' (putQ demoQ qb (-22 / 7 / (100000000000000000000 / 3))) :=
  let ⟨m, h⟩ := demoQ_state
  ⟨m, h, C38_div h demoQ_a demoQ_b (demoQ_b.ready (by decide)) (.inr (by decide)) (.inl rfl) (by norm_num)⟩

/-- Division by zero: `MP_UNDEF`, and memory is not changed. -/
theorem C38_div_zero (h : State m ρ) (ha : HasQ ρ a p) (hb : HasQ ρ b 0) (hc : ReadyQ ρ c) (sa : SepV a c) (sb : SepV b c) :
    Runs env (mp_rat_div a.p b.p c.p) m fun r m' => r = MP_UNDEF ∧ m' = m :=
  .of_wp (mp_rat_div_spec (ref_refused env) h.r2 ha.l hb.l hc.l sa.l sb.l (fun _ => ⟨rfl, rfl⟩) fun h => absurd rfl h)

example : ∃ m, State m demoQ ∧ Runs env (mp_rat_div qa.p qc.p qb.p) m fun r m' => r = MP_UNDEF ∧ m' = m :=
  let ⟨m, h⟩ := demoQ_state
  ⟨m, h, C38_div_zero h demoQ_a demoQ_c (demoQ_b.ready (by decide)) (.inr (by decide)) (.inr (by decide))⟩

/-- The integer may be any variable, even the numerator or denominator of `a` or `c`. -/
theorem C38_add_int (h : State m ρ) (ha : HasQ ρ a p) (hn : ρ n = some y) (hc : ReadyQ ρ c) (sa : SepV a c) :
    Runs env (mp_rat_add_int a.p (.var n) c.p) m fun r m' => r = MP_OK ∧ State m' (putQ ρ c (p + y)) :=
  .of_wp (mp_rat_add_int_spec (ref_refused env) h.r2 ha.l hn hc.l sa.l fun _ h' => ⟨rfl, h'.stateQ⟩)

example : ∃ m, State m demoQ ∧ Runs env (mp_rat_add_int qa.p (.var 1) qa.p) m fun r m' =>
    r = MP_OK ∧ State m' (putQ demoQ qa (-22 / 7 + (7 : Int))) :=
  let ⟨m, h⟩ := demoQ_state
  ⟨m, h, C38_add_int h demoQ_a rfl (demoQ_a.ready (by decide)) (.inl rfl)⟩

theorem C38_sub_int (h : State m ρ) (ha : HasQ ρ a p) (hn : ρ n = some y) (hc : ReadyQ ρ c) (sa : SepV a c) :
    Runs env (mp_rat_sub_int a.p (.var n) c.p) m fun r m' => r = MP_OK ∧ State m' (putQ ρ c (p - y)) :=
  .of_wp (mp_rat_sub_int_spec (ref_refused env) h.r2 ha.l hn hc.l sa.l fun _ h' => ⟨rfl, h'.stateQ⟩)

example : ∃ m, State m demoQ ∧ Runs env (mp_rat_sub_int qa.p (.var 6) qb.p) m fun r m' =>
    r = MP_OK ∧ State m' (putQ demoQ qb (-22 / 7 - (-9 : Int))) :=
  let ⟨m, h⟩ := demoQ_state
  ⟨m, h, C38_sub_int h demoQ_a rfl (demoQ_b.ready (by decide)) (.inr (by decide))⟩

/-- Multiplication by an integer that is not a part of the output.  Missing from the full property: the
integer may be the numerator or denominator of the output, obtained by `mp_rat_numer_ref` or
`mp_rat_denom_ref`; for that case the property is false, see `C38_mul_int_alias`. -/
theorem C38_mul_int_partial (h : State m ρ) (ha : HasQ ρ a p) (hn : ρ n = some y) (hc : ReadyQ ρ c) (sa : SepV a c)
    (h1 : n ≠ c.num) (h2 : n ≠ c.den) :
    Runs env (mp_rat_mul_int a.p (.var n) c.p) m fun r m' => r = MP_OK ∧ State m' (putQ ρ c (p * y)) :=
  .of_wp (mp_rat_mul_int_spec (ref_refused env) h.r2 ha.l hn hc.l sa.l (by simpa [RVar.p] using h1) (by simpa [RVar.p] using h2)
    fun _ h' => ⟨rfl, h'.stateQ⟩)

example : ∃ m, State m demoQ ∧ Runs env (mp_rat_mul_int qa.p (.var 0) qb.p) m fun r m' =>
    r = MP_OK ∧ State m' (putQ demoQ qb (-22 / 7 * (-22 : Int))) :=
  let ⟨m, h⟩ := demoQ_state
  ⟨m, h, C38_mul_int_partial h demoQ_a rfl (demoQ_b.ready (by decide)) (.inr (by decide)) (by decide) (by decide)⟩

/-- Division by an integer that is not a part of the output; see `C38_mul_int_partial`. -/
theorem C38_div_int_partial (h : State m ρ) (ha : HasQ ρ a p) (hn : ρ n = some y) (hc : ReadyQ ρ c) (sa : SepV a c)
    (h1 : n ≠ c.num) (h2 : n ≠ c.den) (hy : y ≠ 0) :
    Runs env (mp_rat_div_int a.p (.var n) c.p) m fun r m' => r = MP_OK ∧ State m' (putQ ρ c (p / y)) :=
  .of_wp (mp_rat_div_int_spec (ref_refused env) h.r2 ha.l hn hc.l sa.l (by simpa [RVar.p] using h1) (by simpa [RVar.p] using h2)
    (fun h => absurd h hy) fun _ _ h' => ⟨rfl, h'.stateQ⟩)

example : ∃ m, State m demoQ ∧ Runs env (mp_rat_div_int qa.p (.var 6) qa.p) m fun r m' =>
    r = MP_OK ∧ State m' (putQ demoQ qa (-22 / 7 / (-9 : Int))) :=
  let ⟨m, h⟩ := demoQ_state
  ⟨m, h, C38_div_int_partial h demoQ_a rfl (demoQ_a.ready (by decide)) (.inl rfl) (by decide) (by decide) (by decide)⟩

theorem C38_div_int_zero (h : State m ρ) (ha : HasQ ρ a p) (hn : ρ n = some 0) (hc : ReadyQ ρ c) (sa : SepV a c)
    (h1 : n ≠ c.num) (h2 : n ≠ c.den) :
    Runs env (mp_rat_div_int a.p (.var n) c.p) m fun r m' => r = MP_UNDEF ∧ m' = m :=
  .of_wp (mp_rat_div_int_spec (ref_refused env) h.r2 ha.l hn hc.l sa.l (by simpa [RVar.p] using h1) (by simpa [RVar.p] using h2)
    (fun _ => ⟨rfl, rfl⟩) fun h => absurd rfl h)

example : ∃ m, State m demoQ ∧ Runs env (mp_rat_div_int qa.p (.var 7) qa.p) m fun r m' => r = MP_UNDEF ∧ m' = m :=
  let ⟨m, h⟩ := demoQ_state
  ⟨m, h, C38_div_int_zero h demoQ_a rfl (demoQ_a.ready (by decide)) (.inl rfl) (by decide) (by decide)⟩

/-- The numerator of the output as the integer: `a` is copied over it before it is used
(imrat.c:334-339, 350-355).  With `a = 2/3` and `c = 5/7` the product of `a` and the numerator of `c`
should be 10/3 and the quotient 2/15, but the results are 4/3 and 1/3. -/
theorem C38_mul_int_alias :
    outcome (mp_rat_mul_int ⟨.var 0, .var 1⟩ (.var 2) ⟨.var 2, .var 3⟩) [2, 3, 5, 7] =
      some (MP_OK, [some 2, some 3, some 4, some 3]) ∧
    outcome (mp_rat_div_int ⟨.var 0, .var 1⟩ (.var 2) ⟨.var 2, .var 3⟩) [2, 3, 5, 7] =
      some (MP_OK, [some 2, some 3, some 1, some 3]) := by decide +kernel

/-- With the denominator of the output as the divisor, even a division by zero goes unnoticed or is
reported for a divisor that is not zero: here 0/1 divided by the numerator 5 of the output 5/7 gives 0/1
(right by chance), and 2/3 divided by the denominator 7 gives 2/9 instead of 2/21. -/
theorem C38_div_int_alias :
    outcome (mp_rat_div_int ⟨.var 0, .var 1⟩ (.var 3) ⟨.var 2, .var 3⟩) [2, 3, 5, 7] =
      some (MP_OK, [some 2, some 3, some 2, some 9]) := by decide +kernel

theorem C38_neg (h : State m ρ) (ha : HasQ ρ a p) (hc : ReadyQ ρ c) (sa : SepV a c) :
    Runs env (mp_rat_neg a.p c.p) m fun r m' => r = MP_OK ∧ State m' (putQ ρ c (-p)) :=
  .of_wp (mp_rat_neg_spec (ref_refused env) h.r2 ha.l hc.l sa.l fun _ h' => ⟨rfl, h'.stateQ⟩)

example : ∃ m, State m demoQ ∧ Runs env (mp_rat_neg qa.p qb.p) m fun r m' =>
    r = MP_OK ∧ State m' (putQ demoQ qb (-(-22 / 7))) :=
  let ⟨m, h⟩ := demoQ_state
  ⟨m, h, C38_neg h demoQ_a (demoQ_b.ready (by decide)) (.inr (by decide))⟩

theorem C38_abs (h : State m ρ) (ha : HasQ ρ a p) (hc : ReadyQ ρ c) (sa : SepV a c) :
    Runs env (mp_rat_abs a.p c.p) m fun r m' => r = MP_OK ∧ State m' (putQ ρ c |p|) :=
  .of_wp (mp_rat_abs_spec (ref_refused env) h.r2 ha.l hc.l sa.l fun _ h' => ⟨rfl, h'.stateQ⟩)

example : ∃ m, State m demoQ ∧ Runs env (mp_rat_abs qa.p qa.p) m fun r m' =>
    r = MP_OK ∧ State m' (putQ demoQ qa |-22 / 7|) :=
  let ⟨m, h⟩ := demoQ_state
  ⟨m, h, C38_abs h demoQ_a (demoQ_a.ready (by decide)) (.inl rfl)⟩

theorem C38_recip (h : State m ρ) (ha : HasQ ρ a p) (hc : ReadyQ ρ c) (sa : SepV a c) (hp : p ≠ 0) :
    Runs env (mp_rat_recip a.p c.p) m fun r m' => r = MP_OK ∧ State m' (putQ ρ c p⁻¹) :=
  .of_wp (mp_rat_recip_spec (ref_refused env) h.r2 ha.l hc.l sa.l (fun h => absurd h hp) fun _ _ h' => ⟨rfl, h'.stateQ⟩)

example : ∃ m, State m demoQ ∧ Runs env (mp_rat_recip qa.p qa.p) m fun r m' =>
    r = MP_OK ∧ State m' (putQ demoQ qa (-22 / 7)⁻¹) :=
  let ⟨m, h⟩ := demoQ_state
  ⟨m, h, C38_recip h demoQ_a (demoQ_a.ready (by decide)) (.inl rfl) (by norm_num)⟩

theorem C38_recip_zero (h : State m ρ) (ha : HasQ ρ a 0) (hc : ReadyQ ρ c) (sa : SepV a c) :
    Runs env (mp_rat_recip a.p c.p) m fun r m' => r = MP_UNDEF ∧ m' = m :=
  .of_wp (mp_rat_recip_spec (ref_refused env) h.r2 ha.l hc.l sa.l (fun _ => ⟨rfl, rfl⟩) fun h => absurd rfl h)

example : ∃ m, State m demoQ ∧ Runs env (mp_rat_recip qc.p qa.p) m fun r m' => r = MP_UNDEF ∧ m' = m :=
  let ⟨m, h⟩ := demoQ_state
  ⟨m, h, C38_recip_zero h demoQ_c (demoQ_a.ready (by decide)) (.inr (by decide))⟩

/-- Powers with an exponent below 2^32.  Missing from the full property: greater exponents, for which it is
false, see `C38_expt_wraps`.  (Negative exponents are refused, `C38_expt_negative`.) -/
theorem C38_expt_partial {k : Nat} (h : State m ρ) (ha : HasQ ρ a p) (hc : ReadyQ ρ c) (sa : SepV a c) (hk : k < 2 ^ 32) :
    Runs env (mp_rat_expt a.p k c.p) m fun r m' => r = MP_OK ∧ State m' (putQ ρ c (p ^ k)) := by
  refine .of_wp (mp_rat_expt_spec (ref_refused env) h.r2 ha.l hc.l sa.l (fun h => by omega) fun _ m' h' => ⟨rfl, ?_⟩)
  have e : ((k : Int) % 2 ^ 32).toNat = k := by omega
  rw [e] at h'
  exact h'.stateQ

example : ∃ m, State m demoQ ∧ Runs env (mp_rat_expt qa.p (5 : Nat) qa.p) m fun r m' =>
    r = MP_OK ∧ State m' (putQ demoQ qa ((-22 / 7) ^ 5)) :=
  let ⟨m, h⟩ := demoQ_state
  ⟨m, h, C38_expt_partial h demoQ_a (demoQ_a.ready (by decide)) (.inl rfl) (by norm_num)⟩

theorem C38_expt_negative {k : Int} (h : State m ρ) (ha : HasQ ρ a p) (hc : ReadyQ ρ c) (sa : SepV a c) (hk : k < 0) :
    Runs env (mp_rat_expt a.p k c.p) m fun r m' => r = MP_RANGE ∧ m' = m :=
  .of_wp (mp_rat_expt_spec (ref_refused env) h.r2 ha.l hc.l sa.l (fun _ => ⟨rfl, rfl⟩) fun h => by omega)

example : ∃ m, State m demoQ ∧ Runs env (mp_rat_expt qa.p (-5) qa.p) m fun r m' => r = MP_RANGE ∧ m' = m :=
  let ⟨m, h⟩ := demoQ_state
  ⟨m, h, C38_expt_negative h demoQ_a (demoQ_a.ready (by decide)) (.inl rfl) (by norm_num)⟩

/-- The exponent is reduced modulo 2^32 without notice (imath.c:1175, `v = labs(b)`): (2/3)^(2^32 + 1)
becomes 2/3. -/
theorem C38_expt_wraps :
    outcome (mp_rat_expt ⟨.var 0, .var 1⟩ (2 ^ 32 + 1) ⟨.var 0, .var 1⟩) [2, 3] =
      some (MP_OK, [some 2, some 3]) := by decide +kernel

/-! ### Assignment and reduction -/

theorem C38_copy (h : State m ρ) (ha : HasQ ρ a p) (hc : ReadyQ ρ c) (sa : SepV a c) :
    Runs env (mp_rat_copy a.p c.p) m fun r m' => r = MP_OK ∧ State m' (putQ ρ c p) :=
  .of_wp (mp_rat_copy_spec (ref_refused env) h.r2 ha.l hc.l sa.l fun _ h' => ⟨rfl, h'.stateQ⟩)

example : ∃ m, State m demoQ ∧ Runs env (mp_rat_copy qa.p qb.p) m fun r m' =>
    r = MP_OK ∧ State m' (putQ demoQ qb (-22 / 7)) :=
  let ⟨m, h⟩ := demoQ_state
  ⟨m, h, C38_copy h demoQ_a (demoQ_b.ready (by decide)) (.inr (by decide))⟩

theorem C38_zero (h : State m ρ) (hc : ReadyQ ρ c) :
    Runs env (mp_rat_zero c.p) m fun _ m' => State m' (putQ ρ c 0) :=
  .of_wp (mp_rat_zero_spec (ref_refused env) h.r2 hc.l fun _ h' => h'.stateQ)

example : ∃ m, State m demoQ ∧ Runs env (mp_rat_zero qa.p) m fun _ m' => State m' (putQ demoQ qa 0) :=
  let ⟨m, h⟩ := demoQ_state
  ⟨m, h, C38_zero h (demoQ_a.ready (by decide))⟩

/-- `mp_rat_set_value` for arguments other than -2^63, for which `mp_int_set_value` is undefined
(`C13_fake_min`). -/
theorem C38_set_value_partial (h : State m ρ) (hc : ReadyQ ρ c) (hx : -2 ^ 63 < x ∧ x < 2 ^ 63) (hy : -2 ^ 63 < y ∧ y < 2 ^ 63)
    (h0 : y ≠ 0) :
    Runs env (mp_rat_set_value c.p x y) m fun r m' => r = MP_OK ∧ State m' (putQ ρ c ((x : ℚ) / y)) := by
  refine .of_wp (mp_rat_set_value_spec (ref_refused env) h.r2 (by omega) (by omega) (by omega) (by omega) hc.l (fun h => absurd h h0)
    fun _ m' h' => ⟨rfl, ?_⟩)
  rw [Rat.divInt_eq_div] at h'
  exact h'.stateQ

example : ∃ m, State m demoQ ∧ Runs env (mp_rat_set_value qa.p 15 (-6)) m fun r m' =>
    r = MP_OK ∧ State m' (putQ demoQ qa (((15 : Int) : ℚ) / ((-6 : Int) : ℚ))) :=
  let ⟨m, h⟩ := demoQ_state
  ⟨m, h, C38_set_value_partial h (demoQ_a.ready (by decide)) (by norm_num) (by norm_num) (by norm_num)⟩

theorem C38_set_value_zero :
    Runs env (mp_rat_set_value c.p x 0) m fun r m' => r = MP_UNDEF ∧ m' = m := by
  unfold mp_rat_set_value
  rw [if_pos rfl]
  exact .of_wp (wp_pure ⟨rfl, rfl⟩)

theorem C38_set_uvalue {x y : Nat} (h : State m ρ) (hc : ReadyQ ρ c) (hx : x < 2 ^ 64) (hy : y < 2 ^ 64) (h0 : y ≠ 0) :
    Runs env (mp_rat_set_uvalue c.p x y) m fun r m' => r = MP_OK ∧ State m' (putQ ρ c ((x : ℚ) / y)) := by
  refine .of_wp (mp_rat_set_uvalue_spec (ref_refused env) h.r2 (by omega) (by omega) hc.l (fun h => absurd h h0) fun _ m' h' => ⟨rfl, ?_⟩)
  rw [Rat.divInt_eq_div, Int.cast_natCast, Int.cast_natCast] at h'
  exact h'.stateQ

example : ∃ m, State m demoQ ∧ Runs env (mp_rat_set_uvalue qa.p 15 18446744073709551615) m fun r m' =>
    r = MP_OK ∧ State m' (putQ demoQ qa (((15 : Nat) : ℚ) / ((18446744073709551615 : Nat) : ℚ))) :=
  let ⟨m, h⟩ := demoQ_state
  ⟨m, h, C38_set_uvalue h (demoQ_a.ready (by decide)) (by norm_num) (by norm_num) (by norm_num)⟩

/-- `mp_rat_reduce` brings any numerator and any denominator other than zero to lowest terms. -/
theorem C37_reduce_partial (h : State m ρ) (hc : c.num ≠ c.den) (hx : ρ c.num = some x) (hy : ρ c.den = some y) (h0 : y ≠ 0) :
    Runs env (mp_rat_reduce c.p) m fun r m' => r = MP_OK ∧ State m' (putQ ρ c ((x : ℚ) / y)) := by
  refine .of_wp (mp_rat_reduce_spec (ref_refused env) h.r2 hx hy (fun _ => h0) (ReadyQ.l ⟨hc, ⟨_, hx⟩, _, hy⟩) fun m' h' => ⟨rfl, ?_⟩)
  rw [Rat.divInt_eq_div] at h'
  exact h'.stateQ

example : ∃ m, State m demoQ ∧ Runs env (mp_rat_reduce (⟨2, 6⟩ : RVar).p) m fun r m' =>
    r = MP_OK ∧ State m' (putQ demoQ ⟨2, 6⟩ (((100000000000000000000 : Int) : ℚ) / ((-9 : Int) : ℚ))) :=
  let ⟨m, h⟩ := demoQ_state
  ⟨m, h, C37_reduce_partial h (by decide) rfl rfl (by norm_num)⟩

/-- With the denominator zero `mp_rat_reduce` reports success and leaves -1/0. -/
theorem C37_reduce_zero :
    outcome (mp_rat_reduce ⟨.var 0, .var 1⟩) [-6, 0] = some (MP_OK, [some (-1), some 0]) := by decide +kernel

/-! ### Initialisation and clearing -/

theorem C38_init (h : State m ρ) (hne : c.num ≠ c.den) (h1 : ρ c.num = none) (h2 : ρ c.den = none) :
    Runs env (mp_rat_init c.p) m fun r m' => r = MP_OK ∧ State m' (putQ ρ c 0) :=
  .of_wp (mp_rat_init_spec (ref_refused env) h.r2 (R2.declVar h.r2 _) (by simpa [RVar.p] using hne)
    (fun _ _ h' => R2.declVar h' _) h1 h2 rfl fun _ h' => ⟨rfl, h'.stateQ⟩)

example : ∃ m, State m demoQ ∧ Runs env (mp_rat_init (⟨8, 9⟩ : RVar).p) m fun r m' =>
    r = MP_OK ∧ State m' (putQ demoQ ⟨8, 9⟩ 0) :=
  let ⟨m, h⟩ := demoQ_state
  ⟨m, h, C38_init h (by decide) rfl rfl⟩

theorem C38_init_size {np dp : Nat} (h : State m ρ) (hne : c.num ≠ c.den) (h1 : ρ c.num = none) (h2 : ρ c.den = none)
    (hn : np < 2 ^ 32 - 1) (hd : dp < 2 ^ 32 - 1) :
    Runs env (mp_rat_init_size c.p np dp) m fun r m' => r = MP_OK ∧ State m' (putQ ρ c 0) :=
  .of_wp (mp_rat_init_size_spec (ref_refused env) h.r2 (R2.declVar h.r2 _) (by simpa [RVar.p] using hne) (by omega) (by omega)
    (fun _ _ h' => R2.declVar h' _) h1 h2 rfl fun _ h' => ⟨rfl, h'.stateQ⟩)

example : ∃ m, State m demoQ ∧ Runs env (mp_rat_init_size (⟨8, 9⟩ : RVar).p 3 0) m fun r m' =>
    r = MP_OK ∧ State m' (putQ demoQ ⟨8, 9⟩ 0) :=
  let ⟨m, h⟩ := demoQ_state
  ⟨m, h, C38_init_size h (by decide) rfl rfl (by norm_num) (by norm_num)⟩

theorem C38_init_copy (h : State m ρ) (hne : c.num ≠ c.den) (h1 : ρ c.num = none) (h2 : ρ c.den = none) (ha : HasQ ρ a p) :
    Runs env (mp_rat_init_copy c.p a.p) m fun r m' => r = MP_OK ∧ State m' (putQ ρ c p) :=
  .of_wp (mp_rat_init_copy_spec (ref_refused env) h.r2 (R2.declVar h.r2 _) (by simpa [RVar.p] using hne)
    (fun _ _ h' => R2.declVar h' _) h1 h2 ha.l fun _ h' => ⟨rfl, h'.stateQ⟩)

example : ∃ m, State m demoQ ∧ Runs env (mp_rat_init_copy (⟨8, 9⟩ : RVar).p qb.p) m fun r m' =>
    r = MP_OK ∧ State m' (putQ demoQ ⟨8, 9⟩ (100000000000000000000 / 3)) :=
  let ⟨m, h⟩ := demoQ_state
  ⟨m, h, C38_init_copy h (by decide) rfl rfl demoQ_b⟩

/-- `mp_rat_clear` releases both parts. -/
theorem C38_clear (h : State m ρ) (hc : ReadyQ ρ c) :
    Runs env (mp_rat_clear c.p) m fun _ m' => State m' (del (del ρ c.num) c.den) := by
  obtain ⟨hne, ⟨_, h1⟩, _, h2⟩ := hc
  refine .of_wp (mp_rat_clear_spec h.r2 hne h1 h2 fun m' h' => ?_)
  rw [upd_lift_none, upd_lift_none] at h'
  exact h'.state

example : ∃ m, State m demoQ ∧ Runs env (mp_rat_clear qb.p) m fun _ m' => State m' (del (del demoQ 2) 3) :=
  let ⟨m, h⟩ := demoQ_state
  ⟨m, h, C38_clear h (demoQ_b.ready (by decide))⟩

/-- `mp_rat_numer` and `mp_rat_denom` copy the parts; the integer may be any variable. -/
theorem C38_numer {w : Int} (h : State m ρ) (ha : HasQ ρ a p) (hz : ρ n = some w) :
    Runs env (mp_rat_numer a.p (.var n)) m fun r m' => r = MP_OK ∧ State m' (put ρ n p.num) := by
  refine .of_wp (mp_int_copy_spec (ref_refused env) h.r2 ha.l.1 hz rfl fun m' h' => ⟨rfl, ?_⟩)
  rw [upd_lift] at h'; exact h'.state

example : ∃ m, State m demoQ ∧ Runs env (mp_rat_numer qa.p (.var 6)) m fun r m' =>
    r = MP_OK ∧ State m' (put demoQ 6 (-22 / 7 : ℚ).num) :=
  let ⟨m, h⟩ := demoQ_state
  ⟨m, h, C38_numer h demoQ_a rfl⟩

theorem C38_denom {w : Int} (h : State m ρ) (ha : HasQ ρ a p) (hz : ρ n = some w) :
    Runs env (mp_rat_denom a.p (.var n)) m fun r m' => r = MP_OK ∧ State m' (put ρ n (p.den : Int)) := by
  refine .of_wp (mp_int_copy_spec (ref_refused env) h.r2 ha.l.2 hz rfl fun m' h' => ⟨rfl, ?_⟩)
  rw [upd_lift] at h'; exact h'.state

example : ∃ m, State m demoQ ∧ Runs env (mp_rat_denom qa.p (.var 6)) m fun r m' =>
    r = MP_OK ∧ State m' (put demoQ 6 ((-22 / 7 : ℚ).den : Int)) :=
  let ⟨m, h⟩ := demoQ_state
  ⟨m, h, C38_denom h demoQ_a rfl⟩

/-! ### C39 comparison -/

theorem C39_compare (h : State m ρ) (ha : HasQ ρ a p) (hb : HasQ ρ b q) :
    Runs env (mp_rat_compare a.p b.p) m fun r m' => r = cmp3Q p q ∧ State m' ρ :=
  .of_wp (mp_rat_compare_spec (ref_refused env) h.r2 ha.l hb.l fun _ h' => ⟨rfl, h'.state⟩)

example : ∃ m, State m demoQ ∧ Runs env (mp_rat_compare qa.p qb.p) m fun r m' =>
    r = cmp3Q (-22 / 7) (100000000000000000000 / 3) ∧ State m' demoQ :=
  let ⟨m, h⟩ := demoQ_state
  ⟨m, h, C39_compare h demoQ_a demoQ_b⟩

theorem C39_compare_unsigned (h : State m ρ) (ha : HasQ ρ a p) (hb : HasQ ρ b q) :
    Runs env (mp_rat_compare_unsigned a.p b.p) m fun r m' => r = cmp3Q |p| |q| ∧ State m' ρ :=
  .of_wp (mp_rat_compare_unsigned_spec (ref_refused env) h.r2 ha.l hb.l fun _ h' => ⟨rfl, h'.state⟩)

example : ∃ m, State m demoQ ∧ Runs env (mp_rat_compare_unsigned qa.p qb.p) m fun r m' =>
    r = cmp3Q |-22 / 7| |100000000000000000000 / 3| ∧ State m' demoQ :=
  let ⟨m, h⟩ := demoQ_state
  ⟨m, h, C39_compare_unsigned h demoQ_a demoQ_b⟩

theorem C39_compare_zero (h : State m ρ) (ha : HasQ ρ a p) :
    Runs env (mp_rat_compare_zero a.p) m fun r m' => r = cmp3Q p 0 ∧ m' = m :=
  .of_wp (mp_rat_compare_zero_spec h.r2 ha.l ⟨rfl, rfl⟩)

example : ∃ m, State m demoQ ∧ Runs env (mp_rat_compare_zero qa.p) m fun r m' => r = cmp3Q (-22 / 7) 0 ∧ m' = m :=
  let ⟨m, h⟩ := demoQ_state
  ⟨m, h, C39_compare_zero h demoQ_a⟩

/-- Comparison with `x / y` for arguments other than -2^63.  Missing from the full property: the value
-2^63, see `C39_compare_value_min`. -/
theorem C39_compare_value_partial (h : State m ρ) (ha : HasQ ρ a p) (hx : -2 ^ 63 < x ∧ x < 2 ^ 63)
    (hy : -2 ^ 63 < y ∧ y < 2 ^ 63) (h0 : y ≠ 0) :
    Runs env (mp_rat_compare_value a.p x y) m fun r m' => r = cmp3Q p (x / y) ∧ State m' ρ :=
  .of_wp (mp_rat_compare_value_spec (ref_refused env) h.r2 (by omega) (by omega) (by omega) (by omega) ha.l (fun h => absurd h h0)
    fun _ _ h' => ⟨rfl, h'.state⟩)

example : ∃ m, State m demoQ ∧ Runs env (mp_rat_compare_value qa.p 44 (-14)) m fun r m' =>
    r = cmp3Q (-22 / 7) (((44 : Int) : ℚ) / ((-14 : Int) : ℚ)) ∧ State m' demoQ :=
  let ⟨m, h⟩ := demoQ_state
  ⟨m, h, C39_compare_value_partial h demoQ_a (by norm_num) (by norm_num) (by norm_num)⟩

/-- With the denominator zero the result is `INT_MAX`, not the code `MP_UNDEF` that
imrat.h:171 promises. -/
theorem C39_compare_value_zero (h : State m ρ) (ha : HasQ ρ a p) (hx : -2 ^ 63 < x ∧ x < 2 ^ 63) :
    Runs env (mp_rat_compare_value a.p x 0) m fun r m' => r = 2147483647 ∧ State m' ρ :=
  .of_wp (mp_rat_compare_value_spec (ref_refused env) h.r2 (by omega) (by omega) (by decide) (by decide) ha.l (fun _ _ h' => ⟨rfl, h'.state⟩)
    fun h => absurd rfl h)

example : ∃ m, State m demoQ ∧ Runs env (mp_rat_compare_value qa.p 44 0) m fun r m' => r = 2147483647 ∧ State m' demoQ :=
  let ⟨m, h⟩ := demoQ_state
  ⟨m, h, C39_compare_value_zero h demoQ_a (by norm_num)⟩

theorem C39_compare_value_min : faultOf (mp_rat_compare_value ⟨.var 0, .var 1⟩ (-2 ^ 63) 1) [1, 2] = some .ub := by
  decide +kernel

theorem C39_is_integer (h : State m ρ) (ha : HasQ ρ a p) :
    Runs env (mp_rat_is_integer a.p) m fun r m' => (r = true ↔ ∃ k : Int, p = k) ∧ State m' ρ := by
  refine .of_wp (mp_rat_is_integer_spec h.r2 ha.l fun _ h' => ⟨?_, h'.state⟩)
  rw [decide_eq_true_iff]
  constructor
  · intro h1
    exact ⟨p.num, (Rat.den_eq_one_iff p).1 h1 |>.symm⟩
  · rintro ⟨k, rfl⟩
    exact Rat.den_intCast k

example : ∃ m, State m demoQ ∧ Runs env (mp_rat_is_integer qa.p) m fun r m' => (r = true ↔ ∃ k : Int, (-22 / 7 : ℚ) = k) ∧ State m' demoQ :=
  let ⟨m, h⟩ := demoQ_state
  ⟨m, h, C39_is_integer h demoQ_a⟩

/-- `mp_rat_sign` is the sign of the value. -/
theorem C39_sign (h : State m ρ) (ha : HasQ ρ a p) :
    Runs env (mp_rat_sign a.p) m fun r m' => (r = true ↔ p < 0) ∧ m' = m :=
  .of_wp (MP_SIGN_spec h.r2 (z := .var a.num) ha.1 ⟨by rw [decide_eq_true_iff]; exact Rat.num_neg, rfl⟩)

example : ∃ m, State m demoQ ∧ Runs env (mp_rat_sign qa.p) m fun r m' => (r = true ↔ (-22 / 7 : ℚ) < 0) ∧ m' = m :=
  let ⟨m, h⟩ := demoQ_state
  ⟨m, h, C39_sign h demoQ_a⟩

end Imath
