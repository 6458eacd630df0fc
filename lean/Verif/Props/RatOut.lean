import Verif.Proof.RatOut
import Verif.Props.RatDecimal

/-!
# Properties C26 and C53: the parts of a rational as machine integers, and the lengths of its texts
-/

namespace Imath

variable {env : Env} {m : Mem} {ρ : Nat → Option Int} {a : RVar} {r prec : Nat} {p : ℚ}

/-- `mp_rat_to_ints`.  The other components of the result are what is stored in `*num` and `*den`: if the denominator is not
representable, the numerator has been stored.

Missing from the full property: the numerator -2^63, see `C26_to_ints_min`. -/
theorem C26_to_ints_partial (h : State m ρ) (ha : HasQ ρ a p) (hx : p.num ≠ -2 ^ 63) :
    Runs env (mp_rat_to_ints a.p) m fun res m' =>
      res = (if -2 ^ 63 ≤ p.num ∧ p.num < 2 ^ 63 then
        if (p.den : Int) < 2 ^ 63 then (MP_OK, some p.num, some (p.den : Int)) else (MP_RANGE, some p.num, none)
        else (MP_RANGE, none, none)) ∧ State m' ρ := by
  refine .of_wp (mp_rat_to_ints_spec h.r2 ha.l (by norm_num at hx ⊢; exact hx) (fun h0 m' h' => ⟨?_, h'.state⟩)
    (fun h1 h2 h3 m' h' => ⟨?_, h'.state⟩) fun h1 h2 h3 m' h' => ⟨?_, h'.state⟩)
  · rw [if_neg (by omega)]
  · rw [if_pos (by omega), if_neg (by omega)]
  · rw [if_pos (by omega), if_pos (by omega)]

/-- The numerator -2^63 leads to undefined behaviour. -/
theorem C26_to_ints_min (h : State m ρ) (ha : HasQ ρ a p) (hx : p.num = -2 ^ 63) : FaultsOr env (mp_rat_to_ints a.p) m .ub :=
  .of_wp (wp_bind (mp_int_to_int_fault (.inl rfl) h.r2 (by rw [ha.l.1, hx]; norm_num)))

/-- `mp_rat_string_len` is at least the number of digits and at most four more than the number of bits.  The text has a slash and
a terminator as well; see `C53_string_len_partial`. -/
theorem C53_string_len_bounds (h : State m ρ) (ha : HasQ ρ a p) (hr : 2 ≤ r ∧ r ≤ 36)
    (hs : Nat.size p.num.natAbs + Nat.size p.den ≤ 2147483643) :
    Runs env (mp_rat_string_len a.p r) m fun n m' =>
      ((numeral r p.num).length : Int) + (if p = 0 then 0 else (numeral r p.den).length) ≤ n ∧
      n ≤ Nat.size p.num.natAbs + Nat.size p.den + 4 ∧ m' = m :=
  .of_wp (mp_rat_string_len_exact hr h.r2 ha.l hs fun h1 h2 => ⟨h1, h2, rfl⟩)

theorem C53_decimal_len_bounds (h : State m ρ) (ha : HasQ ρ a p) (hr : 2 ≤ r ∧ r ≤ 36) (hs : Nat.size p.num.natAbs + prec ≤ 2147483642) :
    Runs env (mp_rat_decimal_len a.p r prec) m fun n m' =>
      ((numeral r p.num).length : Int) + (if prec = 0 then 1 else (prec : Int) + 2) ≤ n ∧
      n ≤ Nat.size p.num.natAbs + prec + 5 ∧ m' = m :=
  .of_wp (mp_rat_decimal_len_exact hr h.r2 ha.l hs fun h1 h2 => ⟨h1, h2, rfl⟩)

/-- An assertion fails if the radix is out of range. -/
theorem C53_len_radix (hr : r < 2 ∨ 36 < r) :
    FaultsOr env (mp_rat_string_len a.p r) m .assert ∧ FaultsOr env (mp_rat_decimal_len a.p r prec) m .assert := len_radix hr

example : ∃ m, State m demoQ ∧
    (Runs env (mp_rat_to_ints qa.p) m fun res m' => res = (MP_OK, some (-22), some 7) ∧ State m' demoQ) ∧
    (Runs env (mp_rat_string_len qa.p 10) m fun n m' => 4 ≤ n ∧ n ≤ 12 ∧ m' = m) ∧
    (Runs env (mp_rat_decimal_len qa.p 10 2) m fun n m' => 7 ≤ n ∧ n ≤ 12 ∧ m' = m) ∧
    FaultsOr env (mp_rat_string_len qa.p 1) m .assert := by
  obtain ⟨m, h⟩ := demoQ_state
  have e1 : (-22 / 7 : ℚ).num = -22 := by decide +kernel
  have e2 : (-22 / 7 : ℚ).den = 7 := by decide +kernel
  have s1 : Nat.size (-22 : Int).natAbs = 5 := by decide +kernel
  have s2 : Nat.size 7 = 3 := by decide +kernel
  refine ⟨m, h, ?_, ?_, ?_, (C53_len_radix (prec := 0) (by omega)).1⟩
  · have := C26_to_ints_partial (env := env) h demoQ_a (by rw [e1]; norm_num)
    rw [e1, e2] at this
    simpa using this
  · refine (C53_string_len_bounds (env := env) (r := 10) h demoQ_a (by omega) (by rw [e1, e2]; decide +kernel)).mono fun n m' ⟨h1, h2, h3⟩ => ?_
    rw [e1, e2] at h1 h2
    rw [if_neg (by norm_num)] at h1
    rw [s1, s2] at h2
    simp [numeral, numeralN, digitChar] at h1
    exact ⟨by omega, by omega, h3⟩
  · refine (C53_decimal_len_bounds (env := env) (r := 10) (prec := 2) h demoQ_a (by omega) (by rw [e1]; decide +kernel)).mono fun n m' ⟨h1, h2, h3⟩ => ?_
    rw [e1] at h1 h2
    rw [s1] at h2
    simp [numeral, numeralN, digitChar] at h1
    exact ⟨by omega, by omega, h3⟩

/-- -2^63 / 3, and a denominator that is too large. -/
example : faultOf (mp_rat_to_ints ⟨.var 0, .var 1⟩) [-2 ^ 63, 3] = some .ub ∧
    outcome (mp_rat_to_ints ⟨.var 0, .var 1⟩) [3, 2 ^ 63] = some ((MP_RANGE, some 3, none), [some 3, some (2 ^ 63)]) := by decide +kernel

end Imath
