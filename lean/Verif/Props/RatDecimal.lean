import Verif.Props.RatStr
import Verif.Proof.RatToDec2

/-!
# Property C40: rationals with a radix point

`roundQ`, `decText` and `Carries` are defined in `Verif/SpecRat.lean`.
-/

namespace Imath

variable {env : Env} {m : Mem} {ρ : Nat → Option Int} {a b c : RVar} {r prec mode : Nat} {p q : ℚ} {str : Bytes} {limit : Int}

/-- The text written is that of `|p| * r^prec` rounded to an integer, for every rational, radix,
precision and rounding mode, if rounding does not change the number of significant digits after the
point.  Missing from the full property: that case, in which the text is wrong (`C40_carry`), and, if
there is a point, a limit with room for just the text and its NUL (`C40_room`).  Every output that fits
into a buffer whose size is an `int` has a precision below 2^31-1. -/
theorem C40_to_decimal_partial (h : State m ρ) (ha : HasQ ρ a p) (hr : 2 ≤ r ∧ r ≤ 36) (hm : mode ≤ 3) (hp : prec < 2 ^ 31 - 1)
    (hc : ¬ Carries r prec (roundQ 0 (|p| * r ^ prec)) (roundQ mode (|p| * r ^ prec)))
    (hfit : (decText r prec (p < 0) (roundQ mode (|p| * r ^ prec))).length + (if prec = 0 then 1 else 2) ≤ limit)
    (hbuf : (decText r prec (p < 0) (roundQ mode (|p| * r ^ prec))).length + 1 ≤ str.length) :
    Runs env (mp_rat_to_decimal a.p r prec mode str limit) m fun res m' =>
      res = (MP_OK, decText r prec (p < 0) (roundQ mode (|p| * r ^ prec)) ++
        0 :: str.drop ((decText r prec (p < 0) (roundQ mode (|p| * r ^ prec))).length + 1)) ∧ State m' ρ :=
  .of_wp (mp_rat_to_decimal_spec (ref_refused env) hr.1 hr.2 hm (by omega) h.r2 ha.l hc hfit hbuf fun _ h' => ⟨rfl, h'.state⟩)

/-- -22/7 is -3.142857..., to two places up: -3.15 -/
theorem demoQ_dec : roundQ 2 (|(-22 / 7 : ℚ)| * (10 : Nat) ^ 2) = 315 ∧ roundQ 0 (|(-22 / 7 : ℚ)| * (10 : Nat) ^ 2) = 314 := by
  have e : |(-22 / 7 : ℚ)| * (10 : Nat) ^ 2 = ((2200 : Nat) : ℚ) / (7 : Nat) := by
    rw [abs_of_neg (by norm_num)]; norm_num
  rw [e, roundQ_eq (by norm_num) (by norm_num), roundQ_eq (by norm_num) (by norm_num)]
  decide

theorem demoQ_decText : decText 10 2 ((-22 / 7 : ℚ) < 0) 315 = [45, 51, 46, 49, 53] := by
  rw [decText, if_pos ⟨by norm_num, by norm_num⟩]
  simp [numeralN, fixedDigits, digitChar]

example : ∃ m, State m demoQ ∧ Runs env (mp_rat_to_decimal qa.p 10 2 2 [1, 2, 3, 4, 5, 6, 7, 8] 7) m fun res m' =>
    res = (MP_OK, [45, 51, 46, 49, 53, 0, 7, 8]) ∧ State m' demoQ := by
  obtain ⟨m, h⟩ := demoQ_state
  refine ⟨m, h, ?_⟩
  have := C40_to_decimal_partial (env := env) (str := [1, 2, 3, 4, 5, 6, 7, 8]) (limit := 7) (mode := 2) (prec := 2) h demoQ_a (r := 10)
    (by omega) (by omega) (by norm_num) (by
      rw [demoQ_dec.1, demoQ_dec.2]
      rintro ⟨-, -, k, hk, e⟩
      rcases k with _ | _ | k
      · omega
      · norm_num at e
      · rw [Nat.pow_succ, Nat.pow_succ] at e
        have : 0 < 10 ^ k := Nat.pow_pos (by omega)
        omega)
    (by rw [demoQ_dec.1, demoQ_decText]; decide) (by rw [demoQ_dec.1, demoQ_decText]; decide)
  rw [demoQ_dec.1, demoQ_decText] at this
  exact this

/-- Rounding that carries (imrat.c:569-573: the digits after the point are increased without regard to
the number of leading zeroes, and a carry into the integer part is not noticed): 99/100 to one place is
`0.10` instead of `1.0`, and 99/1000 to two places is `0.010` instead of `0.10`. -/
theorem C40_carry :
    outcome (mp_rat_to_decimal ⟨.var 0, .var 1⟩ 10 1 MP_ROUND_HALF_UP (List.replicate 10 88) 10) [99, 100] =
      some ((MP_OK, [48, 46, 49, 48, 0, 88, 88, 88, 88, 88]), [some 99, some 100]) ∧
    outcome (mp_rat_to_decimal ⟨.var 0, .var 1⟩ 10 2 MP_ROUND_HALF_UP (List.replicate 10 88) 10) [99, 1000] =
      some ((MP_OK, [48, 46, 48, 49, 48, 0, 88, 88, 88, 88]), [some 99, some 1000]) ∧
    decText 10 1 False (roundQ 1 (|(99 / 100 : ℚ)| * (10 : Nat) ^ 1)) = [49, 46, 48] ∧
    decText 10 2 False (roundQ 1 (|(99 / 1000 : ℚ)| * (10 : Nat) ^ 2)) = [48, 46, 49, 48] := by
  refine ⟨by decide +kernel, by decide +kernel, ?_, ?_⟩
  · have e : |(99 / 100 : ℚ)| * (10 : Nat) ^ 1 = ((990 : Nat) : ℚ) / (100 : Nat) := by
      rw [abs_of_pos (by norm_num)]; norm_num
    rw [e, roundQ_eq (by norm_num) (by norm_num)]
    simp [decText, numeralN, fixedDigits, digitChar]
  · have e : |(99 / 1000 : ℚ)| * (10 : Nat) ^ 2 = ((9900 : Nat) : ℚ) / (1000 : Nat) := by
      rw [abs_of_pos (by norm_num)]; norm_num
    rw [e, roundQ_eq (by norm_num) (by norm_num)]
    simp [decText, numeralN, fixedDigits, digitChar]

/-- The output `0.5` of 1/2 needs a limit of five characters; with four, which are enough for the text
and its NUL, an assertion fails, and for `0.50` with five the result is `MP_TRUNC` (imrat.c:617: `lead_0`
is subtracted although only `lead_0 - 1` characters have been written). -/
theorem C40_room :
    faultOf (mp_rat_to_decimal ⟨.var 0, .var 1⟩ 10 1 MP_ROUND_DOWN (List.replicate 10 88) 4) [1, 2] = some .assert ∧
    (outcome (mp_rat_to_decimal ⟨.var 0, .var 1⟩ 10 1 MP_ROUND_DOWN (List.replicate 10 88) 5) [1, 2]).map (·.1) =
      some (MP_OK, [48, 46, 53, 0, 88, 88, 88, 88, 88, 88]) ∧
    (outcome (mp_rat_to_decimal ⟨.var 0, .var 1⟩ 10 2 MP_ROUND_DOWN (List.replicate 10 88) 5) [1, 2]).map (·.1.1) = some MP_TRUNC := by
  decide +kernel

/-- A precision of 2^31 is converted to a negative `int`; `memset` is called with a length of 2^64-1. -/
theorem C40_large_precision :
    faultOf (mp_rat_to_decimal ⟨.var 0, .var 1⟩ 10 (2 ^ 31) MP_ROUND_DOWN (List.replicate 10 88) 10) [1, 2] = some .ub := by
  decide +kernel

/-- What is written if rounding carries, in general: the integer part is not changed and the fraction has one digit
too many.  Together with `C40_to_decimal_partial` this describes all cases. -/
theorem C40_carry_exact (h : State m ρ) (ha : HasQ ρ a p) (hr : 2 ≤ r ∧ r ≤ 36) (hm : mode ≤ 3) (hp : prec < 2 ^ 31 - 1)
    (hc : Carries r prec (roundQ 0 (|p| * r ^ prec)) (roundQ mode (|p| * r ^ prec)))
    (hfit : (carryText r prec (p < 0) (roundQ 0 (|p| * r ^ prec))).length + 2 ≤ limit)
    (hbuf : (carryText r prec (p < 0) (roundQ 0 (|p| * r ^ prec))).length + 1 ≤ str.length) :
    Runs env (mp_rat_to_decimal a.p r prec mode str limit) m fun res m' =>
      res = (MP_OK, carryText r prec (p < 0) (roundQ 0 (|p| * r ^ prec)) ++
        0 :: str.drop ((carryText r prec (p < 0) (roundQ 0 (|p| * r ^ prec))).length + 1)) ∧ State m' ρ :=
  .of_wp (mp_rat_to_decimal_carry (ref_refused env) hr.1 hr.2 hm (by omega) h.r2 ha.l hc hfit hbuf fun _ h' => ⟨rfl, h'.state⟩)

/-- So the text is wrong whenever rounding carries: it is not the text of any number with `prec` digits. -/
theorem C40_carry_always_wrong {neg : Prop} [Decidable neg] (hp : 0 < prec) (F N : Nat) :
    carryText r prec neg F ≠ decText r prec neg N := carry_ne hp

/-- -999/100 to one place, to the nearest: -9.10 in place of -10.0 -/
example : Carries 10 1 (roundQ 0 (|(-999 / 100 : ℚ)| * (10 : Nat) ^ 1)) (roundQ 1 (|(-999 / 100 : ℚ)| * (10 : Nat) ^ 1)) ∧
    carryText 10 1 ((-999 / 100 : ℚ) < 0) (roundQ 0 (|(-999 / 100 : ℚ)| * (10 : Nat) ^ 1)) = [45, 57, 46, 49, 48] ∧
    decText 10 1 ((-999 / 100 : ℚ) < 0) (roundQ 1 (|(-999 / 100 : ℚ)| * (10 : Nat) ^ 1)) = [45, 49, 48, 46, 48] := by
  have e0 : roundQ 0 (|(-999 / 100 : ℚ)| * (10 : Nat) ^ 1) = 99 := by decide +kernel
  have e1 : roundQ 1 (|(-999 / 100 : ℚ)| * (10 : Nat) ^ 1) = 100 := by decide +kernel
  rw [e0, e1]
  exact ⟨⟨by norm_num, by norm_num, 1, by norm_num, by norm_num⟩, by decide +kernel, by decide +kernel⟩

/-- An unknown rounding mode is rejected, with the buffer and all variables as before. -/
theorem C40_bad_mode (h : State m ρ) (ha : HasQ ρ a p) (hr : r < 2 ^ 32) (hm : 4 ≤ mode) (hp : prec < 2 ^ 32) :
    Runs env (mp_rat_to_decimal a.p r prec mode str limit) m fun res m' =>
      res = (MP_BADARG, str) ∧ ∀ n v, ρ n = some v → Holds m' (.var n) v :=
  .of_wp (mp_rat_to_decimal_bad (ρ := ρ) (ref_refused env) hr hm (by omega) h.r2 p.den_pos ha.l.1 ha.l.2 (fun _ _ h => h)
    fun _ h' => ⟨rfl, fun n v hv => (h' n v hv).1⟩)

example : ∃ m, State m demoQ ∧ Runs env (mp_rat_to_decimal qa.p 10 3 7 [88] 1) m fun res m' =>
    res = (MP_BADARG, [88]) ∧ ∀ n v, demoQ n = some v → Holds m' (.var n) v := by
  obtain ⟨m, h⟩ := demoQ_state
  exact ⟨m, h, C40_bad_mode h demoQ_a (by omega) (by omega) (by omega)⟩

/-- But the local variables are not cleared (imrat.c:581), and what they occupy on the heap is lost: here the
two variables use the blocks 0 and 1 of the heap, and two further blocks are in use afterwards.  In a known mode there
are none. -/
theorem C40_mode_leaks :
    outcome (mp_rat_to_decimal ⟨.var 0, .var 1⟩ 10 1 4 [88, 88] 2) [2 ^ 40, 3] = some ((MP_BADARG, [88, 88]), [some (2 ^ 40), some 3]) ∧
    blocksAfter (mp_rat_to_decimal ⟨.var 0, .var 1⟩ 10 1 4 [88, 88] 2) [2 ^ 40, 3] =
      some ([0, 1, 3, 12], [some (.heap 0), some (.heap 1)]) ∧
    blocksAfter (mp_rat_to_decimal ⟨.var 0, .var 1⟩ 10 1 3 (List.replicate 20 88) 20) [2 ^ 40, 3] =
      some ([0, 1], [some (.heap 0), some (.heap 1)]) := by
  decide +kernel

end Imath
