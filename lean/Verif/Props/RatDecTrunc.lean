import Verif.Props.RatDecimal
import Verif.Proof.RatDecTrunc

/-!
# Property C40: `mp_rat_to_decimal` with too little room

`decSign`, `decHead` (the sign and the integer part), `DecLast` and `DecCarries` are defined in `Verif/SpecRatTrunc.lean`.  With
`C40_to_decimal_partial` and `C40_carry_exact` the theorems cover every limit and every size of the array.
-/

namespace Imath

variable {env : Env} {m : Mem} {ρ : Nat → Option Int} {a : RVar} {r prec mode : Nat} {p : ℚ} {str : Bytes} {limit : Int}

/-- If the integer part does not fit, its last digits are written; NUL comes after `limit` characters. -/
theorem C40_trunc_int (h : State m ρ) (ha : HasQ ρ a p) (hr : 2 ≤ r ∧ r ≤ 36) (hm : mode ≤ 3) (hp : prec < 2 ^ 31)
    (hlim : (decSign r prec mode p).length + 2 ≤ limit) (hfit : limit ≤ (decHead r prec mode p).length) (hbuf : limit + 1 ≤ str.length) :
    Runs env (mp_rat_to_decimal a.p r prec mode str limit) m fun res m' =>
      res = (MP_TRUNC, decSign r prec mode p ++ numeralTail r (decInt prec mode p) (limit.toNat - (decSign r prec mode p).length) ++
        0 :: str.drop (limit.toNat + 1)) ∧ State m' ρ :=
  .of_wp (dec_trunc_int (ref_refused env) hr.1 hr.2 hm (by omega) h.r2 ha.l hlim hfit hbuf fun _ h' => ⟨rfl, h'.state⟩)

/-- If the digits after the point do not fit, the point is written over the NUL after the integer part (imrat.c:607), and the text
is not terminated. -/
theorem C40_trunc_point (h : State m ρ) (ha : HasQ ρ a p) (hr : 2 ≤ r ∧ r ≤ 36) (hm : mode ≤ 3) (hp : prec < 2 ^ 31 - 1) (hp0 : 0 < prec)
    (hlim : (decHead r prec mode p).length < limit) (hfit : limit < (decHead r prec mode p).length + prec + 2)
    (hbuf : (decHead r prec mode p).length + 1 ≤ str.length) :
    Runs env (mp_rat_to_decimal a.p r prec mode str limit) m fun res m' =>
      res = (MP_TRUNC, decHead r prec mode p ++ 46 :: str.drop ((decHead r prec mode p).length + 1)) ∧ State m' ρ :=
  .of_wp (dec_trunc_point (ref_refused env) hr.1 hr.2 hm (by omega) h.r2 ha.l hp0 hlim hfit hbuf fun _ h' => ⟨rfl, h'.state⟩)

/-- If there is room for the text and its NUL but nothing else, they are written, but the result is `MP_TRUNC`. -/
theorem C40_trunc_last (h : State m ρ) (ha : HasQ ρ a p) (hr : 2 ≤ r ∧ r ≤ 36) (hm : mode ≤ 3) (hp : prec < 2 ^ 31 - 1) (hp0 : 0 < prec)
    (hlim : limit = (decWritten r prec mode p).length + 1) (hl : DecCarries r prec mode p ∨ ¬ DecLast r prec p) (hbuf : limit ≤ str.length) :
    Runs env (mp_rat_to_decimal a.p r prec mode str limit) m fun res m' =>
      res = (MP_TRUNC, decWritten r prec mode p ++ 0 :: str.drop ((decWritten r prec mode p).length + 1)) ∧ State m' ρ :=
  .of_wp (dec_trunc_last (ref_refused env) hr.1 hr.2 hm (by omega) h.r2 ha.l hp0 hlim hl hbuf fun _ h' => ⟨rfl, h'.state⟩)

/-- With one character less, and if rounding carries, all the digits after the point are zeroes. -/
theorem C40_trunc_carry (h : State m ρ) (ha : HasQ ρ a p) (hr : 2 ≤ r ∧ r ≤ 36) (hm : mode ≤ 3) (hp : prec < 2 ^ 31 - 1) (hp0 : 0 < prec)
    (hlim : limit = (decWritten r prec mode p).length) (hc : DecCarries r prec mode p) (hl : ¬ DecLast r prec p) (hbuf : limit ≤ str.length) :
    Runs env (mp_rat_to_decimal a.p r prec mode str limit) m fun res m' =>
      res = (MP_TRUNC, decHead r prec mode p ++ 46 :: (List.replicate prec 48 ++ 0 :: str.drop limit.toNat)) ∧ State m' ρ :=
  .of_wp (dec_trunc_carry (ref_refused env) hr.1 hr.2 hm (by omega) h.r2 ha.l hp0 hlim hc hl hbuf fun _ h' => ⟨rfl, h'.state⟩)

/-- If the limit leaves less than two characters for the integer part, an assertion fails. -/
theorem C40_small_limit (h : State m ρ) (ha : HasQ ρ a p) (hr : 2 ≤ r ∧ r ≤ 36) (hm : mode ≤ 3) (hp : prec < 2 ^ 31)
    (hlim : limit < (decSign r prec mode p).length + 2) (hbuf : (decSign r prec mode p).length ≤ str.length) :
    FaultsOr env (mp_rat_to_decimal a.p r prec mode str limit) m .assert :=
  .of_wp (dec_assert_small (ref_or env _) (.inl rfl) hr.1 hr.2 hm (by omega) h.r2 ha.l hlim hbuf)

/-- An assertion fails too if there is room for `prec` digits and NUL after the point and the digits before the last one are zeroes:
`mp_int_to_string` is called with the limit 1. -/
theorem C40_last_digit (h : State m ρ) (ha : HasQ ρ a p) (hr : 2 ≤ r ∧ r ≤ 36) (hm : mode ≤ 3) (hp : prec < 2 ^ 31 - 1) (hp0 : 0 < prec)
    (hlim : limit = (decHead r prec mode p).length + prec + 2) (hl : DecLast r prec p) (hbuf : (decHead r prec mode p).length + prec ≤ str.length) :
    FaultsOr env (mp_rat_to_decimal a.p r prec mode str limit) m .assert :=
  .of_wp (dec_assert_last (ref_or env _) (.inl rfl) hr.1 hr.2 hm (by omega) h.r2 ha.l hp0 hlim hl hbuf)

/-- In an array that is too short for the integer part, the function writes beyond the end. -/
theorem C40_short_int (h : State m ρ) (ha : HasQ ρ a p) (hr : 2 ≤ r ∧ r ≤ 36) (hm : mode ≤ 3) (hp : prec < 2 ^ 31)
    (hs : str.length < (decSign r prec mode p).length ∨ (decSign r prec mode p).length + 2 ≤ limit ∧ (str.length : Int) ≤ limit ∧
      str.length ≤ (decHead r prec mode p).length) :
    FaultsOr env (mp_rat_to_decimal a.p r prec mode str limit) m .ub :=
  .of_wp (dec_ub_int (ref_or env _) (.inl rfl) hr.1 hr.2 hm (by omega) h.r2 ha.l hs)

/-- So it does in an array that is too short for the digits after the point, unless it gives up before (`C40_trunc_point`, `C40_last_digit`). -/
theorem C40_short_frac (h : State m ρ) (ha : HasQ ρ a p) (hr : 2 ≤ r ∧ r ≤ 36) (hm : mode ≤ 3) (hp : prec < 2 ^ 31 - 1) (hp0 : 0 < prec)
    (hlim : (decHead r prec mode p).length + prec + 2 ≤ limit) (hs : (decHead r prec mode p).length < str.length)
    (hb : limit = (decHead r prec mode p).length + prec + 2 → DecLast r prec p → str.length < (decHead r prec mode p).length + prec)
    (hbuf : str.length ≤ (decWritten r prec mode p).length) (hbuf2 : str.length < limit) :
    FaultsOr env (mp_rat_to_decimal a.p r prec mode str limit) m .ub :=
  .of_wp (dec_ub_frac (ref_or env _) (.inl rfl) hr.1 hr.2 hm (by omega) h.r2 ha.l hp0 hlim hs hb hbuf hbuf2)

/-- A radix out of range is noticed only when the integer part is written: an assertion fails. -/
theorem C40_radix (h : State m ρ) (ha : HasQ ρ a p) (hr : r < 2 ∨ 36 < r) (hr2 : r < 2 ^ 32) (hm : mode ≤ 3) (hp : prec < 2 ^ 31) (hs : str ≠ []) :
    FaultsOr env (mp_rat_to_decimal a.p r prec mode str limit) m .assert :=
  .of_wp (dec_assert_radix (ref_or env _) (.inl rfl) hr2 hr hm (by omega) h.r2 ha.l hs)

/-- With an empty array the sign, if there is one, is written beyond its end before the radix is looked at. -/
theorem C40_radix_empty (h : State m ρ) (ha : HasQ ρ a p) (hr : r < 2 ∨ 36 < r) (hr2 : r < 2 ^ 32) (hm : mode ≤ 3) (hp : prec < 2 ^ 31) :
    (SignShown r prec mode p → FaultsOr env (mp_rat_to_decimal a.p r prec mode [] limit) m .ub) ∧
    (¬ SignShown r prec mode p → FaultsOr env (mp_rat_to_decimal a.p r prec mode [] limit) m .assert) :=
  ⟨fun hs => .of_wp (dec_empty_radix (ref_or env _) hr2 hr hm (by omega) h.r2 ha.l (.inl ⟨hs, .inl rfl⟩)),
   fun hs => .of_wp (dec_empty_radix (ref_or env _) hr2 hr hm (by omega) h.r2 ha.l (.inr ⟨hs, .inl rfl⟩))⟩

/-! ### Precisions of 2^31 - 1 or more

Such a precision is never right: at 2^31 - 1 the sum `zprec + 1` overflows (imrat.c:611), and from 2^31 on `zprec` is negative, so that no zeroes are
counted and `lead_0 - 1` is negative (imrat.c:616).  Before that, the sign and the integer part are written. -/

/-- The integer part does not fit: it is cut off. -/
theorem C40_big_trunc (h : State m ρ) (ha : HasQ ρ a p) (hr : 2 ≤ r ∧ r ≤ 36) (hm : mode ≤ 3) (h31 : 2 ^ 31 - 1 ≤ prec) (hp : prec < 2 ^ 32)
    (hlim : (bigSign r prec mode p).length + 2 ≤ limit) (hfit : limit ≤ (bigSign r prec mode p ++ numeralN r ⌊|p|⌋₊).length)
    (hbuf : limit + 1 ≤ str.length) :
    Runs env (mp_rat_to_decimal a.p r prec mode str limit) m fun res m' =>
      res = (MP_TRUNC, bigSign r prec mode p ++ numeralTail r ⌊|p|⌋₊ (limit.toNat - (bigSign r prec mode p).length) ++
        0 :: str.drop (limit.toNat + 1)) ∧ State m' ρ :=
  .of_wp (dec_big_trunc (ref_refused env) hr.1 hr.2 hm (by omega) (by omega) h.r2 ha.l hlim (by rw [List.length_append] at hfit; exact_mod_cast hfit) hbuf
    fun _ h' => ⟨rfl, h'.state⟩)

/-- In all other cases the behaviour is undefined or an assertion fails. -/
theorem C40_big_fault (h : State m ρ) (ha : HasQ ρ a p) (hr2 : r < 2 ^ 32) (hm : mode ≤ 3) (h31 : 2 ^ 31 - 1 ≤ prec) (hp : prec < 2 ^ 32) :
    (str.length < (bigSign r prec mode p).length → FaultsOr env (mp_rat_to_decimal a.p r prec mode str limit) m .ub) ∧
    ((bigSign r prec mode p).length ≤ str.length → (r < 2 ∨ 36 < r) ∨ limit < (bigSign r prec mode p).length + 2 →
      FaultsOr env (mp_rat_to_decimal a.p r prec mode str limit) m .assert) ∧
    (2 ≤ r ∧ r ≤ 36 → (bigSign r prec mode p).length + 2 ≤ limit →
      (bigSign r prec mode p ++ numeralN r ⌊|p|⌋₊).length < limit ∨ (str.length : Int) ≤ limit →
      FaultsOr env (mp_rat_to_decimal a.p r prec mode str limit) m .ub) :=
  ⟨fun h1 => .of_wp (dec_big_sign (ref_or env _) (.inl rfl) hr2 hm (by omega) (by omega) h.r2 ha.l h1),
   fun h1 h2 => .of_wp (dec_big_assert (ref_or env _) (.inl rfl) hr2 hm (by omega) (by omega) h.r2 ha.l h1 h2),
   fun hr h1 h2 => .of_wp (dec_big_ub (ref_or env _) (.inl rfl) hr.1 hr.2 hm (by omega) (by omega) h.r2 ha.l h1
     (by rw [List.length_append] at h2; exact_mod_cast h2))⟩

/-! ### The hypotheses can be met -/

/-- The smallest precision that is negative as an `int`, with ample room. -/
example : ∃ m, State m demoQ ∧ FaultsOr env (mp_rat_to_decimal qa.p 10 (2 ^ 31) 0 (List.replicate 40 88) 40) m .ub := by
  obtain ⟨m, h⟩ := demoQ_state
  refine ⟨m, h, ((C40_big_fault (str := List.replicate 40 88) (limit := 40) h demoQ_a (by norm_num) (by norm_num) (by norm_num) (by norm_num)).2.2
    (by norm_num) ?_ (.inr (by simp)))⟩
  have : ∀ r prec mode q, (bigSign r prec mode q).length ≤ 1 := fun r prec mode q => by
    unfold bigSign
    by_cases hs : SignShown (if prec < 2 ^ 31 then r else 1) prec mode q
    · rw [if_pos hs]; simp
    · rw [if_neg hs]; simp
  have := this 10 (2 ^ 31) 0 (-22 / 7)
  omega

/-- -22/7 has a sign in any radix, 22/7 has none. -/
example : SignShown 0 2 2 (-22 / 7) ∧ SignShown 37 0 2 (-22 / 7) ∧ ¬ SignShown 0 2 2 (22 / 7) ∧ ¬ SignShown 1 1 0 (-1 / 7) := by
  have e : |(-22 / 7 : ℚ)| = 22 / 7 := by rw [abs_of_neg] <;> norm_num
  have e2 : |(-1 / 7 : ℚ)| = 1 / 7 := by rw [abs_of_neg] <;> norm_num
  refine ⟨⟨by norm_num, .inl ?_⟩, ⟨by norm_num, .inl ?_⟩, fun h => absurd h.1 (by norm_num), fun h => ?_⟩
  · rw [e]; decide +kernel
  · rw [e]; decide +kernel
  · have := h.2
    rw [e2] at this
    revert this
    decide +kernel


/-- -22/7 to two places, rounded up, is -3.15 -/
theorem demoDec : decSign 10 2 2 (-22 / 7) = [45] ∧ decHead 10 2 2 (-22 / 7) = [45, 51] ∧ ¬ DecLast 10 2 (-22 / 7) ∧
    decWritten 10 2 2 (-22 / 7) = [45, 51, 46, 49, 53] := by
  have e1 : roundQ 2 (|(-22 / 7 : ℚ)| * (10 : Nat) ^ 2) = 315 := demoQ_dec.1
  have e2 : roundQ 0 (|(-22 / 7 : ℚ)| * (10 : Nat) ^ 2) = 314 := demoQ_dec.2
  have hs : decSign 10 2 2 (-22 / 7) = [45] := by unfold decSign; rw [e1, if_pos ⟨by norm_num, by norm_num⟩]
  have hi : decInt 2 2 (-22 / 7) = 3 := by decide +kernel
  refine ⟨hs, ?_, ?_, ?_⟩
  · unfold decHead; rw [hs, hi]; simp [numeralN, digitChar]
  · unfold DecLast; rw [e2]; norm_num
  · unfold decWritten
    rw [e1, e2, if_neg, demoQ_decText]
    rintro ⟨-, -, k, hk, e⟩
    rcases k with _ | _ | k
    · omega
    · norm_num at e
    · rw [Nat.pow_succ, Nat.pow_succ] at e
      have : 0 < 10 ^ k := Nat.pow_pos (by omega)
      omega

example : ∃ m, State m demoQ ∧
    (Runs env (mp_rat_to_decimal qa.p 10 2 2 (List.replicate 8 88) 6) m fun res m' =>
      res = (MP_TRUNC, [45, 51, 46, 49, 53, 0, 88, 88]) ∧ State m' demoQ) ∧
    (Runs env (mp_rat_to_decimal qa.p 10 2 2 (List.replicate 8 88) 5) m fun res m' =>
      res = (MP_TRUNC, [45, 51, 46, 88, 88, 88, 88, 88]) ∧ State m' demoQ) ∧
    FaultsOr env (mp_rat_to_decimal qa.p 10 2 2 (List.replicate 8 88) 2) m .assert ∧
    FaultsOr env (mp_rat_to_decimal qa.p 10 2 2 (List.replicate 2 88) 9) m .ub ∧
    FaultsOr env (mp_rat_to_decimal qa.p 10 2 2 (List.replicate 5 88) 9) m .ub ∧
    FaultsOr env (mp_rat_to_decimal qa.p 37 2 2 (List.replicate 5 88) 9) m .assert := by
  obtain ⟨m, h⟩ := demoQ_state
  obtain ⟨d1, d2, d3, d4⟩ := demoDec
  refine ⟨m, h, ?_, ?_, ?_, ?_, ?_, C40_radix h demoQ_a (by omega) (by norm_num) (by omega) (by norm_num) (by simp)⟩
  · have := C40_trunc_last (env := env) (str := List.replicate 8 88) (limit := 6) (mode := 2) (prec := 2) (r := 10) h demoQ_a (by omega) (by omega)
      (by norm_num) (by omega) (by rw [d4]; rfl) (.inr d3) (by simp)
    rw [d4] at this; exact this
  · have := C40_trunc_point (env := env) (str := List.replicate 8 88) (limit := 5) (mode := 2) (prec := 2) (r := 10) h demoQ_a (by omega) (by omega)
      (by norm_num) (by omega) (by rw [d2]; simp) (by rw [d2]; simp) (by rw [d2]; simp)
    rw [d2] at this; exact this
  · exact C40_small_limit h demoQ_a (by omega) (by omega) (by norm_num) (by rw [d1]; simp) (by rw [d1]; simp)
  · exact C40_short_int h demoQ_a (by omega) (by omega) (by norm_num) (.inr ⟨by rw [d1]; simp, by simp, by rw [d2]; simp⟩)
  · exact C40_short_frac h demoQ_a (by omega) (by omega) (by norm_num) (by omega) (by rw [d2]; simp) (by rw [d2]; simp)
      (fun e => by rw [d2] at e; simp at e) (by rw [d4]; simp) (by simp)

/-- In radix 2, "-11.1" has no room with the limit 3. -/
example : ∃ m, State m demoQ ∧ Runs env (mp_rat_to_decimal qa.p 2 1 2 (List.replicate 5 88) 3) m fun res m' =>
    res = (MP_TRUNC, [45, 49, 49, 0, 88]) ∧ State m' demoQ := by
  obtain ⟨m, h⟩ := demoQ_state
  have e1 : roundQ 2 (|(-22 / 7 : ℚ)| * (2 : Nat) ^ 1) = 7 := by decide +kernel
  have hs : decSign 2 1 2 (-22 / 7) = [45] := by unfold decSign; rw [e1, if_pos ⟨by norm_num, by norm_num⟩]
  have hi : decInt 1 2 (-22 / 7) = 3 := by decide +kernel
  refine ⟨m, h, ?_⟩
  have := C40_trunc_int (env := env) (str := List.replicate 5 88) (limit := 3) (mode := 2) (prec := 1) (r := 2) h demoQ_a (by omega) (by omega)
      (by norm_num) (by rw [hs]; simp) (by unfold decHead; rw [hs, hi]; simp [numeralN, digitChar]) (by simp)
  rw [hs, hi] at this
  simpa [numeralTail, numeral, numeralN, digitChar, List.replicate] using this

/-- -22/7 to one place in radix 6, rounded down, is -3.0; the limit is that of `C40_last_digit`. -/
example : ∃ m, State m demoQ ∧ FaultsOr env (mp_rat_to_decimal qa.p 6 1 0 (List.replicate 9 88) 5) m .assert := by
  obtain ⟨m, h⟩ := demoQ_state
  have e1 : roundQ 0 (|(-22 / 7 : ℚ)| * (6 : Nat) ^ 1) = 18 := by decide +kernel
  have hs : decSign 6 1 0 (-22 / 7) = [45] := by unfold decSign; rw [e1, if_pos ⟨by norm_num, by norm_num⟩]
  have hi : decInt 1 0 (-22 / 7) = 3 := by decide +kernel
  have hh : decHead 6 1 0 (-22 / 7) = [45, 51] := by unfold decHead; rw [hs, hi]; simp [numeralN, digitChar]
  exact ⟨m, h, C40_last_digit h demoQ_a (by omega) (by omega) (by norm_num) (by omega) (by rw [hh]; rfl) (by unfold DecLast; rw [e1]; norm_num)
    (by rw [hh]; simp)⟩

/-- 999/1000 to two places, to the nearest, with the limit 5: the digits are lost.  The text written with enough room is `0.100`. -/
example : DecCarries 10 2 1 (999 / 1000) ∧ ¬ DecLast 10 2 (999 / 1000) ∧ decWritten 10 2 1 (999 / 1000) = [48, 46, 49, 48, 48] ∧
    outcome (mp_rat_to_decimal ⟨.var 0, .var 1⟩ 10 2 MP_ROUND_HALF_UP (List.replicate 7 88) 5) [999, 1000] =
      some ((MP_TRUNC, [48, 46, 48, 48, 0, 88, 88]), [some 999, some 1000]) := by
  have e0 : roundQ 0 (|(999 / 1000 : ℚ)| * (10 : Nat) ^ 2) = 99 := by decide +kernel
  have e1 : roundQ 1 (|(999 / 1000 : ℚ)| * (10 : Nat) ^ 2) = 100 := by decide +kernel
  have hc : Carries 10 2 99 100 := ⟨by norm_num, by norm_num, 2, by norm_num, by norm_num⟩
  refine ⟨?_, ?_, ?_, by decide +kernel⟩
  · unfold DecCarries; rw [e0, e1]; exact hc
  · unfold DecLast; rw [e0]; norm_num
  · unfold decWritten
    rw [e0, e1, if_pos hc]
    unfold carryText
    rw [if_neg (by norm_num)]
    simp [numeralN, fixedDigits, digitChar]

end Imath
