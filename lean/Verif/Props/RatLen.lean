import Verif.Concrete
import Verif.Props.RatDecimal
import Verif.Props.Conv

/-!
# Property C53: buffers for rationals

`ratText`, `decText` and `roundQ` are defined in `Verif/SpecRat.lean`, `numeral` in
`Verif/SpecConv.lean`.
-/

namespace Imath

variable {env : Env} {m : Mem} {ρ : Nat → Option Int} {a : RVar} {r prec mode : Nat} {p : ℚ}

/-- Ask for the size of the buffer, then convert. -/
def ratStringOf (a : RVar) (r : Nat) : M (Int × Bytes) := do
  let l ← mp_rat_string_len a.p r
  mp_rat_to_string a.p r (List.replicate l.toNat 0) l

/-- A buffer of `mp_rat_string_len` characters is sufficient for `mp_rat_to_string`.  Missing from the
full property: numbers with a part from 13^5458 on in radices other than those of `goodRadix` (false, see
`C53_string_len_insufficient`), and numbers whose numerator and denominator have together more than
2147483643 bits (the sum of the two lengths need not be an `int`). -/
theorem C53_string_len_partial (h : State m ρ) (ha : HasQ ρ a p) (hr : 2 ≤ r ∧ r ≤ 36)
    (hx : goodRadix r = true ∨ |p.num| < 13 ^ 5458 ∧ (p.den : Int) < 13 ^ 5458)
    (hs : Nat.size p.num.natAbs + Nat.size p.den ≤ 2147483643) :
    Runs env (ratStringOf a r) m fun res m' =>
      res.1 = MP_OK ∧ (ratText r p ++ [0]).isPrefixOf res.2 = true ∧ State m' ρ := by
  have ha1 : lift ρ (.var a.num) = some p.num := ha.1
  have ha2 : lift ρ (.var a.den) = some (p.den : Int) := ha.2
  have hn := len_ok hr (h.r2.size_le ha1) (hx.imp id And.left)
  have hd := len_ok (x := (p.den : Int)) hr (h.r2.size_le ha2) (hx.imp id fun h => by rw [abs_of_nonneg (by omega)]; exact h.2)
  have hd0 : 1 ≤ (numeral r (p.den : Int)).length := by rw [numeral_nat]; exact numeralN_pos r _ hr.1
  have hn0 : 1 ≤ (numeral r p.num).length := by
    have := numeralN_pos r p.num.natAbs hr.1
    unfold numeral; rw [List.length_append]; omega
  have fin : ∀ l : Int, (ratText r p).length + 1 ≤ l → wp env (Refused env) (mp_rat_to_string a.p r (List.replicate l.toNat 0) l)
      (fun res m' => res.1 = MP_OK ∧ (ratText r p ++ [0]).isPrefixOf res.2 = true ∧ State m' ρ) m := by
    intro l hl
    refine mp_rat_to_string_spec (ref_refused env) hr.1 hr.2 h.r2 ha.l hl (by simp; omega) fun m' h' => ⟨rfl, ?_, h'.state⟩
    rw [List.isPrefixOf_iff_prefix]
    exact ⟨List.drop ((ratText r p).length + 1) (List.replicate l.toNat 0), by simp⟩
  unfold ratStringOf mp_rat_string_len
  refine .of_wp (wp_bind (wp_bind (mp_int_string_len_spec2 hr.1 hr.2 h.r2 ha1 fun n _ n2 _ n4 => ?_)))
  have n2 := n2 hn
  refine wp_bind (mp_int_compare_zero_spec h.r2 ha1 ?_)
  refine wp_bind (wp_cif (fun hk => ?_) fun hk => ?_)
  · have hp : p ≠ 0 := by rintro rfl; exact hk rfl
    refine mp_int_string_len_spec2 hr.1 hr.2 h.r2 ha2 fun d _ d2 _ d4 => ?_
    have d2 := d2 hd
    rw [Int.natAbs_natCast] at d4
    have s1 : 0 < Nat.size p.num.natAbs := Nat.size_pos.2 (by have := Rat.num_ne_zero.2 hp; omega)
    have s2 : 0 < Nat.size p.den := Nat.size_pos.2 p.den_pos
    refine wp_cint (by omega) (by omega) (fin _ ?_)
    rw [ratText, if_neg hp, List.length_append, List.length_cons]
    push_cast; omega
  · have hp : p = 0 := by
      have : ¬ p.num.sign ≠ 0 := hk
      simpa using this
    refine wp_pure (wp_cint (by omega) (by omega) (fin _ ?_))
    rw [ratText, if_pos hp, List.append_nil]; omega

example : ∃ m, State m demoQ ∧ Runs env (ratStringOf qa 10) m fun res m' =>
      res.1 = MP_OK ∧ (ratText 10 (-22 / 7) ++ [0]).isPrefixOf res.2 = true ∧ State m' demoQ := by
  obtain ⟨m, h⟩ := demoQ_state
  refine ⟨m, h, C53_string_len_partial h demoQ_a (by omega) (.inl rfl) ?_⟩
  have e1 : (-22 / 7 : ℚ).num = -22 := by decide +kernel
  have e2 : (-22 / 7 : ℚ).den = 7 := by decide +kernel
  rw [e1, e2]; decide

/-- The property is false: for 13^5458, in radix 13, `mp_rat_to_string` with a limit of
`mp_rat_string_len` fails an assertion, unless memory runs out before. -/
theorem C53_string_len_insufficient (h : State m ρ) (ha : HasQ ρ a (13 ^ 5458)) :
    FaultsOr env (ratStringOf a 13) m .assert := by
  have q1 : ((13 : ℚ) ^ 5458).num = 13 ^ 5458 := by rw [Rat.num_pow]; rfl
  have q2 : ((13 : ℚ) ^ 5458).den = 1 := by rw [Rat.den_pow]; exact one_pow _
  have ha1 : lift ρ (.var a.num) = some (13 ^ 5458) := by rw [← q1]; exact ha.1
  have ha2 : lift ρ (.var a.den) = some 1 := by have := ha.2; rw [q2] at this; exact this
  have e1 : ((13 : Int) ^ 5458).natAbs = 13 ^ 5458 := by rw [Int.natAbs_pow]; rfl
  have e2 : Nat.size (13 ^ 5458) = 20197 := by
    have a1 : 13 ^ 5458 < 2 ^ 20197 := by decide +kernel
    have a2 : 2 ^ 20196 ≤ 13 ^ 5458 := by decide +kernel
    have := Nat.size_le.2 a1
    have := Nat.lt_size.2 a2
    omega
  have hpos : (0 : Int) < 13 ^ 5458 := pow_pos (by norm_num) _
  have e3 : (numeral 13 (13 ^ 5458)).length = 5459 := by
    have hn : (13 : Nat) ^ 5458 ≠ 0 := pow_ne_zero _ (by norm_num)
    unfold numeral numeralN
    rw [if_neg (by omega), e1, if_neg hn, List.nil_append, List.length_reverse, List.length_map,
      Nat.length_digits 13 _ (by norm_num) hn, Nat.log_pow (by norm_num)]
  have h0D : 0 ∉ numeral 13 (13 ^ 5458) := numeral_zero_notin (by norm_num) (by norm_num) _
  have hl : s_log2.getD 13 0 = 270238154 := rfl
  generalize (13 : Int) ^ 5458 = x at *
  refine FaultsOr.of_wp ?_
  unfold ratStringOf
  refine wp_bind (wp_mono (Q := fun o m' => o = 5461 ∧ m' = m) ?_ ?_)
  · unfold mp_rat_string_len
    refine wp_bind (mp_int_string_len_spec (by norm_num) (by norm_num) h.r2 ha1 fun n n1 _ n3 => ?_)
    have n3 := n3 hpos
    rw [e1, e2, hl] at n3
    rw [e3] at n1
    refine wp_bind (mp_int_compare_zero_spec h.r2 ha1 ?_)
    refine wp_bind (wp_cif (fun hk => ?_) fun hk => ?_)
    · refine mp_int_string_len_spec (by norm_num) (by norm_num) h.r2 ha2 fun d _ d2 d3 => ?_
      have d3 := d3 (by norm_num)
      have d2 := d2 (.inl (by decide +kernel))
      rw [show (1 : Int).natAbs = 1 from rfl, Nat.size_one, hl] at d3
      rw [show (numeral 13 1).length = 1 from by decide +kernel] at d2
      exact wp_cint (by omega) (by omega) ⟨by omega, rfl⟩
    · refine absurd ?_ hk
      rw [ne_eq, Int.sign_eq_zero_iff_zero]; omega
  · rintro _ _ ⟨rfl, rfl⟩
    show wp env _ (mp_rat_to_string a.p 13 (List.replicate 5461 0) 5461) _ _
    generalize hs : List.replicate 5461 0 = str
    have hlen : str.length = 5461 := by rw [← hs, List.length_replicate]
    clear hs
    unfold mp_rat_to_string
    refine wp_bind (wp_mono (Q := fun p m' => p = (MP_OK, numeral 13 x ++ 0 :: str.drop 5460) ∧ R2 m' (lift ρ)) ?_ ?_)
    · refine mp_int_to_string_spec (ref_or env _) (by norm_num) (by norm_num) (by norm_num) (by omega) h.r2 ha1 (fun m1 h1 _ => ⟨?_, h1⟩)
        fun _ _ _ h1 => by omega
      rw [e3]
    · rintro _ m1 ⟨rfl, h1⟩
      show wp env _ (mp_int_compare_zero _ >>= _) _ m1
      refine wp_bind (wp_mono (Q := fun k m' => k ≠ 0 ∧ m' = m1) ?_ ?_)
      · refine mp_int_compare_zero_spec h1 ha1 ⟨?_, rfl⟩
        rw [ne_eq, Int.sign_eq_zero_iff_zero]; omega
      · rintro k m1 ⟨hk, rfl⟩
        refine wp_if_neg hk ?_
        refine wp_bind (wp_mono (Q := fun k m' => k = 5459 ∧ m' = m1) ?_ ?_)
        · show wp env _ (strlen ([] ++ (numeral 13 x ++ 0 :: str.drop 5460)) _ ([] : Bytes).length) _ m1
          exact strlen_exact h0D (by simp) ⟨e3, rfl⟩
        · rintro k m1 ⟨rfl, rfl⟩
          show wp env _ (bset _ _ _ >>= _) _ m1
          refine wp_bind (wp_mono (Q := fun s m' => 5460 ≤ s.length ∧ m' = m1) ?_ ?_)
          · refine wp_bset (by simp; omega) ⟨?_, rfl⟩
            rw [List.length_set, List.length_append, e3, List.length_cons]; omega
          · rintro s _ ⟨h5, rfl⟩
            unfold atOff
            rw [if_pos (by omega)]
            refine wp_bind ?_
            unfold mp_int_to_string
            exact wp_fault (Faults.bind rfl) (.inl rfl)

example : ∃ m, State m (put (put demoQ 0 (13 ^ 5458)) 1 1) ∧
    FaultsOr env (ratStringOf ⟨0, 1⟩ 13) m .assert := by
  have big : ∀ k : Nat, k < 2 ^ 20197 → k < (2 ^ 32) ^ MAXD := fun k hk => by
    rw [← Nat.pow_mul]
    exact lt_of_lt_of_le hk (Nat.pow_le_pow_right (by norm_num) (by norm_num))
  obtain ⟨m, h⟩ := exists_state (put (put demoQ 0 (13 ^ 5458)) 1 1) 8 (fun n hn => by
    unfold put
    rw [if_neg (by omega), if_neg (by omega)]
    match n, hn with
    | n + 8, _ => rfl) fun n v hv => by
    unfold put at hv
    split at hv
    · simp only [Option.some.injEq] at hv
      rw [← hv]; exact big _ (by decide +kernel)
    · split at hv
      · simp only [Option.some.injEq] at hv
        rw [← hv, Int.natAbs_pow]
        exact big _ (by decide +kernel)
      · refine big _ ?_
        match n, hv with
        | 0, hv | 1, hv | 2, hv | 3, hv | 4, hv | 5, hv | 6, hv | 7, hv =>
          simp only [demoQ, Option.some.injEq] at hv; subst hv; decide +kernel
        | n + 8, hv => simp [demoQ] at hv
  refine ⟨m, h, C53_string_len_insufficient h ⟨?_, ?_⟩⟩
  · rw [Rat.num_pow]; rfl
  · rw [Rat.den_pow, show ((13 : ℚ).den) = 1 from rfl, one_pow]; rfl

theorem numeralN_mono (hr : 2 ≤ r) {x y : Nat} (h : x ≤ y) : (numeralN r x).length ≤ (numeralN r y).length := by
  by_cases hx : x = 0
  · subst hx
    have := numeralN_pos r y hr
    simp [numeralN] at this ⊢; exact this
  · unfold numeralN
    rw [if_neg hx, if_neg (by omega)]
    simp only [List.length_reverse, List.length_map]
    exact Nat.le_length_digits_le r x y h

/-- The text is not longer than the numerator, the point and the digits after it. -/
theorem decText_len (hr : 2 ≤ r) (hm : mode ≤ 3) :
    (decText r prec (p < 0) (roundQ mode (|p| * r ^ prec))).length ≤ (numeral r p.num).length + if prec = 0 then 0 else prec + 1 := by
  have hR : 0 < r ^ prec := by positivity
  have h1 : roundQ mode (|p| * r ^ prec) ≤ p.num.natAbs * r ^ prec := by
    have e : |p| * (r : ℚ) ^ prec = ((p.num.natAbs * r ^ prec : Nat) : ℚ) / (p.den : Nat) := by
      rw [← Rat.num_div_den |p|, Rat.num_abs_eq_abs_num, Rat.den_abs_eq_den, Int.abs_eq_natAbs]
      push_cast [Nat.cast_natAbs]; ring
    rw [e, roundQ_eq p.den_pos hm]
    generalize p.num.natAbs * r ^ prec = P
    have hD := p.den_pos
    generalize p.den = D at hD
    have e1 := Nat.div_add_mod P D
    have e2 := Nat.mod_lt P hD
    have e3 : P / D ≤ D * (P / D) := Nat.le_mul_of_pos_left _ hD
    split
    · next hc =>
      have e4 : P % D ≠ 0 := by omega
      omega
    · omega
  have h2 : roundQ mode (|p| * r ^ prec) / r ^ prec ≤ p.num.natAbs := by
    rw [Nat.div_le_iff_le_mul_add_pred hR]; rw [Nat.mul_comm]; omega
  have h3 := numeralN_mono hr h2
  unfold decText numeral
  rw [List.length_append, List.length_append, List.length_append]
  have h4 : (if p < 0 ∧ roundQ mode (|p| * r ^ prec) ≠ 0 then [45] else ([] : List Nat)).length ≤
      (if p.num < 0 then [45] else ([] : List Nat)).length := by
    by_cases h : p < 0
    · rw [if_pos (Rat.num_neg.2 h)]; split <;> simp
    · rw [if_neg (fun hh => h hh.1)]; simp
  have h5 : (if prec = 0 then ([] : List Nat) else 46 :: fixedDigits r prec (roundQ mode (|p| * r ^ prec))).length ≤
      if prec = 0 then 0 else prec + 1 := by
    split
    · simp
    · rw [List.length_cons, fixed_len]
  omega

/-- Ask for the size of the buffer, then convert. -/
def ratDecimalOf (a : RVar) (r prec mode : Nat) : M (Int × Bytes) := do
  let l ← mp_rat_decimal_len a.p r prec
  mp_rat_to_decimal a.p r prec mode (List.replicate l.toNat 0) l

/-- A buffer of `mp_rat_decimal_len` characters is sufficient for `mp_rat_to_decimal`; the text in it is
the one of property C40.  Missing from the full property: the numbers excluded in `C40_to_decimal_partial`
and in `C30_string_len_partial`. -/
theorem C53_decimal_len_partial (h : State m ρ) (ha : HasQ ρ a p) (hr : 2 ≤ r ∧ r ≤ 36) (hm : mode ≤ 3)
    (hx : prec = 0 ∨ goodRadix r = true ∨ |p.num| < 13 ^ 5458) (hs : Nat.size p.num.natAbs + prec ≤ 2147483642)
    (hc : ¬ Carries r prec (roundQ 0 (|p| * r ^ prec)) (roundQ mode (|p| * r ^ prec))) :
    Runs env (ratDecimalOf a r prec mode) m fun res m' => res.1 = MP_OK ∧
      (decText r prec (p < 0) (roundQ mode (|p| * r ^ prec)) ++ [0]).isPrefixOf res.2 = true ∧ State m' ρ := by
  have ha1 : lift ρ (.var a.num) = some p.num := ha.1
  have hn := hx.imp id (len_ok hr (h.r2.size_le ha1))
  have hl := decText_len (p := p) (prec := prec) hr.1 hm
  unfold ratDecimalOf mp_rat_decimal_len
  refine .of_wp (wp_bind (wp_bind (mp_int_string_len_spec2 hr.1 hr.2 h.r2 ha1 fun n n1 n2 _ n4 => ?_)))
  have n2 := hn.imp id n2
  have e : (if prec = 0 then 1 else toInt32 (1 + prec + 1) : Int) = if prec = 0 then 1 else (prec : Int) + 2 := by
    split
    · rfl
    · unfold toInt32 u32
      rw [Nat.mod_eq_of_lt (by omega), if_pos (by omega)]; push_cast; ring
  show wp env _ (cint (n + if prec = 0 then 1 else toInt32 (1 + prec + 1))) _ m
  rw [e]
  have hn0 := numeralN_pos r p.num.natAbs hr.1
  refine wp_cint (by split <;> omega) (by split <;> omega) ?_
  refine mp_rat_to_decimal_spec (ref_refused env) hr.1 hr.2 hm (by omega) h.r2 ha.l hc ?_ ?_ fun m' h' => ⟨rfl, ?_, h'.state⟩
  · split at hl <;> split <;> omega
  · rw [List.length_replicate]
    split at hl <;> split <;> omega
  · rw [List.isPrefixOf_iff_prefix]
    exact ⟨List.drop ((decText r prec (p < 0) (roundQ mode (|p| * r ^ prec))).length + 1)
      (List.replicate (n + if prec = 0 then 1 else (prec : Int) + 2).toNat 0), by simp⟩

/-- -22/7 with two digits, rounded up in absolute value: -3.15. -/
example : ∃ m, State m demoQ ∧ Runs env (ratDecimalOf qa 10 2 2) m fun res m' => res.1 = MP_OK ∧
      ([45, 51, 46, 49, 53] ++ [0]).isPrefixOf res.2 = true ∧ State m' demoQ := by
  obtain ⟨m, h⟩ := demoQ_state
  refine ⟨m, h, ?_⟩
  have := C53_decimal_len_partial (env := env) (prec := 2) (mode := 2) (r := 10) h demoQ_a (by omega) (by omega) (.inr (.inl rfl))
    (by rw [show (-22 / 7 : ℚ).num = -22 by decide +kernel]; decide) (by
      rw [demoQ_dec.1, demoQ_dec.2]
      rintro ⟨-, -, k, hk, e⟩
      rcases k with _ | _ | k
      · omega
      · norm_num at e
      · rw [Nat.pow_succ, Nat.pow_succ] at e
        have : 0 < 10 ^ k := Nat.pow_pos (by omega)
        omega)
  rw [demoQ_dec.1, demoQ_decText] at this
  exact this

/-! ### The carrying case -/

/-- If rounding carries, the denominator is at least the radix. -/
theorem carries_den {P D A t K prec n : Nat} (hr : 2 ≤ r) (hP : P = n % D * r ^ prec) (hA : A = P / D) (ht : t = P % D) (hD : 0 < D)
    (ht0 : t ≠ 0) (hK : 0 < K) (hAK : A + 1 = r ^ K) : r ≤ D := by
  have hR := Nat.mod_lt n hD
  generalize n % D = R at *
  have e := Nat.div_add_mod P D
  have htD := Nat.mod_lt P hD
  rw [← hA, ← ht] at e
  rw [← ht] at htD
  have hK1 : r ≤ r ^ K := by
    calc r = r ^ 1 := (Nat.pow_one r).symm
      _ ≤ r ^ K := Nat.pow_le_pow_right (by omega) hK
  have hlt : A < r ^ prec := by
    rw [hA, Nat.div_lt_iff_lt_mul hD, hP, Nat.mul_comm _ D]
    exact Nat.mul_lt_mul_of_pos_right hR (Nat.pow_pos (by omega))
  have hKp : K ≤ prec := by
    by_contra h
    have := Nat.pow_lt_pow_right (show 1 < r by omega) (show prec < K by omega)
    omega
  have eD : D * A + D = D * r ^ K := by rw [← hAK, Nat.mul_add, Nat.mul_one]
  rcases Nat.lt_or_ge K prec with h | h
  · obtain ⟨q, rfl⟩ : ∃ q, prec = q + 1 := ⟨prec - 1, by omega⟩
    have hR0 : 0 < R := by
      rcases Nat.eq_zero_or_pos R with h0 | h0
      · rw [h0, Nat.zero_mul] at hP; rw [hP, Nat.zero_mod] at ht; omega
      · exact h0
    have h1 : r ^ q * r ≤ P := by rw [hP, ← Nat.pow_succ]; exact Nat.le_mul_of_pos_left _ hR0
    have h2 : D * r ^ K ≤ D * r ^ q := Nat.mul_le_mul_left _ (Nat.pow_le_pow_right (by omega) (by omega))
    have h3 : r ^ q * r < r ^ q * D := by rw [Nat.mul_comm _ D]; omega
    exact (Nat.lt_of_mul_lt_mul_left h3).le
  · obtain rfl : K = prec := by omega
    have h1 : R * r ^ K + r ^ K ≤ D * r ^ K := by
      rw [← Nat.succ_mul]; exact Nat.mul_le_mul_right _ hR
    omega

theorem carryText_len (hr : 2 ≤ r) (hm : mode ≤ 3) (hb : r ≤ p.num.natAbs)
    (hc : Carries r prec (roundQ 0 (|p| * r ^ prec)) (roundQ mode (|p| * r ^ prec))) :
    (carryText r prec (p < 0) (roundQ 0 (|p| * r ^ prec))).length ≤ (numeral r p.num).length + prec + 1 := by
  have hR : 0 < r ^ prec := by positivity
  have hD := p.den_pos
  have e : |p| * (r : ℚ) ^ prec = ((p.num.natAbs * r ^ prec : Nat) : ℚ) / (p.den : Nat) := by
    rw [ratAbs_eq]; push_cast; ring
  rw [e] at hc ⊢
  rw [roundQ_eq hD hm, roundQ_eq hD (by omega : 0 ≤ 3), if_neg (by simp), Nat.add_zero] at hc
  rw [roundQ_eq hD (by omega : 0 ≤ 3), if_neg (by simp), Nat.add_zero]
  obtain ⟨hp, hne, K, hK, hAK⟩ := hc
  have hsplit : p.num.natAbs * r ^ prec = p.den * (p.num.natAbs / p.den * r ^ prec) + p.num.natAbs % p.den * r ^ prec := by
    rw [← Nat.mul_assoc, ← Nat.add_mul, Nat.div_add_mod]
  have hlt : p.num.natAbs % p.den * r ^ prec / p.den < r ^ prec := by
    rw [Nat.div_lt_iff_lt_mul hD, Nat.mul_comm _ p.den]
    exact Nat.mul_lt_mul_of_pos_right (Nat.mod_lt _ hD) hR
  have eF : p.num.natAbs * r ^ prec / p.den = r ^ prec * (p.num.natAbs / p.den) + p.num.natAbs % p.den * r ^ prec / p.den := by
    rw [hsplit, Nat.mul_add_div hD, Nat.mul_comm (r ^ prec)]
  have ht : p.num.natAbs % p.den * r ^ prec % p.den = p.num.natAbs * r ^ prec % p.den := by
    conv_rhs => rw [hsplit, Nat.mul_add_mod]
  have ht0 : p.num.natAbs % p.den * r ^ prec % p.den ≠ 0 := by
    intro h0
    rw [← ht, h0, if_neg (by omega)] at hne
    exact hne rfl
  rw [eF, Nat.mul_add_mod, Nat.mod_eq_of_lt hlt] at hAK
  have hden := carries_den hr rfl rfl rfl hD ht0 hK hAK
  have hI : p.num.natAbs / p.den ≤ p.num.natAbs / r := Nat.div_le_div_left hden (by omega)
  have hl := numeralN_mono hr hI
  have hstep := congrArg List.length (numeralN_step hr hb)
  rw [List.length_append, List.length_singleton] at hstep
  have eI : (r ^ prec * (p.num.natAbs / p.den) + p.num.natAbs % p.den * r ^ prec / p.den) / r ^ prec = p.num.natAbs / p.den := by
    rw [Nat.mul_add_div hR, Nat.div_eq_of_lt hlt, Nat.add_zero]
  unfold carryText numeral
  rw [eF, eI, List.length_append, List.length_append, List.length_cons, fixed_len, List.length_append]
  have h4 : (if p < 0 then [45] else ([] : List Nat)).length = (if p.num < 0 then [45] else ([] : List Nat)).length := by
    simp only [Rat.num_neg]
  omega

theorem mp_rat_decimal_len_spec {E : Fault → Prop} {σ : Id → Option Int} {b : MpQ} {Q : Int → Mem → Prop} (hr : 2 ≤ r ∧ r ≤ 36) (hm : mode ≤ 3)
    (h : R2 m σ) (ha : HasQ2 σ b p) (hn : prec = 0 ∨ LenOk r p.num.natAbs) (hs : Nat.size p.num.natAbs + prec ≤ 2147483642)
    (hb : Carries r prec (roundQ 0 (|p| * r ^ prec)) (roundQ mode (|p| * r ^ prec)) → r ≤ p.num.natAbs)
    (hQ : ∀ n : Int, ((decWritten r prec mode p).length : Int) + (if prec = 0 then 1 else 2) ≤ n → Q n m) :
    wp env E (mp_rat_decimal_len b r prec) Q m := by
  have hl : (decWritten r prec mode p).length ≤ (numeral r p.num).length + if prec = 0 then 0 else prec + 1 := by
    unfold decWritten
    split
    · next hc =>
      rw [if_neg (by have := hc.1; omega)]
      exact carryText_len hr.1 hm (hb hc) hc
    · exact decText_len hr.1 hm
  have hn0 := numeralN_pos r p.num.natAbs hr.1
  unfold mp_rat_decimal_len
  refine wp_bind (mp_int_string_len_spec2 hr.1 hr.2 h ha.1 fun n n1 n2 _ n4 => ?_)
  have n2 := hn.imp id n2
  have e : (if prec = 0 then 1 else toInt32 (1 + prec + 1) : Int) = if prec = 0 then 1 else (prec : Int) + 2 := by
    split
    · rfl
    · unfold toInt32 u32
      rw [Nat.mod_eq_of_lt (by omega), if_pos (by omega)]; push_cast; ring
  show wp env _ (cint (n + if prec = 0 then 1 else toInt32 (1 + prec + 1))) _ m
  rw [e]
  refine wp_cint (by split <;> omega) (by split <;> omega) (hQ _ ?_)
  split at hl <;> split <;> omega

theorem mp_rat_to_decimal_out {E : Fault → Prop} {σ : Id → Option Int} {b : MpQ} {str : Bytes} {limit : Int} {Q : Int × Bytes → Mem → Prop}
    (hE : Ref env E) (hr : 2 ≤ r ∧ r ≤ 36) (hm : mode ≤ 3) (hp : prec < 2147483647) (h : R2 m σ) (ha : HasQ2 σ b p)
    (hfit : ((decWritten r prec mode p).length : Int) + (if prec = 0 then 1 else 2) ≤ limit)
    (hbuf : (decWritten r prec mode p).length + 1 ≤ str.length)
    (hQ : ∀ m', R2 m' σ → Q (MP_OK, decWritten r prec mode p ++ 0 :: str.drop ((decWritten r prec mode p).length + 1)) m') :
    wp env E (mp_rat_to_decimal b r prec mode str limit) Q m := by
  unfold decWritten at hfit hbuf hQ
  by_cases hc : Carries r prec (roundQ 0 (|p| * r ^ prec)) (roundQ mode (|p| * r ^ prec))
  · simp only [if_pos hc] at hfit hbuf hQ
    rw [if_neg (by have := hc.1; omega)] at hfit
    exact mp_rat_to_decimal_carry hE hr.1 hr.2 hm hp h ha hc hfit hbuf hQ
  · simp only [if_neg hc] at hfit hbuf hQ
    exact mp_rat_to_decimal_spec hE hr.1 hr.2 hm hp h ha hc hfit hbuf hQ

/-- In the carrying case the text is wrong, but the buffer is sufficient for it, if the numerator has two digits or more. -/
theorem C53_decimal_len_carry_partial (h : State m ρ) (ha : HasQ ρ a p) (hr : 2 ≤ r ∧ r ≤ 36) (hm : mode ≤ 3)
    (hx : goodRadix r = true ∨ |p.num| < 13 ^ 5458) (hs : Nat.size p.num.natAbs + prec ≤ 2147483642) (hb : r ≤ p.num.natAbs)
    (hc : Carries r prec (roundQ 0 (|p| * r ^ prec)) (roundQ mode (|p| * r ^ prec))) :
    Runs env (ratDecimalOf a r prec mode) m fun res m' => res.1 = MP_OK ∧
      (carryText r prec (p < 0) (roundQ 0 (|p| * r ^ prec)) ++ [0]).isPrefixOf res.2 = true ∧ State m' ρ := by
  have ha1 : lift ρ (.var a.num) = some p.num := ha.1
  have e : decWritten r prec mode p = carryText r prec (p < 0) (roundQ 0 (|p| * r ^ prec)) := if_pos hc
  have hp0 : ¬ prec = 0 := by have := hc.1; omega
  unfold ratDecimalOf
  refine .of_wp (wp_bind (mp_rat_decimal_len_spec hr hm h.r2 ha.l (.inr (len_ok hr (h.r2.size_le ha1) hx)) hs (fun _ => hb) fun n hn => ?_))
  rw [if_neg hp0] at hn
  refine mp_rat_to_decimal_out (ref_refused env) hr hm (by omega) h.r2 ha.l (by rwa [if_neg hp0]) ?_ fun m' h' => ⟨rfl, ?_, h'.state⟩
  · rw [List.length_replicate]; omega
  · rw [List.isPrefixOf_iff_prefix, ← e]
    exact ⟨List.drop ((decWritten r prec mode p).length + 1) (List.replicate n.toNat 0), by simp⟩

/-- -999/100 to one place, to the nearest: -9.10 fits in the buffer. -/
example : ∃ m, State m (vars [-999, 100]) ∧ Runs env (ratDecimalOf ⟨0, 1⟩ 10 1 1) m fun res m' => res.1 = MP_OK ∧
      ([45, 57, 46, 49, 48] ++ [0]).isPrefixOf res.2 = true ∧ State m' (vars [-999, 100]) := by
  obtain ⟨m, h⟩ := vars_state (l := [-999, 100]) (by simp)
  refine ⟨m, h, ?_⟩
  have e0 : roundQ 0 (|(-999 / 100 : ℚ)| * (10 : Nat) ^ 1) = 99 := by decide +kernel
  have e1 : roundQ 1 (|(-999 / 100 : ℚ)| * (10 : Nat) ^ 1) = 100 := by decide +kernel
  have e2 : (-999 / 100 : ℚ).num = -999 := by decide +kernel
  have e3 : (-999 / 100 : ℚ).den = 100 := by decide +kernel
  have := C53_decimal_len_carry_partial (env := env) (a := ⟨0, 1⟩) (p := -999 / 100) (prec := 1) (mode := 1) (r := 10) h
    ⟨by rw [e2]; rfl, by rw [e3]; rfl⟩ (by omega) (by omega) (.inl rfl) (by rw [e2]; decide) (by rw [e2]; decide)
    (by rw [e0, e1]; exact ⟨by norm_num, by norm_num, 1, by norm_num, by norm_num⟩)
  rw [e0, show carryText 10 1 ((-999 / 100 : ℚ) < 0) 99 = [45, 57, 46, 49, 48] by decide +kernel] at this
  exact this

/-- With a numerator of one digit it is not: 3/32 to two digits, rounded up, needs one character more. -/
theorem C53_decimal_len_carry_short : outcome (ratDecimalOf ⟨0, 1⟩ 10 2 2) [3, 32] =
      some ((MP_TRUNC, [48, 46, 48, 49, 48, 0]), [some 3, some 32]) ∧
    Carries 10 2 (roundQ 0 (|(3 / 32 : ℚ)| * (10 : Nat) ^ 2)) (roundQ 2 (|(3 / 32 : ℚ)| * (10 : Nat) ^ 2)) := by
  constructor
  · decide +kernel
  · rw [show roundQ 0 (|(3 / 32 : ℚ)| * (10 : Nat) ^ 2) = 9 by decide +kernel,
      show roundQ 2 (|(3 / 32 : ℚ)| * (10 : Nat) ^ 2) = 10 by decide +kernel]
    exact ⟨by norm_num, by norm_num, 1, by norm_num, by norm_num⟩

end Imath
