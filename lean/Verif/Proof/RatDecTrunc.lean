import Verif.Proof.RatToDec
import Verif.Proof.Overrun
import Verif.SpecRatTrunc
import Mathlib.Algebra.Order.Floor.Semifield

/-!
# `mp_rat_to_decimal` with too little room
-/

namespace Imath

variable {env : Env} {E : Fault → Prop} {m : Mem} {σ σ' : Id → Option Int} {r : Nat} {a : MpQ} {v x : Int} {p : ℚ} {str : Bytes} {limit : Int}

theorem cassert_false {Q : Unit → Mem → Prop} {b : Bool} (hb : b = false) (hu : E .assert) : wp env E (cassert b) Q m := by
  subst hb; exact wp_fault rfl hu

/-- The function up to the output -/
theorem mp_rat_to_decimal_gen {Q : Int × Bytes → Mem → Prop} {prec round : Nat} {x : Int} {D : Nat} (hE : Ref env E) (hr : r < 2 ^ 32)
    (hm : round ≤ 3) (hp : prec < 2147483648) (h : R2 m σ) (hD : 0 < D) (hnum : σ a.num = some x) (hden : σ a.den = some (D : Int))
    (hout : ∀ j I' A' t0 t1 m' σ', j ≤ prec → (j = prec ∨ D ≤ x.natAbs % D * r ^ j) → (∀ i, i < j → x.natAbs % D * r ^ i < D) →
      I' = x.natAbs / D + (if Bump round D (x.natAbs % D * r ^ prec % D) ∧ prec = 0 then 1 else 0) →
      A' = x.natAbs % D * r ^ prec / D + (if Bump round D (x.natAbs % D * r ^ prec % D) ∧ prec ≠ 0 then 1 else 0) →
      R2 m' σ' → σ' a.num = some x → σ' t0 = some (I' : Int) → σ' t1 = some (A' : Int) →
      wp env E (decOut a.num t0 t1 r prec prec j str limit) (fun o m2 => R2 m2 σ' ∧ ∀ m3, R2 m3 σ → Q o m3) m') :
    wp env E (mp_rat_to_decimal a r prec round str limit) Q m := by
  unfold mp_rat_to_decimal
  refine wp_bind (wp_mono (withLocalL_spec (Q := fun o m' => wp env E (pure o.1) Q m') (v := x) h (Tmps.nil σ (fun _ => .tmp 0) fun _ => 0)
    (fun t m1 P h1 hd' hn ho hP => mp_int_init_copy_spec hE h1 hd' hn hnum hP) fun t m1 g h1 => ?_) fun _ _ h => TDone.elim h.2)
  refine withLocalL_spec (v := 0) h1 g (fun t m1 P h1 hd' hn ho hP => mp_int_init_spec h1 hd' hn hP) fun t' m2 g2 h2 => ?_
  refine withLocalL_spec (v := 0) h2 g2 (fun t m1 P h1 hd' hn ho hP => mp_int_init_spec h1 hd' hn hP) fun t'' m3 g3 h3 => ?_
  have g3 : Tmps σ 3 (nset (nset (nset (fun _ => .tmp 0) 0 t) 1 t') 2 t'') (L [x, 0, 0]) _ :=
    g3.congr (fun _ _ => rfl) fun i hi => by
      rcases show i = 0 ∨ i = 1 ∨ i = 2 by omega with rfl | rfl | rfl <;> rfl
  have e0 : nset (nset (nset (fun _ => Id.tmp 0) 0 t) 1 t') 2 t'' 0 = t := rfl
  have e1 : nset (nset (nset (fun _ => Id.tmp 0) 0 t) 1 t') 2 t'' 1 = t' := rfl
  have e2 : nset (nset (nset (fun _ => Id.tmp 0) 0 t) 1 t') 2 t'' 2 = t'' := rfl
  generalize hT : nset (nset (nset (fun _ => Id.tmp 0) 0 t) 1 t') 2 t'' = T at *
  have hz : toInt32 prec = (prec : Int) := by
    have : u32 prec = prec := Nat.mod_eq_of_lt (by omega)
    unfold toInt32; rw [this, if_pos (by omega)]
  rw [hz]
  subst e0 e1 e2
  refine wp_bind (decDigits_spec hE hr hD (by omega) hden g3 h3 fun m4 σ4 j hj j2 j3 g4 h4 => ?_)
  refine wp_if_neg (by simp) (wp_bind (decRound_spec hE hden hm g4 h4 fun m5 σ5 w' g5 h5 => ?_))
  refine wp_if_neg (by simp) (wp_bind ?_)
  refine wp_mono (hout j _ _ _ _ m5 σ5 hj j2 j3 rfl rfl h5 (g5.out hnum) (g5.get 0) (g5.get 1)) fun o m6 h6 => wp_pure ⟨rfl, ?_⟩
  exact .mk g5 h6.1 fun m' h => wp_pure (h6.2 m' h)

/-- The output after the integer part -/
def decTail (t1 : Id) (r prec : Nat) (zp : Int) (lead h : Nat) (left : Int) (p : Int × Bytes) : M (Int × Bytes) :=
  if p.1 ≠ MP_OK then pure p else do
  let len ← strlen p.2 (p.2.length + 1) h
  if prec = 0 then pure (MP_OK, p.2)
  else decFrac t1 r zp lead p.2 (h + len) (left - len)

theorem decOut_head {Q : Int × Bytes → Mem → Prop} {num t0 t1 : Id} {I A prec lead : Nat} {zp : Int} {P : Bytes} (h : R2 m σ) (hn : σ num = some x)
    (h0 : σ t0 = some (I : Int)) (h1 : σ t1 = some (A : Int)) (hP : P = if x < 0 ∧ (I ≠ 0 ∨ A ≠ 0) then [45] else [])
    (hs : P.length ≤ str.length)
    (hK : wp env E (mp_int_to_string t0 r (str.drop P.length) (limit - P.length))
      (fun p m' => wp env E (decTail t1 r prec zp lead P.length (limit - P.length) (p.1, P ++ p.2)) Q m') m) :
    wp env E (decOut num t0 t1 r prec zp lead str limit) Q m := by
  unfold decOut
  refine wp_bind (MP_SIGN_spec h hn (wp_bind (mp_int_compare_zero_spec h h0 (wp_bind (mp_int_compare_zero_spec h h1 ?_)))))
  have e : decide (decide (x < 0) = true ∧ ((I : Int).sign ≠ 0 ∨ (A : Int).sign ≠ 0)) = decide (x < 0 ∧ (I ≠ 0 ∨ A ≠ 0)) := by
    simp [Int.sign_eq_zero_iff_zero]
  rw [e]
  clear e
  have hP' : P = if decide (x < 0 ∧ (I ≠ 0 ∨ A ≠ 0)) = true then [45] else [] := by rw [hP]; simp
  clear hP
  generalize decide (x < 0 ∧ (I ≠ 0 ∨ A ≠ 0)) = neg at *
  have hPl : (if neg = true then 1 else 0) = P.length := by rw [hP']; split <;> rfl
  refine wp_bind (wp_mono (Q := fun s m' => m' = m ∧ s = P ++ str.drop P.length) ?_ ?_)
  · refine wp_cif (fun hc => ?_) fun hc => wp_pure ⟨rfl, by simp [hP', hc]⟩
    rcases str with _ | ⟨u, T⟩
    · simp [hP', hc] at hs
    refine wp_bset (by simp) ⟨rfl, by simp [hP', hc]⟩
  rintro _ _ ⟨rfl, rfl⟩
  rw [hPl]
  exact wp_bind (wp_atOff hK)

/-- The array is too short for the sign. -/
theorem decOut_sign_ub {Q : Int × Bytes → Mem → Prop} {num t0 t1 : Id} {I A prec lead : Nat} {zp : Int} (hu : E .ub) (h : R2 m σ) (hn : σ num = some x)
    (h0 : σ t0 = some (I : Int)) (h1 : σ t1 = some (A : Int)) (hP : x < 0 ∧ (I ≠ 0 ∨ A ≠ 0)) (hs : str = []) :
    wp env E (decOut num t0 t1 r prec zp lead str limit) Q m := by
  unfold decOut
  refine wp_bind (MP_SIGN_spec h hn (wp_bind (mp_int_compare_zero_spec h h0 (wp_bind (mp_int_compare_zero_spec h h1 ?_)))))
  have e : decide (decide (x < 0) = true ∧ ((I : Int).sign ≠ 0 ∨ (A : Int).sign ≠ 0)) = true := by
    simpa [Int.sign_eq_zero_iff_zero] using hP
  rw [e]
  refine wp_bind (wp_cif (fun _ => wp_bset_ub (by simp [hs]) hu) fun hc => absurd rfl hc)

/-- The limit leaves less than two characters for the integer part. -/
theorem decOut_small {Q : Int × Bytes → Mem → Prop} {num t0 t1 : Id} {I A prec lead : Nat} {zp : Int} {P : Bytes} (hu : E .assert) (h : R2 m σ) (hn : σ num = some x)
    (h0 : σ t0 = some (I : Int)) (h1 : σ t1 = some (A : Int)) (hP : P = if x < 0 ∧ (I ≠ 0 ∨ A ≠ 0) then [45] else [])
    (hs : P.length ≤ str.length) (hlim : limit < P.length + 2) :
    wp env E (decOut num t0 t1 r prec zp lead str limit) Q m := by
  refine decOut_head h hn h0 h1 hP hs ?_
  unfold mp_int_to_string
  exact wp_bind (cassert_false (by simp; omega) hu)

/-- The integer part does not fit. -/
theorem decOut_int {Q : Int × Bytes → Mem → Prop} {num t0 t1 : Id} {I A prec lead : Nat} {zp : Int} {P : Bytes} (hE : Ref env E) (hr2 : 2 ≤ r) (hr : r ≤ 36)
    (h : R2 m σ) (hn : σ num = some x)
    (h0 : σ t0 = some (I : Int)) (h1 : σ t1 = some (A : Int)) (hP : P = if x < 0 ∧ (I ≠ 0 ∨ A ≠ 0) then [45] else [])
    (hlim : P.length + 2 ≤ limit) (hfit : limit ≤ P.length + (numeralN r I).length) (hbuf : limit + 1 ≤ str.length)
    (hQ : ∀ m', R2 m' σ → Q (MP_TRUNC, P ++ numeralTail r I (limit.toNat - P.length) ++ 0 :: str.drop (limit.toNat + 1)) m') :
    wp env E (decOut num t0 t1 r prec zp lead str limit) Q m := by
  refine decOut_head h hn h0 h1 hP (by omega) ?_
  refine mp_int_to_string_full hE hr2 hr (by omega) ?_ h h0 (fun m2 h2 hlt => ?_) fun m2 h2 _ => ?_
  · rw [List.length_drop]; omega
  · rw [numeral_nat] at hlt; omega
  · unfold decTail
    refine wp_if_pos (by simp [MP_TRUNC, MP_OK]) (wp_pure ?_)
    have := hQ m2 h2
    rw [List.append_assoc] at this
    rw [List.drop_drop, show (limit - (P.length : Int)).toNat = limit.toNat - P.length by omega]
    rw [show P.length + (limit.toNat - P.length + 1) = limit.toNat + 1 by omega]
    exact this

/-- The integer part fits. -/
theorem decOut_frac {Q : Int × Bytes → Mem → Prop} {num t0 t1 : Id} {I A prec lead : Nat} {zp : Int} {P : Bytes} (hE : Ref env E) (hr2 : 2 ≤ r) (hr : r ≤ 36)
    (h : R2 m σ) (hn : σ num = some x)
    (h0 : σ t0 = some (I : Int)) (h1 : σ t1 = some (A : Int)) (hP : P = if x < 0 ∧ (I ≠ 0 ∨ A ≠ 0) then [45] else [])
    (hp : 0 < prec) (hlim : P.length + (numeralN r I).length < limit) (hbuf : P.length + (numeralN r I).length + 1 ≤ str.length)
    (hK : ∀ m', R2 m' σ → wp env E (decFrac t1 r zp lead ((P ++ numeralN r I) ++ 0 :: str.drop (P.length + (numeralN r I).length + 1))
      (P ++ numeralN r I).length (limit - P.length - (numeralN r I).length)) Q m') :
    wp env E (decOut num t0 t1 r prec zp lead str limit) Q m := by
  have hpos := numeralN_pos r I hr2
  refine decOut_head h hn h0 h1 hP (by omega) ?_
  refine mp_int_to_string_full hE hr2 hr (by omega) ?_ h h0 (fun m2 h2 _ => ?_) fun m2 h2 hlt => ?_
  · rw [numeral_nat, List.length_drop]; omega
  · unfold decTail
    rw [numeral_nat]
    dsimp only
    refine wp_if_neg (by simp) (wp_bind ?_)
    refine strlen_exact (by rw [← numeral_nat]; exact numeral_zero_notin hr2 hr _) (by simp; omega) ?_
    refine wp_if_neg (by omega) ?_
    have := hK m2 h2
    rw [List.drop_drop, ← List.append_assoc, ← List.length_append, ← Nat.add_assoc]
    exact this
  · rw [numeral_nat] at hlt; omega

/-- There is no room for the digits after the point. -/
theorem decFrac_trunc {Q : Int × Bytes → Mem → Prop} {t1 : Id} {prec lead u : Nat} {left : Int} {P T : Bytes}
    (hp : (prec : Int) + 1 < 2147483648) (hleft : left < prec + 2) (hQ : Q (MP_TRUNC, P ++ 46 :: T) m) :
    wp env E (decFrac t1 r prec lead (P ++ u :: T) P.length left) Q m := by
  unfold decFrac
  refine wp_bind (wp_bset (by simp) ?_)
  rw [set_append_len]
  have b2 : (prec : Int) + 1 ≤ 2147483647 := by omega
  have b1 : -2147483648 ≤ (prec : Int) + 1 := by omega
  generalize hz : (prec : Int) + 1 = z at *
  refine wp_bind (wp_cint b1 b2 ?_)
  refine wp_if_pos (by omega) (wp_pure ?_)
  simpa using hQ

/-- There is room for the digits after the point, but not for the terminator. -/
theorem decFrac_last {Q : Int × Bytes → Mem → Prop} {t1 : Id} {A prec lead u : Nat} {left : Int} {P T : Bytes} (hE : Ref env E)
    (hr2 : 2 ≤ r) (hr : r ≤ 36) (hp : (prec : Int) + 1 < 2147483648) (h : R2 m σ) (ht : σ t1 = some (A : Int)) (hl : 0 < lead)
    (hleft : (prec : Int) + 2 ≤ left) (h2 : (lead : Int) + 3 ≤ left) (hfit : left ≤ lead + 1 + (numeralN r A).length)
    (hT : left ≤ T.length + 1)
    (hQ : ∀ m', R2 m' σ → Q (MP_TRUNC, P ++ ((46 :: (List.replicate (lead - 1) 48 ++ numeralTail r A (left.toNat - lead - 1))) ++
      0 :: T.drop (left.toNat - 1))) m') :
    wp env E (decFrac t1 r prec lead (P ++ u :: T) P.length left) Q m := by
  unfold decFrac
  refine wp_bind (wp_bset (by simp) ?_)
  rw [set_append_len]
  have b2 : (prec : Int) + 1 ≤ 2147483647 := by omega
  have b1 : -2147483648 ≤ (prec : Int) + 1 := by omega
  generalize hz : (prec : Int) + 1 = z at *
  refine wp_bind (wp_cint b1 b2 ?_)
  refine wp_if_neg (by omega) (wp_if_neg (by omega) ?_)
  rw [show P.length + 1 = (P ++ [46]).length by simp]
  refine wp_bind (bfill_spec _ (P ++ [46]) T (by omega) ?_)
  have e : (P ++ [46]) ++ (List.replicate (lead - 1) 48 ++ T.drop (lead - 1)) =
    (P ++ [46] ++ List.replicate (lead - 1) 48) ++ T.drop (lead - 1) := by simp
  have e2 : List.length (P ++ [46]) + (lead - 1) = List.length (P ++ [46] ++ List.replicate (lead - 1) 48) := by simp; omega
  rw [e, e2]
  refine wp_atOff (mp_int_to_string_full hE hr2 hr (by omega) ?_ h ht (fun m2 h2 hlt => ?_) fun m2 h2 _ => ?_)
  · rw [List.length_drop]; omega
  · rw [numeral_nat] at hlt; omega
  · have := hQ m2 h2
    rw [List.drop_drop, show (left - 1 - (lead : Int)).toNat = left.toNat - lead - 1 by omega,
      show lead - 1 + (left.toNat - lead - 1 + 1) = left.toNat - 1 by omega]
    simpa using this

/-- There is room for one digit only after the zeroes. -/
theorem decFrac_assert {Q : Int × Bytes → Mem → Prop} {t1 : Id} {prec lead u : Nat} {left : Int} {P T : Bytes} (hu : E .assert)
    (hp : (prec : Int) + 1 < 2147483648) (hl : 0 < lead)
    (hleft : (prec : Int) + 2 ≤ left) (h2 : left < (lead : Int) + 3) (hT : lead ≤ T.length + 1) :
    wp env E (decFrac t1 r prec lead (P ++ u :: T) P.length left) Q m := by
  unfold decFrac
  refine wp_bind (wp_bset (by simp) ?_)
  rw [set_append_len]
  have b2 : (prec : Int) + 1 ≤ 2147483647 := by omega
  have b1 : -2147483648 ≤ (prec : Int) + 1 := by omega
  generalize hz : (prec : Int) + 1 = z at *
  refine wp_bind (wp_cint b1 b2 ?_)
  refine wp_if_neg (by omega) (wp_if_neg (by omega) ?_)
  rw [show P.length + 1 = (P ++ [46]).length by simp]
  refine wp_bind (bfill_spec _ (P ++ [46]) T (by omega) ?_)
  have e : (P ++ [46]) ++ (List.replicate (lead - 1) 48 ++ T.drop (lead - 1)) =
    (P ++ [46] ++ List.replicate (lead - 1) 48) ++ T.drop (lead - 1) := by simp
  have e2 : List.length (P ++ [46]) + (lead - 1) = List.length (P ++ [46] ++ List.replicate (lead - 1) 48) := by simp; omega
  rw [e, e2]
  refine wp_atOff ?_
  unfold mp_int_to_string
  exact wp_bind (cassert_false (by simp; omega) hu)

/-! ### The numbers that are written -/

theorem numeralN_pow (hr : 2 ≤ r) (n : Nat) : numeralN r (r ^ n) = 49 :: List.replicate n 48 := by
  induction n with
  | zero =>
    unfold numeralN
    rw [Nat.pow_zero, if_neg (by omega), Nat.digits_of_lt r 1 (by omega) (by omega)]; rfl
  | succ n ih =>
    rw [numeralN_step hr (by rw [Nat.pow_succ]; exact Nat.le_mul_of_pos_left _ (Nat.pow_pos (by omega))), Nat.pow_succ,
      Nat.mul_div_cancel _ (by omega), Nat.mul_mod_left, ih, List.replicate_succ']
    rfl

/-- What is written, in terms of the rational -/
theorem dec_facts {prec j round I' A' : Nat} (hr2 : 2 ≤ r) (hm : round ≤ 3) (hj : j ≤ prec)
    (h2 : j = prec ∨ p.den ≤ p.num.natAbs % p.den * r ^ j) (h3 : ∀ i, i < j → p.num.natAbs % p.den * r ^ i < p.den)
    (hI' : I' = p.num.natAbs / p.den + if Bump round p.den (p.num.natAbs % p.den * r ^ prec % p.den) ∧ prec = 0 then 1 else 0)
    (hA' : A' = p.num.natAbs % p.den * r ^ prec / p.den + if Bump round p.den (p.num.natAbs % p.den * r ^ prec % p.den) ∧ prec ≠ 0 then 1 else 0) :
    decSign r prec round p = (if p.num < 0 ∧ (I' ≠ 0 ∨ A' ≠ 0) then [45] else []) ∧ decInt prec round p = I' ∧
    (0 < prec → 0 < j ∧ (j = prec ↔ DecLast r prec p) ∧
      decWritten r prec round p = decHead r prec round p ++ 46 :: (List.replicate (j - 1) 48 ++ numeralN r A') ∧
      (¬ DecCarries r prec round p → (numeralN r A').length + j = prec + 1) ∧
      (DecCarries r prec round p → (numeralN r A').length + j = prec + 2 ∧ (numeralN r A').drop 1 = List.replicate (prec + 1 - j) 48)) := by
  have hD : 0 < p.den := p.den_pos
  have hI0 : ∃ I, I = p.num.natAbs / p.den := ⟨_, rfl⟩
  have hA0 : ∃ A, A = p.num.natAbs % p.den * r ^ prec / p.den := ⟨_, rfl⟩
  obtain ⟨I, hI⟩ := hI0
  obtain ⟨A, hA⟩ := hA0
  have hN0 : ∃ N, N = roundQ round ((p.num.natAbs : ℚ) / p.den * r ^ prec) := ⟨_, rfl⟩
  have hF0 : ∃ F, F = roundQ 0 ((p.num.natAbs : ℚ) / p.den * r ^ prec) := ⟨_, rfl⟩
  obtain ⟨N, hN⟩ := hN0
  obtain ⟨F, hF⟩ := hF0
  rw [← hI] at hI'
  rw [← hA] at hA'
  have hrp : 0 < r ^ prec := Nat.pow_pos (by omega)
  have key : F = I * r ^ prec + A ∧ N = F + (if Bump round p.den (p.num.natAbs % p.den * r ^ prec % p.den) then 1 else 0) := by
    have ePD : p.num.natAbs * r ^ prec = p.den * (I * r ^ prec) + p.num.natAbs % p.den * r ^ prec := by
      have := Nat.div_add_mod p.num.natAbs p.den
      rw [← hI] at this
      rw [← Nat.mul_assoc, ← Nat.add_mul, this]
    have e1 : p.num.natAbs * r ^ prec / p.den = I * r ^ prec + A := by rw [ePD, Nat.mul_add_div hD, ← hA]
    have e2 : p.num.natAbs * r ^ prec % p.den = p.num.natAbs % p.den * r ^ prec % p.den := by rw [ePD, Nat.mul_add_mod]
    have e3 : (p.num.natAbs : ℚ) / p.den * r ^ prec = ((p.num.natAbs * r ^ prec : Nat) : ℚ) / p.den := by push_cast; ring
    rw [e3, roundQ_eq hD hm, e1, e2] at hN
    rw [e3, roundQ_eq hD (by omega), e1, if_neg (by simp)] at hF
    refine ⟨hF, ?_⟩
    rw [hF]; exact hN
  obtain ⟨kF, kN⟩ := key
  have hAlt : A < r ^ prec := by
    rw [hA, Nat.div_lt_iff_lt_mul hD, Nat.mul_comm _ p.den]
    exact Nat.mul_lt_mul_of_pos_right (Nat.mod_lt _ hD) hrp
  have hFm : F % r ^ prec = A := by rw [kF, Nat.mul_comm I, Nat.mul_add_mod, Nat.mod_eq_of_lt hAlt]
  have hab : |p| * (r : ℚ) ^ prec = (p.num.natAbs : ℚ) / p.den * r ^ prec := by rw [ratAbs_eq]
  have hneg : p < 0 ↔ p.num < 0 := Rat.num_neg.symm
  have hsg : ((I' ≠ 0 ∨ A' ≠ 0) ↔ N ≠ 0) → decSign r prec round p = (if p.num < 0 ∧ (I' ≠ 0 ∨ A' ≠ 0) then [45] else []) := by
    intro e
    unfold decSign
    rw [hab, ← hN]
    exact if_congr (and_congr hneg e.symm) rfl rfl
  rcases Nat.eq_zero_or_pos prec with h0 | hp
  · have hA0 : A = 0 := by subst h0; simpa using hAlt
    have hA'0 : A' = 0 := by rw [hA', hA0, if_neg (by omega)]
    have hNI : N = I' := by
      rw [kN, kF, hI', hA0, h0]
      simp
    refine ⟨hsg (by rw [hNI, hA'0]; simp), ?_, fun h => by omega⟩
    unfold decInt
    rw [if_pos h0]
    have : |p| = |p| * (r : ℚ) ^ prec := by rw [h0]; simp
    rw [this, hab, ← hN, hNI]
  · have hI2 : I' = I := by rw [hI', if_neg (by omega)]; omega
    have hA2 : A' = A + (if Bump round p.den (p.num.natAbs % p.den * r ^ prec % p.den) then 1 else 0) := by
      rw [hA']; congr 1; apply if_congr _ rfl rfl
      simp; omega
    have hN2 : N = I * r ^ prec + A' := by rw [kN, kF, hA2]; omega
    have hs : (I' ≠ 0 ∨ A' ≠ 0) ↔ N ≠ 0 := by
      rw [hI2, hN2]
      have : I * r ^ prec = 0 ↔ I = 0 := by
        rw [Nat.mul_eq_zero]; constructor
        · rintro (h | h)
          · exact h
          · omega
        · exact .inl
      omega
    have hint : decInt prec round p = I' := by
      unfold decInt
      rw [if_neg (by omega), ratAbs_eq, Nat.floor_div_eq_div, hI2, hI]
    have hlast : j = prec ↔ A < r := by
      constructor
      · rintro rfl
        rw [hA, Nat.div_lt_iff_lt_mul hD]
        have := h3 (j - 1) (by omega)
        calc p.num.natAbs % p.den * r ^ j = r * (p.num.natAbs % p.den * r ^ (j - 1)) := by
              conv_lhs => rw [show j = j - 1 + 1 by omega, Nat.pow_succ]
              ring
          _ < r * p.den := Nat.mul_lt_mul_of_pos_left this (by omega)
      · intro hlt
        rcases h2 with h2 | h2
        · exact h2
        · by_contra hne
          have : r ≤ A := by
            rw [hA, Nat.le_div_iff_mul_le hD]
            calc r * p.den ≤ r ^ (prec - j) * (p.num.natAbs % p.den * r ^ j) :=
                  Nat.mul_le_mul (by
                    conv_lhs => rw [← Nat.pow_one r]
                    exact Nat.pow_le_pow_right (by omega) (by omega)) h2
              _ = p.num.natAbs % p.den * (r ^ j * r ^ (prec - j)) := by ring
              _ = p.num.natAbs % p.den * r ^ prec := by rw [← Nat.pow_add]; congr 2; omega
          omega
    have hdl : DecLast r prec p ↔ A < r := by unfold DecLast; rw [hab, ← hF, hFm]
    have hdc : DecCarries r prec round p ↔ Carries r prec F N := by unfold DecCarries; rw [hab, ← hF, ← hN]
    have hhead : decHead r prec round p = (if p.num < 0 ∧ (I' ≠ 0 ∨ A' ≠ 0) then [45] else []) ++ numeralN r I' := by
      unfold decHead; rw [hsg hs, hint]
    have hraw : decRaw r prec j (decide (p.num < 0 ∧ (I' ≠ 0 ∨ A' ≠ 0))) I' A' =
        decHead r prec round p ++ 46 :: (List.replicate (j - 1) 48 ++ numeralN r A') := by
      unfold decRaw
      rw [hhead, if_neg (show ¬ prec = 0 by omega)]
      simp
    have hdt : ∀ M, decText r prec (p < 0) M = decText r prec (p.num < 0) M := fun M => by
      unfold decText; simp only [Rat.num_neg]
    have hct : ∀ M, carryText r prec (p < 0) M = carryText r prec (p.num < 0) M := fun M => by
      unfold carryText; simp only [Rat.num_neg]
    refine ⟨hsg hs, hint, fun _ => ?_⟩
    by_cases hc : Carries r prec F N
    · obtain ⟨f1, f2, f3⟩ := dec_carry hr2 hD hm hj h2 h3 hI hA rfl hI' hA' hN hF hc
      have hj0 := f2 hp
      have hw : decWritten r prec round p = carryText r prec (p.num < 0) F := by
        unfold decWritten
        rw [hab, ← hF, ← hN, if_pos hc, hct]
      refine ⟨hj0, hlast.trans hdl.symm, by rw [hw, ← f1, hraw], fun h => absurd (hdc.2 hc) h, fun _ => ?_⟩
      obtain ⟨-, hNF, K, hK, eK⟩ := hc
      have hAK : A' = r ^ K := by
        rw [← eK, hFm, hA2]
        by_cases hb : Bump round p.den (p.num.natAbs % p.den * r ^ prec % p.den)
        · rw [if_pos hb]
        · rw [if_neg hb] at kN; omega
      have hsgT : (if p.num < 0 ∧ (I' ≠ 0 ∨ A' ≠ 0) then [45] else [] : Bytes) = if p.num < 0 then [45] else [] := by
        have : A' ≠ 0 := by rw [hAK]; exact (Nat.pow_pos (by omega)).ne'
        exact if_congr ⟨fun h => h.1, fun h => ⟨h, .inr this⟩⟩ rfl rfl
      have hFd : F / r ^ prec = I := by
        rw [kF, Nat.mul_comm I, Nat.mul_add_div hrp, Nat.div_eq_of_lt hAlt, Nat.add_zero]
      have hlen : (numeralN r A').length + j = prec + 2 := by
        have e := congrArg List.length f1
        rw [hraw, hhead, hsgT] at e
        unfold carryText at e
        rw [hFd, hI2] at e
        simp [fixed_len] at e
        omega
      refine ⟨hlen, ?_⟩
      rw [hAK, numeralN_pow hr2] at hlen ⊢
      simp at hlen ⊢
      omega
    · obtain ⟨f1, f2, f3⟩ := dec_text hr2 hD hm hj h2 h3 hI hA rfl hI' hA' hN hF hc
      have hw : decWritten r prec round p = decText r prec (p.num < 0) N := by
        unfold decWritten
        rw [hab, ← hF, ← hN, if_neg hc, hdt]
      refine ⟨f2 hp, hlast.trans hdl.symm, by rw [hw, ← f1, hraw], fun _ => ?_, fun h => absurd (hdc.1 h) hc⟩
      obtain ⟨-, -, -, f4⟩ := dec_frac (b := if Bump round p.den (p.num.natAbs % p.den * r ^ prec % p.den) then 1 else 0) hr2 hD hp hj h2 h3 hA (by
        by_cases hb : Bump round p.den (p.num.natAbs % p.den * r ^ prec % p.den)
        · right
          refine ⟨if_pos hb, fun k hk e => hc ⟨hp, ?_, k, hk, ?_⟩⟩
          · rw [kN, if_pos hb]; omega
          · rw [hFm, e]
        · left; exact if_neg hb)
      rw [← hA2] at f4
      have e := congrArg List.length f4
      have := f2 hp
      simp [fixed_len] at e
      omega

/-- What is known when the output begins -/
structure DecNow (r prec round j A : Nat) (p : ℚ) : Prop where
  sign : decSign r prec round p = if p.num < 0 ∧ (decInt prec round p ≠ 0 ∨ A ≠ 0) then [45] else []
  jle : j ≤ prec
  jpos : 0 < prec → 0 < j
  last : 0 < prec → (j = prec ↔ DecLast r prec p)
  text : 0 < prec → decWritten r prec round p = decHead r prec round p ++ 46 :: (List.replicate (j - 1) 48 ++ numeralN r A)
  len : 0 < prec → ¬ DecCarries r prec round p → (numeralN r A).length + j = prec + 1
  lenC : 0 < prec → DecCarries r prec round p → (numeralN r A).length + j = prec + 2
  drop : 0 < prec → DecCarries r prec round p → (numeralN r A).drop 1 = List.replicate (prec + 1 - j) 48

theorem dec_to_out {Q : Int × Bytes → Mem → Prop} {prec round : Nat} (hE : Ref env E) (hr2 : 2 ≤ r) (hr : r ≤ 36)
    (hm : round ≤ 3) (hp : prec < 2147483648) (h : R2 m σ) (ha : HasQ2 σ a p)
    (hout : ∀ j A t0 t1 m' σ', DecNow r prec round j A p →
      R2 m' σ' → σ' a.num = some p.num → σ' t0 = some (decInt prec round p : Int) → σ' t1 = some (A : Int) →
      wp env E (decOut a.num t0 t1 r prec prec j str limit) (fun o m2 => R2 m2 σ' ∧ ∀ m3, R2 m3 σ → Q o m3) m') :
    wp env E (mp_rat_to_decimal a r prec round str limit) Q m := by
  refine mp_rat_to_decimal_gen hE (by omega) hm hp h p.den_pos ha.1 ha.2 fun j I' A' t0 t1 m' σ' hj h2 h3 hI hA hR hn h0 h1 => ?_
  obtain ⟨f1, f2, f3⟩ := dec_facts hr2 hm hj h2 h3 hI hA
  rw [← f2] at h0 f1
  exact hout j A' t0 t1 m' σ' ⟨f1, hj, fun h => (f3 h).1, fun h => (f3 h).2.1, fun h => (f3 h).2.2.1, fun h => (f3 h).2.2.2.1,
    fun h hc => ((f3 h).2.2.2.2 hc).1, fun h hc => ((f3 h).2.2.2.2 hc).2⟩ hR hn h0 h1

theorem decHead_len (r prec round : Nat) (p : ℚ) :
    (decHead r prec round p).length = (decSign r prec round p).length + (numeralN r (decInt prec round p)).length := by
  unfold decHead; rw [List.length_append]

theorem dec_trunc_int {Q : Int × Bytes → Mem → Prop} {prec round : Nat} (hE : Ref env E) (hr2 : 2 ≤ r) (hr : r ≤ 36)
    (hm : round ≤ 3) (hp : prec < 2147483648) (h : R2 m σ) (ha : HasQ2 σ a p)
    (hlim : (decSign r prec round p).length + 2 ≤ limit) (hfit : limit ≤ (decHead r prec round p).length) (hbuf : limit + 1 ≤ str.length)
    (hQ : ∀ m', R2 m' σ → Q (MP_TRUNC, decSign r prec round p ++
      numeralTail r (decInt prec round p) (limit.toNat - (decSign r prec round p).length) ++ 0 :: str.drop (limit.toNat + 1)) m') :
    wp env E (mp_rat_to_decimal a r prec round str limit) Q m := by
  rw [decHead_len] at hfit
  exact dec_to_out hE hr2 hr hm hp h ha fun j A t0 t1 m' σ' hd hR hn h0 h1 =>
    decOut_int hE hr2 hr hR hn h0 h1 hd.sign hlim (by omega) hbuf fun m2 h2 => ⟨h2, hQ⟩

theorem dec_trunc_point {Q : Int × Bytes → Mem → Prop} {prec round : Nat} (hE : Ref env E) (hr2 : 2 ≤ r) (hr : r ≤ 36)
    (hm : round ≤ 3) (hp : prec < 2147483647) (h : R2 m σ) (ha : HasQ2 σ a p) (hp0 : 0 < prec)
    (hlim : (decHead r prec round p).length < limit) (hfit : limit < (decHead r prec round p).length + prec + 2)
    (hbuf : (decHead r prec round p).length + 1 ≤ str.length)
    (hQ : ∀ m', R2 m' σ → Q (MP_TRUNC, decHead r prec round p ++ 46 :: str.drop ((decHead r prec round p).length + 1)) m') :
    wp env E (mp_rat_to_decimal a r prec round str limit) Q m := by
  have e := decHead_len r prec round p
  refine dec_to_out hE hr2 hr hm (by omega) h ha fun j A t0 t1 m' σ' hd hR hn h0 h1 =>
    decOut_frac hE hr2 hr hR hn h0 h1 hd.sign hp0 (by omega) (by omega) fun m2 h2 => ?_
  rw [← e]
  exact decFrac_trunc (by omega) (by omega) ⟨h2, hQ⟩

theorem dec_trunc_last {Q : Int × Bytes → Mem → Prop} {prec round : Nat} (hE : Ref env E) (hr2 : 2 ≤ r) (hr : r ≤ 36)
    (hm : round ≤ 3) (hp : prec < 2147483647) (h : R2 m σ) (ha : HasQ2 σ a p) (hp0 : 0 < prec)
    (hlim : limit = (decWritten r prec round p).length + 1) (hl : DecCarries r prec round p ∨ ¬ DecLast r prec p)
    (hbuf : limit ≤ str.length)
    (hQ : ∀ m', R2 m' σ → Q (MP_TRUNC, decWritten r prec round p ++ 0 :: str.drop ((decWritten r prec round p).length + 1)) m') :
    wp env E (mp_rat_to_decimal a r prec round str limit) Q m := by
  have e := decHead_len r prec round p
  refine dec_to_out hE hr2 hr hm (by omega) h ha fun j A t0 t1 m' σ' hd hR hn h0 h1 => ?_
  have hw := congrArg List.length (hd.text hp0)
  have hj := hd.jpos hp0
  have hj2 := hd.jle
  have hA := numeralN_pos r A hr2
  simp only [List.length_append, List.length_cons, List.length_replicate] at hw
  have hcase : (numeralN r A).length + j = prec + 2 ∨ (numeralN r A).length + j = prec + 1 ∧ j < prec := by
    by_cases hc : DecCarries r prec round p
    · exact .inl (hd.lenC hp0 hc)
    · refine .inr ⟨hd.len hp0 hc, ?_⟩
      have := (hd.last hp0).not.2 (hl.resolve_left hc)
      omega
  refine decOut_frac hE hr2 hr hR hn h0 h1 hd.sign hp0 (by omega) (by omega) fun m2 h2 => ?_
  rw [← e]
  refine decFrac_last hE hr2 hr (by omega) h2 h1 hj (by omega) (by omega) (by omega) (by rw [List.length_drop]; omega)
    fun m3 h3 => ⟨h3, fun m4 h4 => ?_⟩
  have := hQ m4 h4
  rw [hd.text hp0] at this
  rw [show numeralTail r A ((limit - (decSign r prec round p).length - (numeralN r (decInt prec round p)).length).toNat - j - 1) = numeralN r A by
    unfold numeralTail
    rw [if_neg (by omega), numeral_nat, show (numeralN r A).length - _ = 0 by omega]; simp]
  rw [List.drop_drop, show (decHead r prec round p).length + 1 +
    ((limit - (decSign r prec round p).length - (numeralN r (decInt prec round p)).length).toNat - 1) =
    (decHead r prec round p ++ 46 :: (List.replicate (j - 1) 48 ++ numeralN r A)).length + 1 by
      simp only [List.length_append, List.length_cons, List.length_replicate]; omega]
  simpa [decHead] using this

theorem dec_trunc_carry {Q : Int × Bytes → Mem → Prop} {prec round : Nat} (hE : Ref env E) (hr2 : 2 ≤ r) (hr : r ≤ 36)
    (hm : round ≤ 3) (hp : prec < 2147483647) (h : R2 m σ) (ha : HasQ2 σ a p) (hp0 : 0 < prec)
    (hlim : limit = (decWritten r prec round p).length) (hc : DecCarries r prec round p) (hl : ¬ DecLast r prec p)
    (hbuf : limit ≤ str.length)
    (hQ : ∀ m', R2 m' σ → Q (MP_TRUNC, decHead r prec round p ++ 46 :: (List.replicate prec 48 ++ 0 :: str.drop limit.toNat)) m') :
    wp env E (mp_rat_to_decimal a r prec round str limit) Q m := by
  have e := decHead_len r prec round p
  refine dec_to_out hE hr2 hr hm (by omega) h ha fun j A t0 t1 m' σ' hd hR hn h0 h1 => ?_
  have hw := congrArg List.length (hd.text hp0)
  have hj := hd.jpos hp0
  have hj2 := hd.jle
  simp only [List.length_append, List.length_cons, List.length_replicate] at hw
  have hA := hd.lenC hp0 hc
  have hjl : j < prec := by have := (hd.last hp0).not.2 hl; omega
  refine decOut_frac hE hr2 hr hR hn h0 h1 hd.sign hp0 (by omega) (by omega) fun m2 h2 => ?_
  rw [← e]
  refine decFrac_last hE hr2 hr (by omega) h2 h1 hj (by omega) (by omega) (by omega) (by rw [List.length_drop]; omega)
    fun m3 h3 => ⟨h3, fun m4 h4 => ?_⟩
  have := hQ m4 h4
  rw [show numeralTail r A ((limit - (decSign r prec round p).length - (numeralN r (decInt prec round p)).length).toNat - j - 1) =
      List.replicate (prec + 1 - j) 48 by
    unfold numeralTail
    rw [if_neg (by omega), numeral_nat, show (numeralN r A).length - _ = 1 by omega, ← hd.drop hp0 hc]; rfl]
  rw [List.drop_drop, show (decHead r prec round p).length + 1 +
    ((limit - (decSign r prec round p).length - (numeralN r (decInt prec round p)).length).toNat - 1) = limit.toNat by omega]
  rw [show List.replicate prec 48 = List.replicate (j - 1) 48 ++ List.replicate (prec + 1 - j) (48 : Nat) by
    rw [List.replicate_append_replicate]; congr 1; omega] at this
  simpa [decHead] using this

theorem dec_assert_small {Q : Int × Bytes → Mem → Prop} {prec round : Nat} (hE : Ref env E) (hu : E .assert) (hr2 : 2 ≤ r) (hr : r ≤ 36)
    (hm : round ≤ 3) (hp : prec < 2147483648) (h : R2 m σ) (ha : HasQ2 σ a p)
    (hlim : limit < (decSign r prec round p).length + 2) (hbuf : (decSign r prec round p).length ≤ str.length) :
    wp env E (mp_rat_to_decimal a r prec round str limit) Q m :=
  dec_to_out hE hr2 hr hm hp h ha fun j A t0 t1 m' σ' hd hR hn h0 h1 =>
    decOut_small hu hR hn h0 h1 hd.sign hbuf hlim

theorem dec_assert_last {Q : Int × Bytes → Mem → Prop} {prec round : Nat} (hE : Ref env E) (hu : E .assert) (hr2 : 2 ≤ r) (hr : r ≤ 36)
    (hm : round ≤ 3) (hp : prec < 2147483647) (h : R2 m σ) (ha : HasQ2 σ a p) (hp0 : 0 < prec)
    (hlim : limit = (decHead r prec round p).length + prec + 2) (hl : DecLast r prec p)
    (hbuf : (decHead r prec round p).length + prec ≤ str.length) :
    wp env E (mp_rat_to_decimal a r prec round str limit) Q m := by
  have e := decHead_len r prec round p
  refine dec_to_out hE hr2 hr hm (by omega) h ha fun j A t0 t1 m' σ' hd hR hn h0 h1 =>
    decOut_frac hE hr2 hr hR hn h0 h1 hd.sign hp0 (by omega) (by omega) fun m2 h2 => ?_
  have hj := (hd.last hp0).2 hl
  rw [← e]
  exact decFrac_assert hu (by omega) (by omega) (by omega) (by omega) (by rw [List.length_drop]; omega)

/-! ### The array is too short -/

theorem bfill_ub {Q : Bytes → Mem → Prop} {ch : Nat} (hu : E .ub) : ∀ (n i : Nat) (s : Bytes), s.length < i + n → wp env E (bfill ch n s i) Q m ∨ s.length < i := by
  intro n
  induction n with
  | zero => intro i s hl; exact .inr (by omega)
  | succ n ih =>
    intro i s hl
    by_cases hi : s.length < i
    · exact .inr hi
    left
    unfold bfill
    by_cases hi2 : s.length = i
    · exact wp_bind (wp_bset_ub (by omega) hu)
    · refine wp_bind (wp_bset (by omega) ?_)
      exact (ih (i + 1) (s.set i ch) (by rw [List.length_set]; omega)).resolve_right (by rw [List.length_set]; omega)

theorem decFrac_ub {Q : Int × Bytes → Mem → Prop} {t1 : Id} {A prec lead u : Nat} {left : Int} {P T : Bytes} (hE : Ref env E) (hu : E .ub)
    (hr2 : 2 ≤ r) (hr : r ≤ 36) (hp : (prec : Int) + 1 < 2147483648) (h : R2 m σ) (ht : σ t1 = some (A : Int)) (hl : 0 < lead)
    (hleft : (prec : Int) + 2 ≤ left)
    (hT : T.length + 1 < lead ∨ (lead : Int) + 3 ≤ left ∧ (T.length : Int) + 2 ≤ left ∧ T.length + 1 ≤ lead + (numeralN r A).length) :
    wp env E (decFrac t1 r prec lead (P ++ u :: T) P.length left) Q m := by
  unfold decFrac
  refine wp_bind (wp_bset (by simp) ?_)
  rw [set_append_len]
  have b2 : (prec : Int) + 1 ≤ 2147483647 := by omega
  have b1 : -2147483648 ≤ (prec : Int) + 1 := by omega
  generalize hz : (prec : Int) + 1 = z at *
  refine wp_bind (wp_cint b1 b2 ?_)
  refine wp_if_neg (by omega) (wp_if_neg (by omega) ?_)
  by_cases hT1 : T.length + 1 < lead
  · exact wp_bind ((bfill_ub hu _ _ _ (by simp; omega)).resolve_right (by simp))
  rw [show P.length + 1 = (P ++ [46]).length by simp]
  refine wp_bind (bfill_spec _ (P ++ [46]) T (by omega) ?_)
  have e : (P ++ [46]) ++ (List.replicate (lead - 1) 48 ++ T.drop (lead - 1)) =
    (P ++ [46] ++ List.replicate (lead - 1) 48) ++ T.drop (lead - 1) := by simp
  have e2 : List.length (P ++ [46]) + (lead - 1) = List.length (P ++ [46] ++ List.replicate (lead - 1) 48) := by simp; omega
  rw [e, e2]
  refine wp_atOff (mp_int_to_string_fault hE hu hr2 hr (by omega) ?_ h ht)
  rw [numeral_nat, List.length_drop]
  omega

theorem dec_ub_int {Q : Int × Bytes → Mem → Prop} {prec round : Nat} (hE : Ref env E) (hu : E .ub) (hr2 : 2 ≤ r) (hr : r ≤ 36)
    (hm : round ≤ 3) (hp : prec < 2147483648) (h : R2 m σ) (ha : HasQ2 σ a p)
    (hlim : str.length < (decSign r prec round p).length ∨ (decSign r prec round p).length + 2 ≤ limit ∧ (str.length : Int) ≤ limit ∧
      str.length ≤ (decHead r prec round p).length) :
    wp env E (mp_rat_to_decimal a r prec round str limit) Q m := by
  refine dec_to_out hE hr2 hr hm hp h ha fun j A t0 t1 m' σ' hd hR hn h0 h1 => ?_
  rw [decHead_len] at hlim
  by_cases hs : str.length < (decSign r prec round p).length
  · have e := hd.sign
    by_cases hc : p.num < 0 ∧ (decInt prec round p ≠ 0 ∨ A ≠ 0)
    · rw [if_pos hc] at e
      rw [e] at hs
      exact decOut_sign_ub hu hR hn h0 h1 hc (List.length_eq_zero_iff.1 (by simpa using hs))
    · rw [if_neg hc] at e
      rw [e] at hs
      simp at hs
  · refine decOut_head hR hn h0 h1 hd.sign (by omega) (mp_int_to_string_fault hE hu hr2 hr (by omega) ?_ hR h0)
    rw [numeral_nat, List.length_drop]
    omega

theorem dec_ub_frac {Q : Int × Bytes → Mem → Prop} {prec round : Nat} (hE : Ref env E) (hu : E .ub) (hr2 : 2 ≤ r) (hr : r ≤ 36)
    (hm : round ≤ 3) (hp : prec < 2147483647) (h : R2 m σ) (ha : HasQ2 σ a p) (hp0 : 0 < prec)
    (hlim : (decHead r prec round p).length + prec + 2 ≤ limit) (hs : (decHead r prec round p).length < str.length)
    (hb : limit = (decHead r prec round p).length + prec + 2 → DecLast r prec p → str.length < (decHead r prec round p).length + prec)
    (hbuf : str.length ≤ (decWritten r prec round p).length) (hbuf2 : (str.length : Int) < limit) :
    wp env E (mp_rat_to_decimal a r prec round str limit) Q m := by
  have e := decHead_len r prec round p
  refine dec_to_out hE hr2 hr hm (by omega) h ha fun j A t0 t1 m' σ' hd hR hn h0 h1 => ?_
  have hw := congrArg List.length (hd.text hp0)
  have hj := hd.jpos hp0
  have hj2 := hd.jle
  simp only [List.length_append, List.length_cons, List.length_replicate] at hw
  refine decOut_frac hE hr2 hr hR hn h0 h1 hd.sign hp0 (by omega) (by omega) fun m2 h2 => ?_
  rw [← e]
  refine decFrac_ub hE hu hr2 hr (by omega) h2 h1 hj (by omega) ?_
  rw [List.length_drop]
  by_cases hjp : j = prec
  · by_cases hl : limit = (decHead r prec round p).length + prec + 2
    · have := hb hl ((hd.last hp0).1 hjp)
      left; omega
    · right; omega
  · right; omega

/-! ### The radix is out of range -/

theorem dec_assert_radix {Q : Int × Bytes → Mem → Prop} {prec round : Nat} (hE : Ref env E) (hu : E .assert) (hr : r < 2 ^ 32)
    (hb : r < 2 ∨ 36 < r) (hm : round ≤ 3) (hp : prec < 2147483648) (h : R2 m σ) (ha : HasQ2 σ a p) (hs : str ≠ []) :
    wp env E (mp_rat_to_decimal a r prec round str limit) Q m := by
  have hl := List.length_pos_iff.2 hs
  refine mp_rat_to_decimal_gen hE hr hm hp h p.den_pos ha.1 ha.2 fun j I' A' t0 t1 m' σ' hj h2 h3 hI hA hR hn h0 h1 => ?_
  refine decOut_head hR hn h0 h1 rfl (by split <;> simp <;> omega) ?_
  unfold mp_int_to_string
  generalize limit - _ = l
  by_cases h2 : 2 ≤ l
  · exact wp_bind (wp_cassert (decide_eq_true (by omega)) (wp_bind (cassert_false (decide_eq_false (by omega)) hu)))
  · exact wp_bind (cassert_false (decide_eq_false (by omega)) hu)

theorem sign_shown {prec round I' A' : Nat} (hm : round ≤ 3)
    (hI' : I' = p.num.natAbs / p.den + if Bump round p.den (p.num.natAbs % p.den * r ^ prec % p.den) ∧ prec = 0 then 1 else 0)
    (hA' : A' = p.num.natAbs % p.den * r ^ prec / p.den + if Bump round p.den (p.num.natAbs % p.den * r ^ prec % p.den) ∧ prec ≠ 0 then 1 else 0) :
    (p.num < 0 ∧ (I' ≠ 0 ∨ A' ≠ 0)) ↔ SignShown r prec round p := by
  have hD : 0 < p.den := p.den_pos
  unfold SignShown
  refine and_congr Rat.num_neg (or_congr (not_congr ?_) ?_)
  · rw [ratAbs_eq, hI']
    by_cases h0 : prec = 0
    · subst h0
      rw [if_pos rfl, roundQ_eq hD hm, Nat.pow_zero, Nat.mul_one, Nat.mod_mod]
      change _ ↔ _ + (if Bump round p.den (p.num.natAbs % p.den) then 1 else 0) = 0
      simp only [and_true]
    · rw [if_neg h0, if_neg (fun h => h0 h.2), Nat.floor_div_eq_div, Nat.add_zero]
  · have e : Int.fract |p| * (r : ℚ) ^ prec = ((p.num.natAbs % p.den * r ^ prec : Nat) : ℚ) / p.den := by
      rw [ratAbs_eq, Int.fract_div_natCast_eq_div_natCast_mod]
      push_cast
      ring
    rw [e, roundQ_eq hD hm, hA']
    by_cases h0 : prec = 0
    · subst h0
      have : p.num.natAbs % p.den / p.den = 0 := Nat.div_eq_of_lt (Nat.mod_lt _ hD)
      simp [this]
    · change _ ↔ _ ∧ _ + (if Bump round p.den (p.num.natAbs % p.den * r ^ prec % p.den) then 1 else 0) ≠ 0
      simp only [ne_eq, h0, not_false_eq_true, and_true, Nat.pos_of_ne_zero h0, true_and]

theorem dec_empty_radix {Q : Int × Bytes → Mem → Prop} {prec round : Nat} (hE : Ref env E) (hr : r < 2 ^ 32)
    (hb : r < 2 ∨ 36 < r) (hm : round ≤ 3) (hp : prec < 2147483648) (h : R2 m σ) (ha : HasQ2 σ a p)
    (hu : SignShown r prec round p ∧ E .ub ∨ ¬ SignShown r prec round p ∧ E .assert) :
    wp env E (mp_rat_to_decimal a r prec round [] limit) Q m := by
  refine mp_rat_to_decimal_gen hE hr hm hp h p.den_pos ha.1 ha.2 fun j I' A' t0 t1 m' σ' hj h2 h3 hI hA hR hn h0 h1 => ?_
  have hs := sign_shown hm hI hA
  rcases hu with ⟨h4, hu⟩ | ⟨h4, hu⟩
  · exact decOut_sign_ub hu hR hn h0 h1 (hs.2 h4) rfl
  · have h5 := fun h => h4 (hs.1 h)
    refine decOut_head hR hn h0 h1 rfl (by rw [if_neg h5]) ?_
    unfold mp_int_to_string
    generalize limit - _ = l
    by_cases h2 : 2 ≤ l
    · exact wp_bind (wp_cassert (decide_eq_true (by omega)) (wp_bind (cassert_false (decide_eq_false (by omega)) hu)))
    · exact wp_bind (cassert_false (decide_eq_false (by omega)) hu)

/-! ### Precisions of 2^31 - 1 or more -/

theorem bigSign_eq {prec round I' A' : Nat} (hm : round ≤ 3) (hp : 0 < prec) (hI' : I' = p.num.natAbs / p.den)
    (hA' : A' = p.num.natAbs % p.den * r ^ (if prec < 2147483648 then prec else 0) / p.den +
      if Bump round p.den (p.num.natAbs % p.den * r ^ (if prec < 2147483648 then prec else 0) % p.den) ∧ prec ≠ 0 then 1 else 0) :
    bigSign r prec round p = (if p.num < 0 ∧ (I' ≠ 0 ∨ A' ≠ 0) then [45] else []) ∧ I' = ⌊|p|⌋₊ := by
  refine ⟨?_, by rw [ratAbs_eq, Nat.floor_div_eq_div, hI']⟩
  have e : r ^ (if prec < 2147483648 then prec else 0) = (if prec < 2 ^ 31 then r else 1) ^ prec := by
    by_cases h : prec < 2147483648
    · rw [if_pos h, if_pos (by omega)]
    · rw [if_neg h, if_neg (by omega)]; simp
  rw [e] at hA'
  have hs := sign_shown (r := if prec < 2 ^ 31 then r else 1) (prec := prec) (I' := I') hm (by rw [if_neg (fun h => by omega)]; exact hI') hA'
  unfold bigSign
  classical
  exact if_congr hs.symm rfl rfl

theorem dec_big {Q : Int × Bytes → Mem → Prop} {prec round : Nat} (hE : Ref env E) (hr : r < 2 ^ 32)
    (hm : round ≤ 3) (h31 : 2147483647 ≤ prec) (hp : prec < 4294967296) (h : R2 m σ) (ha : HasQ2 σ a p)
    (hout : ∀ (j A' : Nat) t0 t1 m' σ', (2147483648 ≤ prec → j = 0) →
      bigSign r prec round p = (if p.num < 0 ∧ (⌊|p|⌋₊ ≠ 0 ∨ A' ≠ 0) then [45] else []) →
      R2 m' σ' → σ' a.num = some p.num → σ' t0 = some (⌊|p|⌋₊ : Int) → σ' t1 = some (A' : Int) →
      wp env E (decOut a.num t0 t1 r prec (toInt32 prec) j str limit) (fun o m2 => R2 m2 σ' ∧ ∀ m3, R2 m3 σ → Q o m3) m') :
    wp env E (mp_rat_to_decimal a r prec round str limit) Q m := by
  obtain ⟨hnum, hden⟩ := ha
  have hD : 0 < p.den := p.den_pos
  unfold mp_rat_to_decimal
  refine wp_bind (wp_mono (withLocalL_spec (Q := fun o m' => wp env E (pure o.1) Q m') (v := p.num) h (Tmps.nil σ (fun _ => .tmp 0) fun _ => 0)
    (fun t m1 P h1 hd' hn ho hP => mp_int_init_copy_spec hE h1 hd' hn hnum hP) fun t m1 g h1 => ?_) fun _ _ h => TDone.elim h.2)
  refine withLocalL_spec (v := 0) h1 g (fun t m1 P h1 hd' hn ho hP => mp_int_init_spec h1 hd' hn hP) fun t' m2 g2 h2 => ?_
  refine withLocalL_spec (v := 0) h2 g2 (fun t m1 P h1 hd' hn ho hP => mp_int_init_spec h1 hd' hn hP) fun t'' m3 g3 h3 => ?_
  have g3 : Tmps σ 3 (nset (nset (nset (fun _ => .tmp 0) 0 t) 1 t') 2 t'') (L [p.num, 0, 0]) _ :=
    g3.congr (fun _ _ => rfl) fun i hi => by
      rcases show i = 0 ∨ i = 1 ∨ i = 2 by omega with rfl | rfl | rfl <;> rfl
  have e0 : nset (nset (nset (fun _ => Id.tmp 0) 0 t) 1 t') 2 t'' 0 = t := rfl
  have e1 : nset (nset (nset (fun _ => Id.tmp 0) 0 t) 1 t') 2 t'' 1 = t' := rfl
  have e2 : nset (nset (nset (fun _ => Id.tmp 0) 0 t) 1 t') 2 t'' 2 = t'' := rfl
  generalize hT : nset (nset (nset (fun _ => Id.tmp 0) 0 t) 1 t') 2 t'' = T at *
  subst e0 e1 e2
  dsimp only
  rw [decDigits_toInt32 hp]
  refine wp_bind (decDigits_spec hE hr hD (by split <;> omega) hden g3 h3 fun m4 σ4 j hj j2 j3 g4 h4 => ?_)
  refine wp_if_neg (by simp) (wp_bind (decRound_spec hE hden hm g4 h4 fun m5 σ5 w' g5 h5 => ?_))
  refine wp_if_neg (by simp) (wp_bind ?_)
  have hb := bigSign_eq (r := r) (p := p) (prec := prec) (round := round) hm (by omega) rfl rfl
  have hI := g5.get 0
  have hI2 : σ5 (T 0) = some (⌊|p|⌋₊ : Int) := by
    rw [← hb.2]
    have e : (p.num.natAbs / p.den + if Bump round p.den (p.num.natAbs % p.den * r ^ (if prec < 2147483648 then prec else 0) % p.den) ∧ prec = 0 then 1 else 0) =
      p.num.natAbs / p.den := by rw [if_neg (fun h => by omega), Nat.add_zero]
    rw [← e]
    exact hI
  have hsg := hb.1
  rw [hb.2] at hsg
  refine wp_mono (hout j _ _ _ m5 σ5 (fun h => by rw [if_neg (by omega)] at hj; omega) hsg h5 (g5.out hnum) hI2 (g5.get 1)) fun o m6 h6 => wp_pure ⟨rfl, ?_⟩
  exact .mk g5 h6.1 fun m' h => wp_pure (h6.2 m' h)

theorem dec_big_trunc {Q : Int × Bytes → Mem → Prop} {prec round : Nat} (hE : Ref env E) (hr2 : 2 ≤ r) (hr : r ≤ 36)
    (hm : round ≤ 3) (h31 : 2147483647 ≤ prec) (hp : prec < 4294967296) (h : R2 m σ) (ha : HasQ2 σ a p)
    (hlim : (bigSign r prec round p).length + 2 ≤ limit) (hfit : limit ≤ (bigSign r prec round p).length + (numeralN r ⌊|p|⌋₊).length)
    (hbuf : limit + 1 ≤ str.length)
    (hQ : ∀ m', R2 m' σ → Q (MP_TRUNC, bigSign r prec round p ++ numeralTail r ⌊|p|⌋₊ (limit.toNat - (bigSign r prec round p).length) ++
      0 :: str.drop (limit.toNat + 1)) m') :
    wp env E (mp_rat_to_decimal a r prec round str limit) Q m :=
  dec_big hE (by omega) hm h31 hp h ha fun _ _ _ _ _ _ _ hs hR hn h0 h1 =>
    decOut_int hE hr2 hr hR hn h0 h1 hs hlim hfit hbuf fun _ h' => ⟨h', fun m3 h3 => hQ m3 h3⟩

theorem dec_big_sign {Q : Int × Bytes → Mem → Prop} {prec round : Nat} (hE : Ref env E) (hu : E .ub) (hr : r < 2 ^ 32)
    (hm : round ≤ 3) (h31 : 2147483647 ≤ prec) (hp : prec < 4294967296) (h : R2 m σ) (ha : HasQ2 σ a p)
    (hl : str.length < (bigSign r prec round p).length) :
    wp env E (mp_rat_to_decimal a r prec round str limit) Q m :=
  dec_big hE hr hm h31 hp h ha fun j A' t0 t1 m' σ' _ hs hR hn h0 h1 => by
    rw [hs] at hl
    by_cases hc : p.num < 0 ∧ (⌊|p|⌋₊ ≠ 0 ∨ A' ≠ 0)
    · rw [if_pos hc] at hl
      exact decOut_sign_ub hu hR hn h0 h1 hc (List.length_eq_zero_iff.1 (by simpa using hl))
    · rw [if_neg hc] at hl
      simp at hl

theorem dec_big_assert {Q : Int × Bytes → Mem → Prop} {prec round : Nat} (hE : Ref env E) (hu : E .assert) (hr : r < 2 ^ 32)
    (hm : round ≤ 3) (h31 : 2147483647 ≤ prec) (hp : prec < 4294967296) (h : R2 m σ) (ha : HasQ2 σ a p)
    (hl : (bigSign r prec round p).length ≤ str.length) (hb : (r < 2 ∨ 36 < r) ∨ limit < (bigSign r prec round p).length + 2) :
    wp env E (mp_rat_to_decimal a r prec round str limit) Q m :=
  dec_big hE hr hm h31 hp h ha fun j A' t0 t1 m' σ' _ hs hR hn h0 h1 => by
    refine decOut_head hR hn h0 h1 hs hl ?_
    unfold mp_int_to_string
    generalize hL : limit - _ = l
    by_cases h2 : 2 ≤ l
    · exact wp_bind (wp_cassert (decide_eq_true (by omega)) (wp_bind (cassert_false (decide_eq_false (by omega)) hu)))
    · exact wp_bind (cassert_false (decide_eq_false (by omega)) hu)

theorem wp_cint_over {z : Int} {Q : Int → Mem → Prop} (hu : E .ub) (hz : 2147483647 < z) : wp env E (cint z) Q m := by
  unfold cint
  exact wp_if_neg (by omega) (wp_fault (f := .ub) rfl hu)

theorem decFrac_big {Q : Int × Bytes → Mem → Prop} {t1 : Id} {lead u prec : Nat} {left : Int} {P T : Bytes} (hu : E .ub)
    (h31 : 2147483647 ≤ prec) (hp : prec < 4294967296) (hj : 2147483648 ≤ prec → lead = 0) (hl : 1 ≤ left) :
    wp env E (decFrac t1 r (toInt32 prec) lead (P ++ u :: T) P.length left) Q m := by
  unfold decFrac
  refine wp_bind (wp_bset (by simp) ?_)
  have e : u32 prec = prec := Nat.mod_eq_of_lt (by omega)
  by_cases h : prec < 2147483648
  · have hz : toInt32 prec = (prec : Int) := by unfold toInt32; rw [e, if_pos h]
    rw [hz]
    have b : 2147483647 < (prec : Int) + 1 := by omega
    generalize (prec : Int) + 1 = z at *
    exact wp_bind (wp_cint_over hu b)
  · have hz : toInt32 prec = (prec : Int) - 4294967296 := by unfold toInt32; rw [e, if_neg h]
    rw [hz]
    have b1 : -2147483648 ≤ (prec : Int) - 4294967296 + 1 := by omega
    have b2 : (prec : Int) - 4294967296 + 1 ≤ 0 := by omega
    generalize (prec : Int) - 4294967296 + 1 = z at *
    refine wp_bind (wp_cint b1 (by omega) ?_)
    exact wp_if_neg (by omega) (wp_if_pos (hj (by omega)) (wp_fault (f := .ub) rfl hu))

theorem dec_big_ub {Q : Int × Bytes → Mem → Prop} {prec round : Nat} (hE : Ref env E) (hu : E .ub) (hr2 : 2 ≤ r) (hr : r ≤ 36)
    (hm : round ≤ 3) (h31 : 2147483647 ≤ prec) (hp : prec < 4294967296) (h : R2 m σ) (ha : HasQ2 σ a p)
    (hlim : (bigSign r prec round p).length + 2 ≤ limit)
    (hb : (bigSign r prec round p).length + (numeralN r ⌊|p|⌋₊).length < limit ∨ (str.length : Int) ≤ limit) :
    wp env E (mp_rat_to_decimal a r prec round str limit) Q m := by
  by_cases hs : str.length < (bigSign r prec round p).length
  · exact dec_big_sign hE hu (by omega) hm h31 hp h ha hs
  refine dec_big hE (by omega) hm h31 hp h ha fun j A' t0 t1 m' σ' hj hs' hR hn h0 h1 => ?_
  by_cases hbuf : (str.length : Int) ≤ min limit ((bigSign r prec round p).length + (numeralN r ⌊|p|⌋₊).length : Nat)
  · refine decOut_head hR hn h0 h1 hs' (by omega) (mp_int_to_string_fault hE hu hr2 hr (by omega) ?_ hR h0)
    rw [numeral_nat, List.length_drop]
    omega
  · exact decOut_frac hE hr2 hr hR hn h0 h1 hs' (by omega) (by omega) (by omega) fun m2 h2 => decFrac_big hu h31 hp hj (by omega)

/-! ### The length of the text -/

theorem dec_length {prec round : Nat} (hr2 : 2 ≤ r) (hm : round ≤ 3) (p : ℚ) :
    (prec = 0 → (decWritten r prec round p).length = (decHead r prec round p).length ∧ ¬ DecCarries r prec round p) ∧
    (0 < prec → ¬ DecCarries r prec round p → (decWritten r prec round p).length = (decHead r prec round p).length + prec + 1) ∧
    (0 < prec → DecCarries r prec round p → (decWritten r prec round p).length = (decHead r prec round p).length + prec + 2) := by
  refine ⟨fun h0 => ?_, ?_⟩
  · have hc : ¬ DecCarries r prec round p := fun hc => by have := hc.1; omega
    refine ⟨?_, hc⟩
    subst h0
    have hc' : ¬ Carries r 0 (roundQ 0 (|p| * r ^ 0)) (roundQ round (|p| * r ^ 0)) := hc
    unfold decWritten
    rw [if_neg hc']
    unfold decText decHead decSign decInt
    simp
  · obtain ⟨j, hj, h2, h3⟩ : ∃ j, j ≤ prec ∧ (j = prec ∨ p.den ≤ p.num.natAbs % p.den * r ^ j) ∧
        ∀ i, i < j → p.num.natAbs % p.den * r ^ i < p.den := by
      induction prec with
      | zero => exact ⟨0, Nat.le_refl _, .inl rfl, by simp⟩
      | succ n ih =>
        obtain ⟨j, hj, h2, h3⟩ := ih
        by_cases hd : p.den ≤ p.num.natAbs % p.den * r ^ j
        · exact ⟨j, by omega, .inr hd, h3⟩
        · refine ⟨j + 1, by omega, .inl (by have := h2.resolve_right hd; omega), fun i hi => ?_⟩
          rcases Nat.lt_succ_iff_lt_or_eq.1 hi with h | h
          · exact h3 i h
          · rw [h]; omega
    have f := dec_facts hr2 hm hj h2 h3 rfl rfl
    refine ⟨fun hp hc => ?_, fun hp hc => ?_⟩
    · obtain ⟨f1, -, f2, f3, -⟩ := f.2.2 hp
      have := f3 hc
      rw [f2]; simp only [List.length_append, List.length_cons, List.length_replicate]; omega
    · obtain ⟨f1, -, f2, -, f3⟩ := f.2.2 hp
      have := (f3 hc).1
      rw [f2]; simp only [List.length_append, List.length_cons, List.length_replicate]; omega

end Imath
