import Verif.Props.Rat
import Verif.Proof.RatDec

/-!
# Property C41: rationals as strings

`ratText` is defined in `Verif/SpecRat.lean`, numerals and characters in `Verif/SpecConv.lean`.
-/

namespace Imath

variable {env : Env} {m : Mem} {ρ : Nat → Option Int} {a b c : RVar} {r : Nat} {p q : ℚ} {str : Bytes} {limit : Int}

theorem demoQ_text : ratText 10 (-22 / 7) = [45, 50, 50, 47, 55] := by
  have e1 : (-22 / 7 : ℚ).num = -22 := by decide +kernel
  have e2 : (-22 / 7 : ℚ).den = 7 := by decide +kernel
  have e3 : (-22 / 7 : ℚ) ≠ 0 := by norm_num
  rw [ratText, if_neg e3, e1, e2]
  simp [numeral, numeralN, digitChar]

/-- A buffer that is long enough receives the text and a NUL; nothing behind it is touched. -/
theorem C41_to_string (h : State m ρ) (ha : HasQ ρ a p) (hr : 2 ≤ r ∧ r ≤ 36)
    (hfit : (ratText r p).length + 1 ≤ limit) (hbuf : (ratText r p).length + 1 ≤ str.length) :
    Runs env (mp_rat_to_string a.p r str limit) m fun res m' =>
      res = (MP_OK, ratText r p ++ 0 :: str.drop ((ratText r p).length + 1)) ∧ State m' ρ :=
  .of_wp (mp_rat_to_string_spec (ref_refused env) hr.1 hr.2 h.r2 ha.l hfit hbuf fun _ h' => ⟨rfl, h'.state⟩)

example : ∃ m, State m demoQ ∧ Runs env (mp_rat_to_string qa.p 10 [1, 2, 3, 4, 5, 6, 7, 8] 6) m fun res m' =>
    res = (MP_OK, [45, 50, 50, 47, 55, 0, 7, 8]) ∧ State m' demoQ := by
  obtain ⟨m, h⟩ := demoQ_state
  refine ⟨m, h, ?_⟩
  have := C41_to_string (env := env) (str := [1, 2, 3, 4, 5, 6, 7, 8]) (limit := 6) h demoQ_a (r := 10) (by omega)
    (by rw [demoQ_text]; decide) (by rw [demoQ_text]; decide)
  rw [demoQ_text] at this
  exact this

/-- A buffer that is too short: `MP_TRUNC`.  Missing from the full property: a limit that leaves no
character or one character for the denominator; then an assertion fails, see `C41_to_string_assert`. -/
theorem C41_to_string_trunc_partial (h : State m ρ) (ha : HasQ ρ a p) (hr : 2 ≤ r ∧ r ≤ 36) (hlim : 2 ≤ limit)
    (hfit : limit < (ratText r p).length + 1) (hbuf : limit + 1 ≤ str.length)
    (hmid : limit ≤ (numeral r p.num).length ∨ (numeral r p.num).length + 3 ≤ limit) :
    Runs env (mp_rat_to_string a.p r str limit) m fun res m' => res.1 = MP_TRUNC ∧ res.2.length = str.length ∧ State m' ρ :=
  .of_wp (mp_rat_to_string_trunc (ref_refused env) hr.1 hr.2 h.r2 ha.l hlim hfit hmid hbuf fun _ _ h' hl => ⟨rfl, hl, h'.state⟩)

example : ∃ m, State m demoQ ∧ Runs env (mp_rat_to_string qa.p 10 [1, 2, 3, 4] 3) m fun res m' =>
    res.1 = MP_TRUNC ∧ res.2.length = 4 ∧ State m' demoQ := by
  obtain ⟨m, h⟩ := demoQ_state
  refine ⟨m, h, ?_⟩
  have e1 : (-22 / 7 : ℚ).num = -22 := by decide +kernel
  refine C41_to_string_trunc_partial h demoQ_a (by omega) (by omega) (by rw [demoQ_text]; decide) (by decide) (.inl ?_)
  rw [e1]; simp [numeral, numeralN, digitChar]

/-- `-22/7` with room for four or five characters (imrat.c:483-492: the check of the limit comes before
the slash is counted, and `mp_int_to_string` asserts that there is room for two). -/
theorem C41_to_string_assert :
    faultOf (mp_rat_to_string ⟨.var 0, .var 1⟩ 10 (List.replicate 10 0) 4) [-22, 7] = some .assert ∧
    faultOf (mp_rat_to_string ⟨.var 0, .var 1⟩ 10 (List.replicate 10 0) 5) [-22, 7] = some .assert := by decide +kernel

/-- A fraction is read and reduced.  White space is skipped before the numerator, before the slash and
before the denominator, which may have a sign.  Missing from the full property: strings of more than
800000000 characters (as for integers, `C31_read_cstring_partial`). -/
theorem C41_read_string_partial {w sg ds w2 w3 sg3 ds3 rest : Bytes} {vs vs3 : List Nat}
    (h : State m ρ) (hc : ReadyQ ρ c) (hr : 2 ≤ r ∧ r ≤ 36)
    (hw : ∀ x ∈ w, IsSpace x) (hsg : sg = [] ∨ sg = [43] ∨ sg = [45]) (hds : List.Forall₂ (IsDigit r) ds vs) (hne : ds ≠ [])
    (hw2 : ∀ x ∈ w2, IsSpace x)
    (hw3 : ∀ x ∈ w3, IsSpace x) (hsg3 : sg3 = [] ∨ sg3 = [43] ∨ sg3 = [45]) (hds3 : List.Forall₂ (IsDigit r) ds3 vs3)
    (hnul : 0 ∈ (w ++ sg ++ ds ++ (w2 ++ 47 :: (w3 ++ sg3 ++ ds3 ++ 0 :: rest))).take 800000001)
    (hnz : Nat.ofDigits r vs3.reverse ≠ 0) :
    Runs env (mp_rat_read_cstring c.p r (w ++ sg ++ ds ++ (w2 ++ 47 :: (w3 ++ sg3 ++ ds3 ++ 0 :: rest)))) m fun res m' =>
      res = (MP_OK, some (w ++ sg ++ ds ++ w2 ++ [47] ++ w3 ++ sg3 ++ ds3).length) ∧
      State m' (putQ ρ c (((if sg = [45] then -1 else 1) * (Nat.ofDigits r vs.reverse : Nat)) /
        ((if sg3 = [45] then -1 else 1) * (Nat.ofDigits r vs3.reverse : Nat)))) := by
  refine .of_wp (mp_rat_read_cstring_spec (ref_refused env) hr.1 hr.2 hw hsg hds hne hw2 hw3 hsg3 hds3 hnul h.r2 hc.l hnz
    fun m' h' => ⟨rfl, ?_⟩)
  rw [Rat.divInt_eq_div] at h'
  generalize Nat.ofDigits r vs.reverse = N at *
  generalize Nat.ofDigits r vs3.reverse = D at *
  have := h'.stateQ
  push_cast at this ⊢
  exact this

/-- " +10 / -4" -/
example : ∃ m, State m demoQ ∧ Runs env (mp_rat_read_cstring qa.p 10 [32, 43, 49, 48, 32, 47, 32, 45, 52, 0]) m fun res m' =>
    res = (MP_OK, some 9) ∧ State m' (putQ demoQ qa ((10 : ℚ) / (-4))) := by
  obtain ⟨m, h⟩ := demoQ_state
  refine ⟨m, h, ?_⟩
  have := C41_read_string_partial (env := env) (w := [32]) (sg := [43]) (ds := [49, 48]) (vs := [1, 0]) (w2 := [32]) (w3 := [32])
    (sg3 := [45]) (ds3 := [52]) (vs3 := [4]) (rest := []) (r := 10) h (demoQ_a.ready (by decide)) (by omega) (by simp [IsSpace]) (by simp)
    (by simp [IsDigit, digitChar]) (by simp) (by simp [IsSpace]) (by simp [IsSpace]) (by simp) (by simp [IsDigit, digitChar])
    (by rw [List.take_of_length_le (by simp)]; simp) (by simp)
  norm_num [Nat.ofDigits] at this
  norm_num
  exact this

/-- A number without denominator. -/
theorem C41_read_string_int_partial {w sg ds w2 rest : Bytes} {vs : List Nat} {ch : Nat}
    (h : State m ρ) (hc : ReadyQ ρ c) (hr : 2 ≤ r ∧ r ≤ 36)
    (hw : ∀ x ∈ w, IsSpace x) (hsg : sg = [] ∨ sg = [43] ∨ sg = [45]) (hds : List.Forall₂ (IsDigit r) ds vs) (hne : ds ≠ [])
    (hw2 : ∀ x ∈ w2, IsSpace x) (hch : ¬ IsSpace ch) (hd : w2 = [] → ∀ d, ¬ IsDigit r ch d) (h47 : ch ≠ 47)
    (hnul : 0 ∈ (w ++ sg ++ ds ++ (w2 ++ ch :: rest)).take 800000001) :
    Runs env (mp_rat_read_cstring c.p r (w ++ sg ++ ds ++ (w2 ++ ch :: rest))) m fun res m' =>
      res = (if w2 = [] ∧ ch = 0 then MP_OK else MP_TRUNC, some (w ++ sg ++ ds).length) ∧
      State m' (putQ ρ c ((if sg = [45] then -1 else 1) * (Nat.ofDigits r vs.reverse : Nat))) := by
  refine .of_wp (mp_rat_read_cstring_int (ref_refused env) hr.1 hr.2 hw hsg hds hne hw2 hch hd h47 hnul h.r2 hc.l fun m' h' => ⟨rfl, ?_⟩)
  generalize Nat.ofDigits r vs.reverse = N at *
  have := h'.stateQ
  push_cast at this ⊢
  exact this

/-- "-12x" -/
example : ∃ m, State m demoQ ∧ Runs env (mp_rat_read_cstring qa.p 10 [45, 49, 50, 120, 0]) m fun res m' =>
    res = (MP_TRUNC, some 3) ∧ State m' (putQ demoQ qa (-12)) := by
  obtain ⟨m, h⟩ := demoQ_state
  refine ⟨m, h, ?_⟩
  have := C41_read_string_int_partial (env := env) (w := []) (sg := [45]) (ds := [49, 50]) (vs := [1, 2]) (w2 := []) (ch := 120) (rest := [0])
    (r := 10) h (demoQ_a.ready (by decide)) (by omega) (by simp) (by simp)
    (by simp [IsDigit, digitChar]) (by simp) (by simp) (by simp [IsSpace]) (fun _ d => by unfold IsDigit digitChar; split <;> omega) (by simp)
    (by rw [List.take_of_length_le (by simp)]; simp)
  norm_num [Nat.ofDigits] at this
  exact this

/-- A denominator followed by anything else than NUL: the fraction is stored as it is, not reduced, and
even with the denominator zero (imrat.c:684-688).  Here "6/4 " and "6/0 ". -/
theorem C41_read_string_unreduced :
    outcome (mp_rat_read_string ⟨.var 0, .var 1⟩ 10 [54, 47, 52, 32, 0]) [0, 1] = some (MP_TRUNC, [some 6, some 4]) ∧
    outcome (mp_rat_read_string ⟨.var 0, .var 1⟩ 10 [54, 47, 48, 32, 0]) [0, 1] = some (MP_TRUNC, [some 6, some 0]) := by
  decide +kernel

/-- The denominator zero is reported, but stored. -/
theorem C41_read_string_zero :
    outcome (mp_rat_read_string ⟨.var 0, .var 1⟩ 10 [54, 47, 48, 0]) [0, 1] = some (MP_UNDEF, [some 6, some 0]) := by
  decide +kernel

/-- What `mp_rat_to_string` writes is read back.  Missing from the full property: texts of more than
800000000 characters. -/
theorem C41_round_trip_partial (h : State m ρ) (ha : HasQ ρ a p) (hc : ReadyQ ρ c) (hr : 2 ≤ r ∧ r ≤ 36)
    (hfit : (ratText r p).length + 1 ≤ limit) (hbuf : (ratText r p).length + 1 ≤ str.length) (hlen : (ratText r p).length ≤ 800000000) :
    Runs env (do
      let s ← mp_rat_to_string a.p r str limit
      mp_rat_read_string c.p r s.2) m fun res m' => res = MP_OK ∧ State m' (putQ ρ c p) := by
  refine .of_wp (wp_bind (mp_rat_to_string_spec (ref_refused env) hr.1 hr.2 h.r2 ha.l hfit hbuf fun m1 h1 => ?_))
  generalize str.drop ((ratText r p).length + 1) = rest
  have h0 : 0 ∈ (ratText r p ++ 0 :: rest).take 800000001 := by
    rw [List.take_append, List.mem_append]
    refine .inr ?_
    rw [show 800000001 - (ratText r p).length = (800000000 - (ratText r p).length) + 1 by omega]
    simp
  obtain ⟨vs, hvs, hval⟩ := numeralN_digits hr.1 p.num.natAbs
  have hne : numeralN r p.num.natAbs ≠ [] := fun e => by
    have := numeralN_pos r p.num.natAbs hr.1
    rw [e] at this; simp at this
  have esgn : (if (if p.num < 0 then [45] else []) = [45] then (-1 : Int) else 1) * ((Nat.ofDigits r vs.reverse : Nat) : Int) = p.num := by
    rw [hval]
    by_cases hx : p.num < 0
    · simp only [hx, if_true]; omega
    · simp only [hx, if_false, List.nil_eq, List.cons_ne_nil]; omega
  unfold mp_rat_read_string
  refine wp_bind ?_
  by_cases hp : p = 0
  · have e : ratText r p ++ 0 :: rest = [] ++ (if p.num < 0 then [45] else []) ++ numeralN r p.num.natAbs ++ ([] ++ 0 :: rest) := by
      simp [ratText, hp, numeral]
    rw [e] at h0 ⊢
    refine mp_rat_read_cstring_int (ref_refused env) hr.1 hr.2 (by simp) (by split <;> simp) hvs hne (by simp) (by unfold IsSpace; omega)
      (fun _ d => not_isDigit_zero) (by omega) h0 h1 hc.l fun m2 h2 => wp_pure ⟨by simp, ?_⟩
    rw [esgn] at h2
    rw [show ((p.num : Int) : ℚ) = p by rw [hp]; simp] at h2
    exact h2.stateQ
  · obtain ⟨vs3, hvs3, hval3⟩ := numeralN_digits hr.1 p.den
    have e : ratText r p ++ 0 :: rest = [] ++ (if p.num < 0 then [45] else []) ++ numeralN r p.num.natAbs ++
        ([] ++ 47 :: ([] ++ [] ++ numeralN r p.den ++ 0 :: rest)) := by
      simp [ratText, hp, numeral]
    rw [e] at h0 ⊢
    refine mp_rat_read_cstring_spec (ref_refused env) hr.1 hr.2 (by simp) (by split <;> simp) hvs hne (by simp) (by simp) (by simp) hvs3
      h0 h1 hc.l (by rw [hval3]; exact p.den_nz) fun m2 h2 => wp_pure ⟨rfl, ?_⟩
    rw [esgn, if_neg (by simp), one_mul, hval3, Rat.num_divInt_den] at h2
    exact h2.stateQ

example : ∃ m, State m demoQ ∧ Runs env (do
      let s ← mp_rat_to_string qa.p 10 [1, 2, 3, 4, 5, 6] 6
      mp_rat_read_string qc.p 10 s.2) m fun res m' => res = MP_OK ∧ State m' (putQ demoQ qc (-22 / 7)) :=
  let ⟨m, h⟩ := demoQ_state
  ⟨m, h, C41_round_trip_partial h demoQ_a (demoQ_c.ready (by decide)) (by omega) (by rw [demoQ_text]; decide) (by rw [demoQ_text]; decide)
    (by rw [demoQ_text]; decide)⟩

/-! ### Positional notation -/

/-- White space, sign, digits, a point, digits, and a rest that begins with the character `ch`; both parts
may be empty.  Missing from the full property: strings of more than 800000000 characters. -/
theorem C41_read_decimal_partial {w sg ds fs rest : Bytes} {vs us : List Nat} {ch : Nat}
    (h : State m ρ) (hc : ReadyQ ρ c) (hr : 2 ≤ r ∧ r ≤ 36)
    (hw : ∀ x ∈ w, IsSpace x) (hsg : sg = [] ∨ sg = [43] ∨ sg = [45]) (hds : List.Forall₂ (IsDigit r) ds vs)
    (hfs : List.Forall₂ (IsDigit r) fs us) (hch : ∀ d, ¬ IsDigit r ch d) (hfs0 : fs = [] → ¬ IsSpace ch ∧ ch ≠ 43 ∧ ch ≠ 45)
    (hnul : 0 ∈ (w ++ sg ++ ds ++ 46 :: (fs ++ ch :: rest)).take 800000001) :
    Runs env (mp_rat_read_cdecimal c.p r (w ++ sg ++ ds ++ 46 :: (fs ++ ch :: rest))) m fun res m' =>
      res = (if ch = 0 then MP_OK else MP_TRUNC, some (w ++ sg ++ ds ++ [46] ++ fs).length) ∧
      State m' (putQ ρ c ((if sg = [45] then -1 else 1) *
        ((Nat.ofDigits r vs.reverse : Nat) + (Nat.ofDigits r us.reverse : Nat) / (r : ℚ) ^ fs.length))) :=
  .of_wp (mp_rat_read_cdecimal_spec (ref_refused env) hr.1 hr.2 hw hsg hds hfs hch hfs0 hnul h.r2 hc.l fun _ h' => ⟨rfl, h'.stateQ⟩)

/-- "-3.0250" -/
example : ∃ m, State m demoQ ∧ Runs env (mp_rat_read_cdecimal qa.p 10 [45, 51, 46, 48, 50, 53, 48, 0]) m fun res m' =>
    res = (MP_OK, some 7) ∧ State m' (putQ demoQ qa (-121 / 40)) := by
  obtain ⟨m, h⟩ := demoQ_state
  refine ⟨m, h, ?_⟩
  have := C41_read_decimal_partial (env := env) (w := []) (sg := [45]) (ds := [51]) (vs := [3]) (fs := [48, 50, 53, 48]) (us := [0, 2, 5, 0]) (ch := 0)
    (rest := []) (r := 10) h (demoQ_a.ready (by decide)) (by omega) (by simp) (by simp)
    (by simp [IsDigit, digitChar]) (by simp [IsDigit, digitChar]) (fun d => not_isDigit_zero) (by simp)
    (by rw [List.take_of_length_le (by simp)]; simp)
  norm_num [Nat.ofDigits] at this
  norm_num
  exact this

/-- No point. -/
theorem C41_read_decimal_int_partial {w sg ds rest : Bytes} {vs : List Nat} {ch : Nat}
    (h : State m ρ) (hc : ReadyQ ρ c) (hr : 2 ≤ r ∧ r ≤ 36)
    (hw : ∀ x ∈ w, IsSpace x) (hsg : sg = [] ∨ sg = [43] ∨ sg = [45]) (hds : List.Forall₂ (IsDigit r) ds vs)
    (hch : ∀ d, ¬ IsDigit r ch d) (hhead : sg = [] → ds = [] → ¬ IsSpace ch ∧ ch ≠ 43 ∧ ch ≠ 45) (h46 : ch ≠ 46)
    (hnul : 0 ∈ (w ++ sg ++ ds ++ ch :: rest).take 800000001) :
    Runs env (mp_rat_read_cdecimal c.p r (w ++ sg ++ ds ++ ch :: rest)) m fun res m' =>
      res = (if ch = 0 then MP_OK else MP_TRUNC, some (w ++ sg ++ ds).length) ∧
      State m' (putQ ρ c ((if sg = [45] then -1 else 1) * (Nat.ofDigits r vs.reverse : Nat))) := by
  refine .of_wp (mp_rat_read_cdecimal_int (ref_refused env) hr.1 hr.2 hw hsg hds hch hhead h46 hnul h.r2 hc.l fun m' h' => ⟨rfl, ?_⟩)
  generalize Nat.ofDigits r vs.reverse = N at *
  have := h'.stateQ
  push_cast at this ⊢
  exact this

/-- "42" in radix 16 -/
example : ∃ m, State m demoQ ∧ Runs env (mp_rat_read_cdecimal qa.p 16 [52, 50, 0]) m fun res m' =>
    res = (MP_OK, some 2) ∧ State m' (putQ demoQ qa 66) := by
  obtain ⟨m, h⟩ := demoQ_state
  refine ⟨m, h, ?_⟩
  have := C41_read_decimal_int_partial (env := env) (w := []) (sg := []) (ds := [52, 50]) (vs := [4, 2]) (ch := 0)
    (rest := []) (r := 16) h (demoQ_a.ready (by decide)) (by omega) (by simp) (by simp)
    (by simp [IsDigit, digitChar]) (fun d => not_isDigit_zero) (by simp) (by simp)
    (by rw [List.take_of_length_le (by simp)]; simp)
  norm_num [Nat.ofDigits] at this
  exact this

/-- White space or a sign after the point: `MP_TRUNC` without a value for `*end` (imrat.c:764-765). -/
theorem C41_read_decimal_no_end :
    outcome (mp_rat_read_cdecimal ⟨.var 0, .var 1⟩ 10 [49, 46, 32, 0]) [0, 1] = some ((MP_TRUNC, none), [some 1, some 1]) := by
  decide +kernel

end Imath
