import Verif.Proof.Verdict5

/-! # The test driver: comparisons, conversions and the extended algorithm -/

namespace Imath

variable {env : Env} {E : Fault → Prop} {m : Mem} {σ σ0 : Id → Option Int} {x y w v : Int} {d : Drv} {code : String}

theorem numeral_short {k : Nat} (hk : 1 ≤ k) (h : |v| < 10 ^ k) : (numeral 10 v).length ≤ k + 1 := by
  have h2 : v.natAbs < 10 ^ k := by
    have : ((v.natAbs : Nat) : Int) < ((10 ^ k : Nat) : Int) := by push_cast; exact h
    exact_mod_cast this
  have h3 : (numeralN 10 v.natAbs).length ≤ k := by
    unfold numeralN
    split
    · simpa using hk
    · rw [List.length_reverse, List.length_map, Nat.digits_length_le_iff (by omega)]; exact h2
  unfold numeral
  rw [List.length_append]
  split <;> simp <;> omega

/-- The test failed with a message. -/
theorem fail_msg {msg : Bytes} {Q : Bool × Drv → Mem → Prop} (hd : Buf d) (h : R2 m σ) (hI : Inv σ0 σ) (h0 : 0 ∉ msg) (hl : msg.length < 2048)
    (hV : VPost E σ0 d Q (.failed msg)) :
    wp env E (do
      let buf ← bwrite d.g_output 0 (msg ++ [0])
      FAIL { d with g_output := buf } OTHER_ERROR) Q m := by
  obtain ⟨B, C, hBC, hB⟩ : ∃ B C, d.g_output = B ++ C ∧ B.length = (msg ++ [0]).length := by
    refine ⟨_, _, (List.take_append_drop (msg.length + 1) _).symm, ?_⟩
    simp [hd.1]; omega
  have hlen : B.length + C.length = 2048 := by rw [← List.length_append, ← hBC]; exact hd.1
  unfold FAIL
  have : wp env E (bwrite ([] ++ (B ++ C)) 0 (msg ++ [0])) (fun buf m => wp env E (pure (false, { d with g_output := buf, errno := OTHER_ERROR })) Q m) m := by
    refine wp_bwrite rfl hB (wp_pure ?_)
    refine hV _ m σ h hI ⟨?_, hd.2⟩ rfl (by show OTHER_ERROR < MP_BADARG; decide) h0 ⟨C, by simp⟩
    simp only [List.length_append, List.length_cons, List.length_nil] at hB ⊢; omega
  rw [List.nil_append, ← hBC] at this
  exact wp_bind this

theorem order_cmpZ : cmpZ x y = order x y := by
  unfold cmpZ order; split_ifs <;> first | rfl | omega

theorem order_sign : x.sign = order x 0 := by
  unfold order
  split_ifs with h1 h2
  · exact Int.sign_eq_neg_one_of_neg h1
  · rw [h2]; rfl
  · exact Int.sign_eq_one_of_pos (by omega)

theorem order_range : |order x y| ≤ 1 := by unfold order; split_ifs <;> simp

theorem codeOf_range {s : Bytes} {e : Int} (h : codeOf s = some e) : |e| ≤ 2 ^ 31 := by
  unfold codeOf at h
  split at h
  · rw [Option.map_eq_some_iff] at h
    obtain ⟨v, _, rfl⟩ := h
    rw [abs_le]; omega
  · rw [Option.map_eq_some_iff] at h
    obtain ⟨p, hp, rfl⟩ := h
    have := List.mem_of_find?_eq_some hp
    unfold codeNames at this
    simp only [List.mem_cons, List.not_mem_nil, or_false] at this
    rcases this with rfl | rfl | rfl | rfl | rfl | rfl | rfl | rfl | rfl | rfl | rfl <;> norm_num

theorem readOuts_range {β : Type} {rd : List Nat → Option β} {zero : β} {out rval : Bool} : ∀ (ts : List Bytes) (pos : Nat) (os : List β) (e : Int)
    {os' : List β} {e' : Int}, readOuts rd zero out rval ts pos os e = .ok (os', e') → |e| ≤ 2 ^ 31 → |e'| ≤ 2 ^ 31
  | [], pos, os, e, os', e', h, he => by
    simp only [readOuts, Parse.ok.injEq, Prod.mk.injEq] at h
    rw [← h.2]; exact he
  | t :: ts, pos, os, e, os', e', h, he => by
    unfold readOuts at h
    split at h
    · simp at h
    split at h
    · exact readOuts_range ts _ _ _ h he
    · split at h
      · simp at h
      · rename_i hc
        split at h
        · exact readOuts_range ts _ _ _ h (codeOf_range hc)
        · simp at h
    · split at h
      · split at h
        · simp at h
        · exact readOuts_range ts _ _ _ h he
      · exact readOuts_range ts _ _ _ h he

/-- The expected result is an `int`. -/
theorem withVals_range {β : Type} {rd : List Nat → Option β} {zero : β} {inn out rval : Bool} {ti tq : List (List Nat)}
    {V V' : List Nat → List β → List β → Int → Verdict} (h : ∀ ss xs os e, |e| ≤ 2 ^ 31 → V ss xs os e = V' ss xs os e) :
    withVals rd zero inn out rval ti tq V = withVals rd zero inn out rval ti tq V' := by
  unfold withVals
  split
  · rfl
  · rfl
  · split
    · rfl
    · rfl
    · rename_i he
      exact h _ _ _ _ (readOuts_range _ _ _ _ he (by norm_num [MP_OK]))

theorem chars_txt (s : String) : chars s = txt s := rfl

theorem expectCmp_spec {p : Parsed Id} {Q : Bool × Drv → Mem → Prop} {c e : Int} (hd : Buf d) (h : R2 m σ) (hI : Inv σ0 σ) (he : p.expect = e)
    (her : |e| ≤ 2 ^ 31) (hc : |c| ≤ 1) (hV : VPost E σ0 d Q (if c = e then .ok [] else .failed (cmpMsg e c))) :
    wp env E (expectCmp d p c) Q m := by
  unfold expectCmp
  rw [he]
  by_cases hce : c = e
  · rw [if_pos hce] at hV
    exact wp_if_neg (by simpa using hce) (wp_pure (hV d m σ h hI hd (by simp)))
  · rw [if_neg hce] at hV
    refine wp_if_pos hce ?_
    have n1 := numeral_zero_notin (r := 10) (by omega) (by omega) e
    have n2 := numeral_zero_notin (r := 10) (by omega) (by omega) c
    have l1 : (numeral 10 e).length ≤ 11 := numeral_short (k := 10) (by omega) (lt_of_le_of_lt her (by norm_num))
    have l2 : (numeral 10 c).length ≤ 2 := numeral_short (k := 1) (by omega) (lt_of_le_of_lt hc (by norm_num))
    have e1 : (txt "Incorrect comparison result (want ").length = 34 := by decide
    have e2 : (txt ", got ").length = 6 := by decide
    have e3 : (txt ")").length = 1 := by decide
    refine fail_msg hd h hI (msg := cmpMsg e c) ?_ ?_ hV
    · unfold cmpMsg
      simp only [chars_txt, List.mem_append, not_or]
      exact ⟨⟨⟨⟨by decide, n1⟩, by decide⟩, n2⟩, by decide⟩
    · unfold cmpMsg
      simp only [chars_txt, List.length_append]; omega

/-- The expected result of comparisons is an `int`. -/
theorem cmpTest_eq {f : List Int → List (List Nat) → Option (Except Fault Int)} {ti tq : List Bytes} : cmpTest f ti tq =
    withVals readValue 0 true false true ti tq fun _ xs _ e =>
      if |e| ≤ 2 ^ 31 then match f xs (ti.map trimmed) with
        | none => .unknown
        | some (.error f) => .crash f
        | some (.ok c) => if c = e then .ok [] else .failed (cmpMsg e c)
      else .unknown := by
  unfold cmpTest
  exact withVals_range fun ss xs os e he => by rw [if_pos he]; rfl

theorem tests_cmp (hE : Ref env E) : Tests env E σ0 test_comp code 2 1 (cmpTest cmpXY) := by
  intro t d ti tq m σ Q R hd hi ho hti htq h hI hcode li lo hV
  rw [cmpTest_eq] at hV
  unfold test_comp nth
  refine withInts_spec hE hd hi ho hti htq h hI hV fun p ss n xs os e m' σ' hV h' hr => ?_
  obtain ⟨i, j, x, y, rfl, rfl, hp, hx, hy⟩ := hr.two rfl li
  rw [hp]
  refine wp_bind (wp_pure (wp_bind (wp_pure (wp_bind (mp_int_compare_spec h' hx.val hy.val ?_)))))
  by_cases he : |e| ≤ 2 ^ 31
  · rw [if_pos he] at hV
    rw [order_cmpZ]
    exact expectCmp_spec hd h' hr.inv hr.expect he order_range hV
  · rw [if_neg he] at hV; exact hV.elim

theorem tests_cmpu (hE : Ref env E) : Tests env E σ0 test_ucomp code 2 1 (cmpTest cmpU) := by
  intro t d ti tq m σ Q R hd hi ho hti htq h hI hcode li lo hV
  rw [cmpTest_eq] at hV
  unfold test_ucomp nth
  refine withInts_spec hE hd hi ho hti htq h hI hV fun p ss n xs os e m' σ' hV h' hr => ?_
  obtain ⟨i, j, x, y, rfl, rfl, hp, hx, hy⟩ := hr.two rfl li
  rw [hp]
  refine wp_bind (wp_pure (wp_bind (wp_pure (wp_bind (mp_int_compare_unsigned_spec h' hx.val hy.val ?_)))))
  by_cases he : |e| ≤ 2 ^ 31
  · rw [if_pos he] at hV
    rw [order_cmpZ]
    exact expectCmp_spec hd h' hr.inv hr.expect he order_range hV
  · rw [if_neg he] at hV; exact hV.elim

theorem tests_cmpz (hE : Ref env E) : Tests env E σ0 test_zcomp code 1 1 (cmpTest cmpZero) := by
  intro t d ti tq m σ Q R hd hi ho hti htq h hI hcode li lo hV
  rw [cmpTest_eq] at hV
  unfold test_zcomp nth
  refine withInts_spec hE hd hi ho hti htq h hI hV fun p ss n xs os e m' σ' hV h' hr => ?_
  obtain ⟨i, x, rfl, rfl, hp, hx⟩ := hr.one rfl li
  rw [hp]
  refine wp_bind (wp_pure (wp_bind (mp_int_compare_zero_spec h' hx.val ?_)))
  by_cases he : |e| ≤ 2 ^ 31
  · rw [if_pos he] at hV
    rw [order_sign]
    exact expectCmp_spec hd h' hr.inv hr.expect he order_range hV
  · rw [if_neg he] at hV; exact hV.elim

/-- The text of the second input. -/
theorem second_text {ls ts : List Bytes} (h : Arrays ls (ts.map trimmed)) (hts : OkTexts ts) (hl : ts.length = 2) :
    ∃ a u R, ts.map trimmed = [a, u] ∧ ls[1]? = some (u ++ 0 :: R) ∧ 0 ∉ u := by
  obtain ⟨a, b, rfl⟩ := List.length_eq_two.1 hl
  obtain _ | ⟨k1, hf⟩ := h
  obtain _ | ⟨k2, hf⟩ := hf
  obtain ⟨R, rfl⟩ := k2
  exact ⟨_, _, R, rfl, rfl, zero_notMem_trimmed (hts b (by simp)).1⟩

theorem tests_cmpv (hE : Ref env E) : Tests env E σ0 test_vcomp code 2 1 (cmpTest cmpV) := by
  intro t d ti tq m σ Q R hd hi ho hti htq h hI hcode li lo hV
  rw [cmpTest_eq] at hV
  unfold test_vcomp nth
  refine withInts_spec hE hd hi ho hti htq h hI hV fun p ss n xs os e m' σ' hV h' hr => ?_
  obtain ⟨i, j, x, y, rfl, rfl, hp, hx, hy⟩ := hr.two rfl li
  obtain ⟨a, u, R', hmap, hs, h0⟩ := second_text (by simpa using hr.input) hti li
  by_cases he : |e| ≤ 2 ^ 31
  · rw [if_pos he, hmap] at hV
    unfold cmpV at hV
    dsimp only at hV
    rw [hp, hs]
    refine wp_bind (wp_pure (wp_bind (wp_pure (wp_bind (atoi_spec h0 ?_ ?_)))))
    · intro hb
      rw [if_neg (by simpa using hb)] at hV
      exact hV
    · intro h1 h2
      rw [if_pos ⟨h1, h2⟩] at hV
      dsimp only at hV
      refine wp_bind (mp_int_compare_value_spec (by omega) (by omega) h' hx.val fun m1 h1 => ?_)
      rw [order_cmpZ]
      exact expectCmp_spec hd h1 hr.inv hr.expect he order_range hV
  · rw [if_neg he] at hV; exact hV.elim

theorem ulongOf_lt (s : Bytes) : ulongOf s < 2 ^ 64 := by
  unfold ulongOf
  have key : ∀ n : Nat, (if 2 ^ 64 ≤ n then 2 ^ 64 - 1 else if minus s then (2 ^ 64 - n) % 2 ^ 64 else n) < 2 ^ 64 := by
    intro n
    split_ifs <;> omega
  exact key _

theorem tests_cmpuv (hE : Ref env E) : Tests env E σ0 test_uvcomp code 2 1 (cmpTest cmpUV) := by
  intro t d ti tq m σ Q R hd hi ho hti htq h hI hcode li lo hV
  rw [cmpTest_eq] at hV
  unfold test_uvcomp nth
  refine withInts_spec hE hd hi ho hti htq h hI hV fun p ss n xs os e m' σ' hV h' hr => ?_
  obtain ⟨i, j, x, y, rfl, rfl, hp, hx, hy⟩ := hr.two rfl li
  obtain ⟨a, u, R', hmap, hs, h0⟩ := second_text (by simpa using hr.input) hti li
  by_cases he : |e| ≤ 2 ^ 31
  · rw [if_pos he, hmap] at hV
    unfold cmpUV at hV
    dsimp only at hV
    rw [hp, hs]
    refine wp_bind (wp_pure (wp_bind (wp_pure (wp_bind (cstr_spec h0 ?_)))))
    rw [strtoul_eq]
    refine wp_bind (mp_int_compare_uvalue_spec (ulongOf_lt u) h' hx.val fun m1 h1 => ?_)
    rw [order_cmpZ]
    exact expectCmp_spec hd h1 hr.inv hr.expect he order_range hV
  · rw [if_neg he] at hV; exact hV.elim

theorem tests_isprime (hE : Ref env E) : Tests env E σ0 test_is_prime code 1 1 testPrime := by
  intro t d ti tq m σ Q R hd hi ho hti htq h hI hcode li lo hV
  unfold test_is_prime nth VCHECK
  refine withInts_spec hE hd hi ho hti htq h hI hV fun p ss n xs os e m' σ' hV h' hr => ?_
  obtain ⟨i, x, rfl, rfl, hp, hx⟩ := hr.one rfl li
  rw [hp]
  dsimp only at hV
  have fin : ∀ c m1, R2 m1 σ' → VPost E σ0 d Q (judge e (.fails c) []) →
      wp env E (if c ≠ p.expect then FAIL d c else pure (true, d)) Q m1 := by
    intro c m1 h1 hv
    unfold judge at hv
    dsimp only at hv
    rw [hr.expect]
    by_cases hc : c = e
    · rw [if_pos hc] at hv
      exact wp_if_neg (by simpa using hc) (wp_pure (hv d m1 σ' h1 hr.inv hd (by simp)))
    · rw [if_neg hc] at hv
      exact wp_if_pos hc (wp_pure (hv _ m1 σ' h1 hr.inv hd rfl rfl))
  refine wp_bind (wp_pure (wp_bind (mp_int_is_prime_spec hE h' hx.val ?_ ?_)))
  · intro ha m1 h1
    rw [if_pos ha] at hV
    exact fin _ m1 h1 hV
  · intro ha m1 h1
    rw [if_neg ha] at hV
    exact fin _ m1 h1 hV

theorem incorrect_ok {Q : Bool × Drv → Mem → Prop} (hd : Buf d) (h : R2 m σ) (hI : Inv σ0 σ) (hv : |v| < 10 ^ 20)
    (hV : VPost E σ0 d Q (.failed (chars "Incorrect value (got " ++ numeral 10 v ++ chars ")"))) :
    wp env E (do
      let buf ← bwrite d.g_output 0 (txt "Incorrect value (got " ++ fmtd v ++ txt ")" ++ [0])
      FAIL { d with g_output := buf } OTHER_ERROR) Q m := by
  have n1 := numeral_zero_notin (r := 10) (by omega) (by omega) v
  have l1 : (numeral 10 v).length ≤ 21 := numeral_short (k := 20) (by omega) hv
  have e1 : (txt "Incorrect value (got ").length = 21 := by decide
  have e3 : (txt ")").length = 1 := by decide
  refine fail_msg hd h hI (msg := chars "Incorrect value (got " ++ numeral 10 v ++ chars ")") ?_ ?_ hV
  · simp only [chars_txt, List.mem_append, not_or]
    exact ⟨⟨by decide, n1⟩, by decide⟩
  · simp only [chars_txt, List.length_append]; omega

theorem tests_to_int (hE : Ref env E) : Tests env E σ0 test_to_int code 1 1 (convTest refToInt) := by
  intro t d ti tq m σ Q R hd hi ho hti htq h hI hcode li lo hV
  unfold test_to_int nth
  refine withInts_spec hE hd hi ho hti htq h hI hV fun p ss n xs os e m' σ' hV h' hr => ?_
  obtain ⟨i, x, rfl, rfl, hp, hx⟩ := hr.one rfl li
  obtain ⟨u, rfl, hpo, hu⟩ := hr.out1 rfl lo
  rw [hp, hpo, hr.expect]
  refine wp_bind (wp_pure ?_)
  dsimp only [refToInt] at hV
  by_cases h0 : x = -2 ^ 63
  · rw [if_pos h0] at hV
    exact wp_bind (mp_int_to_int_fault hV h' (by rw [hx.val, h0]; rfl))
  rw [if_neg h0] at hV
  refine wp_bind (mp_int_to_int_spec h' hx.val (by intro hh; apply h0; rw [hh]; norm_num) ?_ ?_)
  · intro hh m1 h1
    rw [if_pos (by norm_num; omega)] at hV
    dsimp only [judge] at hV
    by_cases hc : MP_RANGE = e
    · rw [if_pos hc] at hV
      exact wp_if_neg (by simpa using hc) (wp_if_neg (by rw [← hc]; decide) (wp_pure (hV d m1 σ' h1 hr.inv hd (by simp))))
    · rw [if_neg hc] at hV
      exact wp_if_pos hc (wp_pure (hV _ m1 σ' h1 hr.inv hd rfl rfl))
  · intro k1 k2 m1 h1
    rw [if_neg (by norm_num; omega)] at hV
    dsimp only [val1] at hV
    by_cases he0 : e = MP_OK
    · rw [if_neg (by simpa using he0)] at hV
      subst he0
      refine wp_if_neg (by simp) (wp_if_pos rfl (wp_bind (wp_pure ?_)))
      refine wp_bind (mp_int_compare_value_spec k1.le k2 h1 hu fun m2 h2 => ?_)
      by_cases hc : x = u
      · rw [if_pos hc] at hV
        exact wp_if_neg (by rw [not_not, cmpZ_eq_zero]; exact hc.symm) (wp_pure (hV d m2 σ' h2 hr.inv hd (by simp)))
      · rw [if_neg hc] at hV
        exact wp_if_pos (by rw [Ne, cmpZ_eq_zero]; exact fun k => hc k.symm) (incorrect_ok hd h2 hr.inv (by rw [abs_lt]; norm_num; omega) hV)
    · rw [if_pos he0] at hV
      exact wp_if_pos (fun k => he0 k.symm) (wp_pure (hV _ m1 σ' h1 hr.inv hd rfl rfl))

theorem tests_to_uint (hE : Ref env E) : Tests env E σ0 test_to_uint code 1 1 (convTest refToUint) := by
  intro t d ti tq m σ Q R hd hi ho hti htq h hI hcode li lo hV
  unfold test_to_uint nth
  refine withInts_spec hE hd hi ho hti htq h hI hV fun p ss n xs os e m' σ' hV h' hr => ?_
  obtain ⟨i, x, rfl, rfl, hp, hx⟩ := hr.one rfl li
  obtain ⟨u, rfl, hpo, hu⟩ := hr.out1 rfl lo
  rw [hp, hpo, hr.expect]
  refine wp_bind (wp_pure ?_)
  dsimp only [refToUint] at hV
  refine wp_bind (mp_int_to_uint_spec h' hx.val ?_ ?_)
  · intro hh m1 h1
    rw [if_pos (by norm_num; omega)] at hV
    dsimp only [judge] at hV
    by_cases hc : MP_RANGE = e
    · rw [if_pos hc] at hV
      exact wp_if_neg (by simpa using hc) (wp_if_neg (by rw [← hc]; decide) (wp_pure (hV d m1 σ' h1 hr.inv hd (by simp))))
    · rw [if_neg hc] at hV
      exact wp_if_pos hc (wp_pure (hV _ m1 σ' h1 hr.inv hd rfl rfl))
  · intro k1 k2 m1 h1
    rw [if_neg (by norm_num; omega)] at hV
    dsimp only [val1] at hV
    have ex : ((x.natAbs : Nat) : Int) = x := by omega
    by_cases he0 : e = MP_OK
    · rw [if_neg (by simpa using he0)] at hV
      subst he0
      refine wp_if_neg (by simp) (wp_if_pos rfl (wp_bind (wp_pure ?_)))
      refine wp_bind (mp_int_compare_uvalue_spec (by omega) h1 hu fun m2 h2 => ?_)
      rw [ex]
      by_cases hc : x = u
      · rw [if_pos hc] at hV
        exact wp_if_neg (by rw [not_not, cmpZ_eq_zero]; exact hc.symm) (wp_pure (hV d m2 σ' h2 hr.inv hd (by simp)))
      · rw [if_neg hc] at hV
        exact wp_if_pos (by rw [Ne, cmpZ_eq_zero]; exact fun k => hc k.symm) (incorrect_ok hd h2 hr.inv (by rw [abs_lt]; norm_num; omega) hV)
    · rw [if_pos he0] at hV
      exact wp_if_pos (fun k => he0 k.symm) (wp_pure (hV _ m1 σ' h1 hr.inv hd rfl rfl))

end Imath
