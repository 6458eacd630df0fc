import Verif.Proof.Run2

/-! # The test driver: where the reference decides, and plain numerals -/

namespace Imath

/-- The result has a name. -/
def Named (e : Int) : Prop := ∃ s, errorName e = some s

/-- The reference says what happens. -/
def Verdict.Known (v : Verdict) : Prop := v ≠ .unknown ∧ ∀ e, v = .error e → Named e

def OpRes.Known (r : OpRes) : Prop := r ≠ .unknown ∧ (∀ e, r = .fails e → Named e) ∧ ∀ e, r = .stop e → Named e

theorem named_ok : Named MP_OK := ⟨_, rfl⟩
theorem named_true : Named MP_TRUE := ⟨_, rfl⟩
theorem named_range : Named MP_RANGE := ⟨_, rfl⟩
theorem named_undef : Named MP_UNDEF := ⟨_, rfl⟩
theorem named_trunc : Named MP_TRUNC := ⟨_, rfl⟩
theorem named_badarg : Named MP_BADARG := ⟨_, rfl⟩

theorem Verdict.Known.ok {t : List Nat} : (Verdict.ok t).Known := ⟨by simp, by simp⟩
theorem Verdict.Known.failed {t : List Nat} : (Verdict.failed t).Known := ⟨by simp, by simp⟩
theorem Verdict.Known.crash {f : Fault} : (Verdict.crash f).Known := ⟨by simp, by simp⟩
theorem Verdict.Known.error {e : Int} (h : Named e) : (Verdict.error e).Known := ⟨by simp, fun e' he => by cases he; exact h⟩
theorem OpRes.Known.done {t : List Int} : (OpRes.done t).Known := ⟨by simp, by simp, by simp⟩
theorem OpRes.Known.val {v : Int} : (val1 v).Known := .done
theorem OpRes.Known.crash {f : Fault} : (OpRes.crash f).Known := ⟨by simp, by simp, by simp⟩
theorem OpRes.Known.fails {e : Int} (h : Named e) : (OpRes.fails e).Known := ⟨by simp, fun e' he => by cases he; exact h, by simp⟩
theorem OpRes.Known.stop {e : Int} (h : Named e) : (OpRes.stop e).Known := ⟨by simp, by simp, fun e' he => by cases he; exact h⟩

theorem OpRes.Known.ite {p : Prop} [Decidable p] {a b : OpRes} (h1 : a.Known) (h2 : b.Known) : (if p then a else b).Known := by
  split <;> assumption

theorem Verdict.Known.ite {p : Prop} [Decidable p] {a b : Verdict} (h1 : a.Known) (h2 : b.Known) : (if p then a else b).Known := by
  split <;> assumption

theorem OpRes.Known.asLong {v : Int} {k : OpRes} (h : k.Known) : (Imath.asLong v k).Known := by
  unfold Imath.asLong
  exact .ite .crash (.ite (.stop named_range) h)

theorem wrong_known {vs : List Int} : (wrong vs).Known := by
  unfold wrong
  split
  · exact .failed
  · exact .crash

theorem judge_known {e : Int} {r : OpRes} {os : List Int} (h : r.Known) : (judge e r os).Known := by
  unfold judge
  split
  · exact .ite (.error named_ok) (.ite .ok wrong_known)
  · exact .ite .ok (.error (h.2.1 _ rfl))
  · exact .error (h.2.2 _ rfl)
  · exact .crash
  · exact absurd rfl h.1

theorem withVals_known {α : Type} {rd : List Nat → Option α} {zero : α} {inn out rval : Bool} {ins outs : List (List Nat)}
    {V : List Nat → List α → List α → Int → Verdict} (h : ∀ ss xs os e, (inn = true → ss.length = ins.length) → xs.length = ss.length → os.length = outs.length →
      (V ss xs os e).Known) : (withVals rd zero inn out rval ins outs V).Known := by
  unfold withVals
  split
  · exact .error named_badarg
  · exact .crash
  · rename_i ss vs hi
    have hvs : vs.length ≤ 16 ∧ (inn = true → ss.length = ins.length) := by
      cases inn with
      | true =>
        have := readIns_ok ins [] [] (by simpa using hi) (by simp) (by simp)
        exact ⟨this.2.1, fun _ => by simpa using this.1⟩
      | false =>
        simp only [Bool.false_eq_true, if_false, Parse.ok.injEq, Prod.mk.injEq] at hi
        rw [← hi.2]; simp
    split
    · exact .error named_badarg
    · exact .crash
    · rename_i os e ho
      have := readOuts_ok outs _ _ _ ho hvs.1
      exact h _ _ _ _ hvs.2 (by simp) (by simpa using this.1)

theorem numTest_known {f : List Nat → List Int → OpRes} {n : Nat} {ins outs : List (List Nat)} (hn : ins.length = n)
    (h : ∀ ss xs, ss.length = n → xs.length = n → (f ss xs).Known) : (numTest f ins outs).Known :=
  withVals_known fun ss xs os e h1 h2 h3 => judge_known (h ss xs (by rw [h1 rfl, hn]) (by rw [h2, h1 rfl, hn]))

theorem op1_known {f : Int → OpRes} (h : ∀ x, (f x).Known) {ins outs : List (List Nat)} (hn : ins.length = 2) : (numTest (op1 f) ins outs).Known :=
  numTest_known hn fun ss xs _ hx => by
    obtain ⟨x, y, rfl⟩ := List.length_eq_two.1 hx
    exact h x

theorem op2_known {f : Int → Int → OpRes} (h : ∀ x y, (f x y).Known) {ins outs : List (List Nat)} (hn : ins.length = 3) : (numTest (op2 f) ins outs).Known :=
  numTest_known hn fun ss xs _ hx => by
    obtain ⟨x, y, z, rfl⟩ := List.length_eq_three.1 hx
    exact h x y

theorem len4 {α : Type} {l : List α} (h : l.length = 4) : ∃ a b c d, l = [a, b, c, d] := by
  obtain _ | ⟨i, _ | ⟨j, _ | ⟨k, _ | ⟨l, _ | ⟨_, _⟩⟩⟩⟩⟩ := l <;> simp at h
  exact ⟨_, _, _, _, rfl⟩

theorem op3_known {f : Int → Int → Int → OpRes} (h : ∀ x y v, (f x y v).Known) {ins outs : List (List Nat)} (hn : ins.length = 4) :
    (numTest (op3 f) ins outs).Known :=
  numTest_known hn fun ss xs _ hx => by
    obtain ⟨x, y, z, w, rfl⟩ := len4 hx
    exact h x y z

theorem refExpt_known (x y : Int) : (refExpt x y).Known := .ite (.fails named_range) .val
theorem refMod_known (x y : Int) : (refMod x y).Known := .ite (.fails named_undef) .val
theorem refGcd_known (x y : Int) : (refGcd x y).Known := .ite (.fails named_undef) .val
theorem refLcm_known (x y : Int) : (refLcm x y).Known := .ite (.fails named_undef) .val
theorem refInvmod_known (x y : Int) : (refInvmod x y).Known := .ite (.fails named_range) (.ite (.fails named_undef) .val)
theorem refRoot_known (x y : Int) : (refRoot x y).Known :=
  .ite .crash (.ite (.fails named_undef) (.ite (.ite (.fails named_undef) .val) .val))
theorem refEmod_known (x y v : Int) : (refEmod x y v).Known :=
  .ite (.fails named_undef) (.ite (.fails named_range) (.ite .val (.ite .val .val)))

theorem opDiv_known {ins outs : List (List Nat)} (hn : ins.length = 4) : (numTest opDiv ins outs).Known :=
  numTest_known hn fun ss xs hs hx => by
    obtain ⟨a, b, c, d, rfl⟩ := len4 hs
    obtain ⟨x, y, z, w, rfl⟩ := len4 hx
    exact .ite .crash (.ite (.fails named_undef) .done)

theorem testDivv_known {ins outs : List (List Nat)} (hn : ins.length = 3) (ho : outs.length = 2) : (testDivv ins outs).Known :=
  withVals_known fun ss xs os e h1 h2 h3 => by
    obtain ⟨x, y, z, rfl⟩ := List.length_eq_three.1 (h2.trans ((h1 rfl).trans hn))
    obtain ⟨q, r, rfl⟩ := List.length_eq_two.1 (h3.trans ho)
    dsimp only
    have hk : (asLong y (asLong r (if y = 0 then .fails MP_UNDEF else .done [x.tdiv y, x.tmod y]))).Known :=
      .asLong (.asLong (.ite (.fails named_undef) .done))
    split
    · exact .ite (.error named_ok) (.ite .ok (.ite .failed .crash))
    · exact judge_known hk

theorem cmpTest_known {f : List Int → List (List Nat) → Option (Except Fault Int)} {ins outs : List (List Nat)}
    (h : ∀ xs : List Int, xs.length = ins.length → f xs (ins.map trimmed) ≠ none) : (cmpTest f ins outs).Known :=
  withVals_known fun ss xs os e h1 h2 h3 => by
    have := h xs (h2.trans (h1 rfl))
    split
    · contradiction
    · exact .crash
    · exact .ite .ok .failed

theorem testTostr_known {L : Lib} {ins outs : List (List Nat)} (hn : ins.length = 2) (ho : outs.length = 1) : (testTostr L ins outs).Known :=
  withVals_known fun ss xs os e h1 h2 h3 => by
    obtain ⟨x, y, rfl⟩ := List.length_eq_two.1 (h2.trans ((h1 rfl).trans hn))
    obtain ⟨o, rfl⟩ := List.length_eq_one_iff.1 ho
    exact .ite .crash (.ite (.error named_badarg) (.ite (.error named_range) (.ite (.ite .crash (.ite .ok .failed)) (.ite .crash (.error named_trunc)))))

theorem binTest_known {f : Int → List Nat} {ins outs : List (List Nat)} (hn : ins.length = 1) (ho : outs.length = 1) : (binTest f ins outs).Known :=
  withVals_known fun ss xs os e h1 h2 h3 => by
    obtain ⟨x, rfl⟩ := List.length_eq_one_iff.1 (h2.trans ((h1 rfl).trans hn))
    obtain ⟨o, rfl⟩ := List.length_eq_one_iff.1 ho
    dsimp only
    split
    · exact .error named_badarg
    · exact .ite .failed (.ite .ok (.ite .crash .failed))

theorem readTest_known {f : List Nat → Int} {ins outs : List (List Nat)} (hn : ins.length = 1) : (readTest f ins outs).Known :=
  withVals_known fun ss xs os e h1 h2 h3 => by
    obtain ⟨o, rfl⟩ := List.length_eq_one_iff.1 hn
    dsimp only
    split
    · exact .error named_badarg
    · exact .ite .crash (judge_known .val)

theorem convTest_known {f : Int → OpRes} (h : ∀ x, (f x).Known) {ins outs : List (List Nat)} (hn : ins.length = 1) (ho : outs.length = 1) : (convTest f ins outs).Known :=
  withVals_known fun ss xs os e h1 h2 h3 => by
    obtain ⟨x, rfl⟩ := List.length_eq_one_iff.1 (h2.trans ((h1 rfl).trans hn))
    obtain ⟨o, rfl⟩ := List.length_eq_one_iff.1 (h3.trans ho)
    dsimp only
    split
    · exact .ite (.error named_ok) (.ite .ok .failed)
    · exact judge_known (h x)

theorem testPrime_known {ins outs : List (List Nat)} (hn : ins.length = 1) : (testPrime ins outs).Known :=
  withVals_known fun ss xs os e h1 h2 h3 => by
    obtain ⟨x, rfl⟩ := List.length_eq_one_iff.1 (h2.trans ((h1 rfl).trans hn))
    refine judge_known ?_
    split
    · exact .fails named_true
    · exact .fails named_ok

/-- The tests that the reference leaves open in some cases, at the least. -/
def openTests : List String := ["divp2", "qtodec"]

def QRes.Known (r : QRes) : Prop := (∀ e, r = .fails e → Named e) ∧ ∀ e, r = .stop e → Named e

theorem QRes.Known.done {v : ℚ} : (QRes.done v).Known := ⟨by simp, by simp⟩
theorem QRes.Known.crash {f : Fault} : (QRes.crash f).Known := ⟨by simp, by simp⟩
theorem QRes.Known.fails {e : Int} (h : Named e) : (QRes.fails e).Known := ⟨fun e' he => by cases he; exact h, by simp⟩
theorem QRes.Known.stop {e : Int} (h : Named e) : (QRes.stop e).Known := ⟨by simp, fun e' he => by cases he; exact h⟩

theorem QRes.Known.ite {p : Prop} [Decidable p] {a b : QRes} (h1 : a.Known) (h2 : b.Known) : (if p then a else b).Known := by
  split <;> assumption

theorem judgeQ_known {e : Int} {r : QRes} {os : List ℚ} (h : r.Known) : (judgeQ e r os).Known := by
  unfold judgeQ
  split
  · refine .ite (.error named_ok) (.ite .ok ?_)
    unfold wrongQ
    exact .ite .crash (.ite .crash (.ite .crash .failed))
  · exact .ite .ok (.error (h.1 _ rfl))
  · exact .error (h.2 _ rfl)
  · exact .crash

theorem ratTest1_known {f : ℚ → QRes} (h : ∀ x, (f x).Known) {ins outs : List (List Nat)} (hn : ins.length = 2) : (ratTest1 f ins outs).Known :=
  withVals_known fun ss xs os e h1 h2 _ => by
    obtain ⟨x, y, rfl⟩ := List.length_eq_two.1 (by rw [h2, h1 rfl, hn] : xs.length = 2)
    exact judgeQ_known (h x)

theorem ratTest2_known {f : Bool → ℚ → ℚ → QRes} (h : ∀ s x y, (f s x y).Known) {ins outs : List (List Nat)} (hn : ins.length = 3) :
    (ratTest2 f ins outs).Known :=
  withVals_known fun ss xs os e h1 h2 _ => by
    obtain ⟨x, y, z, rfl⟩ := List.length_eq_three.1 (by rw [h2, h1 rfl, hn] : xs.length = 3)
    obtain ⟨i, j, k, rfl⟩ := List.length_eq_three.1 (by rw [h1 rfl, hn] : ss.length = 3)
    exact judgeQ_known (h _ x y)

theorem intArg_known {f : Bool → ℚ → Int → QRes} (h : ∀ s x y, (f s x y).Known) (s : Bool) (x y : ℚ) : (intArg f s x y).Known :=
  .ite (h _ _ _) (.stop named_badarg)

theorem readDecimal_named {r : Nat} {s : List Nat} : Named (readDecimal r s).res := by
  have he : ∀ s, Named (endCode s) := fun s => by
    unfold endCode
    split
    · exact named_ok
    · exact named_trunc
  unfold readDecimal
  dsimp only
  split
  · split
    · exact named_trunc
    · exact he _
  · exact he _

theorem testQrdec_known {ins outs : List (List Nat)} (hn : ins.length = 2) : (testQrdec ins outs).Known :=
  withVals_known fun ss xs os e _ _ _ => by
    obtain ⟨t, s, rfl⟩ := List.length_eq_two.1 hn
    dsimp only
    split
    · exact .error named_badarg
    · exact .ite .crash (judgeQ_known (.ite .done (.fails readDecimal_named)))

theorem testQtostr_known {ins outs : List (List Nat)} (hn : ins.length = 2) (ho : outs.length = 1) : (testQtostr ins outs).Known :=
  withVals_known fun ss xs os e h1 h2 _ => by
    obtain ⟨x, y, rfl⟩ := List.length_eq_two.1 (by rw [h2, h1 rfl, hn] : xs.length = 2)
    obtain ⟨a, s, rfl⟩ := List.length_eq_two.1 hn
    obtain ⟨o, rfl⟩ := List.length_eq_one_iff.1 ho
    dsimp only
    split
    · exact .error named_badarg
    · exact .ite (.error named_range) (.ite .crash (.ite .ok .failed))

theorem ratReference_known : ∀ p ∈ ratReference, p.1 ∉ openTests → ∀ ins outs : List (List Nat), ins.length = p.2.1 → outs.length = p.2.2.1 →
    (p.2.2.2 ins outs).Known := by
  unfold ratReference
  simp only [List.forall_mem_cons, List.not_mem_nil, false_imp_iff, implies_true, and_true]
  refine ⟨?_, ?_, ?_, ?_, ?_, ?_, ?_, ?_, ?_, ?_, ?_, ?_, ?_, ?_, ?_⟩ <;> intro ht ins outs hn ho
  · exact ratTest1_known (fun _ => .done) hn
  · exact ratTest1_known (fun _ => .ite (.fails named_undef) .done) hn
  · exact ratTest1_known (fun _ => .done) hn
  · exact ratTest2_known (fun _ _ _ => .done) hn
  · exact ratTest2_known (fun _ _ _ => .done) hn
  · exact ratTest2_known (fun _ _ _ => .done) hn
  · exact ratTest2_known (fun _ _ _ => .ite (.fails named_undef) .done) hn
  · exact ratTest2_known (intArg_known fun _ _ _ => .done) hn
  · exact ratTest2_known (intArg_known fun _ _ _ => .done) hn
  · exact ratTest2_known (intArg_known fun _ _ _ => .done) hn
  · exact ratTest2_known (intArg_known fun _ _ _ => .ite (.fails named_undef) .done) hn
  · exact ratTest2_known (intArg_known fun _ _ _ => .ite .crash (.ite (.stop named_range) (.ite (.fails named_range) .done))) hn
  · exact testQtostr_known hn ho
  · exact absurd (by decide) ht
  · exact testQrdec_known hn

theorem opExptf_known {ins outs : List (List Nat)} (hn : ins.length = 3) : (numTest opExptf ins outs).Known :=
  numTest_known hn fun ss xs hs hx => by
    obtain ⟨i, j, k, rfl⟩ := List.length_eq_three.1 hs
    obtain ⟨x, y, z, rfl⟩ := List.length_eq_three.1 hx
    exact .ite (.fails named_range) (.ite .val (.ite .val .crash))

theorem testEgcd_known {L : Lib} {ins outs : List (List Nat)} (hn : ins.length = 5) : (testEgcd L ins outs).Known :=
  withVals_known fun ss xs os e h1 h2 h3 => by
    have hs := h1 rfl
    rw [hn] at hs
    rw [hs] at h2
    match ss, xs, hs, h2 with
    | [i, j, k, l, q], [x, y, a, b, c], _, _ => exact .ite (judge_known (.fails named_undef)) (.ite (.error named_ok) (.ite .ok wrong_known))

theorem reference_known (L : Lib) : ∀ p ∈ reference L, p.1 ∉ openTests → ∀ ins outs : List (List Nat), ins.length = p.2.1 → outs.length = p.2.2.1 →
    (p.2.2.2 ins outs).Known := by
  unfold reference
  simp only [List.forall_mem_cons, List.not_mem_nil, false_imp_iff, implies_true, and_true]
  refine ⟨?_, ?_, ?_, ?_, ?_, ?_, ?_, ?_, ?_, ?_, ?_, ?_, ?_, ?_, ?_, ?_, ?_, ?_, ?_, ?_, ?_, ?_, ?_, ?_, ?_, ?_, ?_, ?_, ?_, ?_, ?_, ?_, ?_, ?_, ?_, ?_,
    ?_, ?_, ?_, ?_, ?_⟩ <;> intro ht ins outs hn ho
  · exact numTest_known hn fun ss xs _ hx => by
      obtain ⟨x, y, rfl⟩ := List.length_eq_two.1 hx
      exact .ite (.stop named_range) .val
  · exact numTest_known hn fun ss xs _ hx => by
      obtain ⟨x, y, rfl⟩ := List.length_eq_two.1 hx
      exact .asLong .val
  · exact op1_known (fun _ => .val) hn
  · exact op1_known (fun _ => .val) hn
  · exact op2_known (fun _ _ => .val) hn
  · exact op2_known (fun _ _ => .asLong .val) hn
  · exact op2_known (fun _ _ => .val) hn
  · exact op2_known (fun _ _ => .asLong .val) hn
  · exact op2_known (fun _ _ => .val) hn
  · exact op2_known (fun _ _ => .asLong (.ite .crash .val)) hn
  · exact op2_known (fun _ _ => .asLong .val) hn
  · exact op1_known (fun _ => .val) hn
  · exact opDiv_known hn
  · exact absurd (by decide) ht
  · exact testDivv_known hn ho
  · exact op2_known (fun _ _ => .asLong (refExpt_known _ _)) hn
  · exact op2_known (fun _ _ => .asLong (.asLong (refExpt_known _ _))) hn
  · exact opExptf_known hn
  · exact op2_known refMod_known hn
  · exact op2_known refGcd_known hn
  · exact testEgcd_known hn
  · exact op2_known refLcm_known hn
  · exact op1_known (fun _ => .ite (.fails named_undef) .val) hn
  · exact op2_known (fun _ _ => .asLong (refRoot_known _ _)) hn
  · exact op2_known refInvmod_known hn
  · exact op3_known refEmod_known hn
  · exact op3_known (fun _ _ _ => .asLong (refEmod_known _ _ _)) hn
  · exact op3_known (fun _ _ _ => .asLong (refEmod_known _ _ _)) hn
  · exact cmpTest_known fun xs hx => by
      obtain ⟨x, y, rfl⟩ := List.length_eq_two.1 (hx.trans hn)
      simp [cmpXY]
  · exact cmpTest_known fun xs hx => by
      obtain ⟨x, y, rfl⟩ := List.length_eq_two.1 (hx.trans hn)
      simp [cmpU]
  · exact cmpTest_known fun xs hx => by
      obtain ⟨x, rfl⟩ := List.length_eq_one_iff.1 (hx.trans hn)
      simp [cmpZero]
  · exact cmpTest_known fun xs hx => by
      obtain ⟨x, y, rfl⟩ := List.length_eq_two.1 (hx.trans hn)
      obtain ⟨s, t, rfl⟩ := List.length_eq_two.1 hn
      simp [cmpV]
  · exact cmpTest_known fun xs hx => by
      obtain ⟨x, y, rfl⟩ := List.length_eq_two.1 (hx.trans hn)
      obtain ⟨s, t, rfl⟩ := List.length_eq_two.1 hn
      simp [cmpUV]
  · exact testTostr_known hn ho
  · exact binTest_known hn ho
  · exact readTest_known hn
  · exact binTest_known hn ho
  · exact readTest_known hn
  · exact convTest_known (fun _ => .ite .crash (.ite (.fails named_range) .val)) hn ho
  · exact convTest_known (fun _ => .ite (.fails named_range) .val) hn ho
  · exact testPrime_known hn

/-! ### Numerals -/

theorem numeral_head (v : Int) : ∃ c t, numeral 10 v = c :: t ∧ (c = 45 ∨ (48 ≤ c ∧ c ≤ 57)) ∧ ∀ x ∈ c :: t, x = 45 ∨ (48 ≤ x ∧ x ≤ 57) := by
  have hd : ∀ x ∈ numeralN 10 v.natAbs, 48 ≤ x ∧ x ≤ 57 := by
    intro x hx
    unfold numeralN at hx
    split at hx
    · simp at hx; omega
    · rw [List.mem_reverse, List.mem_map] at hx
      obtain ⟨k, hk, rfl⟩ := hx
      have := Nat.digits_lt_base (by norm_num : 1 < 10) hk
      unfold digitChar
      split <;> omega
  have h1 := numeralN_pos 10 v.natAbs (by omega)
  have hm : ∀ x ∈ numeral 10 v, x = 45 ∨ (48 ≤ x ∧ x ≤ 57) := by
    intro x hx
    unfold numeral at hx
    rcases List.mem_append.1 hx with hx | hx
    · split at hx <;> simp at hx
      exact .inl hx
    · exact .inr (hd x hx)
  cases hn : numeral 10 v with
  | nil =>
    have : (numeral 10 v).length = 0 := by rw [hn]; rfl
    unfold numeral at this
    rw [List.length_append] at this
    omega
  | cons c t =>
    rw [hn] at hm
    exact ⟨c, t, rfl, hm c (by simp), hm⟩

theorem trimmed_numeral (v : Int) : trimmed (numeral 10 v) = numeral 10 v := by
  obtain ⟨c, t, hn, hc, hall⟩ := numeral_head v
  rw [hn]
  have hns : ∀ x ∈ c :: t, ¬ IsSpace x := by
    intro x hx
    have := hall x hx
    unfold IsSpace
    omega
  have h1 := (C70_trim_line_as_documented_iff (c :: t)).2 (.inl fun x hx => hns x (by simp at hx; simp [hx]))
  rw [h1]
  have h2 := C70_strip (c :: t)
  obtain ⟨⟨w, w', e, hw, hw'⟩, _, _⟩ := h2
  have w0 : w = [] := by
    cases w with
    | nil => rfl
    | cons a w => exact absurd (hw a (by simp)) (hns a (by rw [e]; simp))
  have w1 : w' = [] := by
    cases w' with
    | nil => rfl
    | cons a w' => exact absurd (hw' a (by simp)) (hns a (by rw [e]; simp))
  rw [w0, w1] at e
  simpa using e.symm

theorem readValue_numeral (v : Int) : readValue (numeral 10 v) = some v := by
  obtain ⟨c, t, hn, hc, hall⟩ := numeral_head v
  have ht : tagged (numeral 10 v) = some (10, numeral 10 v) := by
    rw [hn]
    unfold tagged
    split
    · rename_i h; simp at h; omega
    · rename_i h; simp at h; omega
    · rfl
  unfold readValue
  rw [ht, Option.bind_some]
  dsimp only
  rw [(scanInt_numeral (by norm_num) (by norm_num) v (fun d => not_isDigit_zero) []).1]
  rfl

theorem readIns_numerals : ∀ (xs : List Int) (ss : List Nat) (vs : List Int), vs.length + xs.length ≤ 16 →
    readIns readValue (xs.map (numeral 10)) ss vs = .ok (ss ++ List.range' vs.length xs.length, vs ++ xs)
  | [], ss, vs, _ => by simp [readIns]
  | x :: xs, ss, vs, h => by
    obtain ⟨c, t, hn, hc, hall⟩ := numeral_head x
    rw [List.length_cons] at h
    rw [List.map_cons, readIns, trimmed_numeral]
    have hr := readValue_numeral x
    rw [hn] at hr ⊢
    split
    · rename_i k hk; simp at hk; omega
    · rename_i u hu
      rw [if_neg (by omega), hr]
      dsimp only
      rw [readIns_numerals xs _ _ (by simp; omega)]
      simp [List.range'_succ]

theorem readOuts_numerals {rval : Bool} : ∀ (os : List Int) (pos : Nat) (as : List Int) (e : Int), pos + os.length ≤ 16 →
    readOuts readValue 0 true rval (os.map (numeral 10)) pos as e = .ok (as ++ os, e)
  | [], pos, as, e, _ => by simp [readOuts]
  | x :: os, pos, as, e, h => by
    obtain ⟨c, t, hn, hc, hall⟩ := numeral_head x
    rw [List.length_cons] at h
    rw [List.map_cons, readOuts, trimmed_numeral]
    have hr := readValue_numeral x
    rw [hn] at hr ⊢
    rw [if_neg (by omega)]
    split
    · rename_i hk; simp at hk; omega
    · rename_i k hk; simp at hk; omega
    · rw [if_pos rfl, hr]
      dsimp only
      rw [readOuts_numerals os _ _ _ (by omega)]
      simp

theorem testMeta_known (line : Nat) (ins outs : List (List Nat)) : (testMeta line ins outs).Known :=
  withVals_known fun _ _ _ _ _ _ _ => .ite .crash .ok

theorem withVals_numerals {V : List Nat → List Int → List Int → Int → Verdict} (xs os : List Int) (h : xs.length + os.length ≤ 16) :
    withVals readValue 0 true true true (xs.map (numeral 10)) (os.map (numeral 10)) V = V (List.range xs.length) xs os MP_OK := by
  unfold withVals
  rw [if_pos rfl, readIns_numerals xs [] [] (by simp; omega)]
  dsimp only
  rw [readOuts_numerals os _ _ _ (by simp; omega)]
  dsimp only
  congr 1
  · simp [List.range_eq_range']
  · refine List.ext_getElem? fun i => ?_
    simp only [List.nil_append, List.length_nil, List.getElem?_map]
    by_cases hi : i < xs.length
    · simp [hi]
    · simp [hi]

/-! ### Numerals of rational numbers -/

theorem ratText_head (q : ℚ) : ∃ c t, ratText 10 q = c :: t ∧ (c = 45 ∨ (48 ≤ c ∧ c ≤ 57)) ∧ ∀ x ∈ c :: t, ¬ IsSpace x := by
  obtain ⟨c, t, hn, hc, hall⟩ := numeral_head q.num
  obtain ⟨c', t', hn', hc', hall'⟩ := numeral_head (q.den : Int)
  refine ⟨c, t ++ if q = 0 then [] else 47 :: numeral 10 q.den, by unfold ratText; rw [hn]; rfl, hc, ?_⟩
  have h1 : ∀ x ∈ c :: t, ¬ IsSpace x := fun x hx => by have := hall x hx; unfold IsSpace; omega
  intro x hx
  rw [← List.cons_append] at hx
  rcases List.mem_append.1 hx with hx | hx
  · exact h1 x hx
  · split at hx
    · simp at hx
    · rcases List.mem_cons.1 hx with hx | hx
      · subst hx; simp [IsSpace]
      · rw [hn'] at hx
        have := hall' x hx; unfold IsSpace; omega

theorem trimmed_none {c : Nat} {t : List Nat} (hns : ∀ x ∈ c :: t, ¬ IsSpace x) : trimmed (c :: t) = c :: t := by
  have h1 := (C70_trim_line_as_documented_iff (c :: t)).2 (.inl fun x hx => hns x (by simp at hx; simp [hx]))
  rw [h1]
  have h2 := C70_strip (c :: t)
  obtain ⟨⟨w, w', e, hw, hw'⟩, _, _⟩ := h2
  have w0 : w = [] := by
    cases w with
    | nil => rfl
    | cons a w => exact absurd (hw a (by simp)) (hns a (by rw [e]; simp))
  have w1 : w' = [] := by
    cases w' with
    | nil => rfl
    | cons a w' => exact absurd (hw' a (by simp)) (hns a (by rw [e]; simp))
  rw [w0, w1] at e
  simpa using e.symm

theorem trimmed_ratText (q : ℚ) : trimmed (ratText 10 q) = ratText 10 q := by
  obtain ⟨c, t, hn, _, hall⟩ := ratText_head q
  rw [hn]
  exact trimmed_none hall

theorem readRat_ratText (q : ℚ) : readRat (ratText 10 q) = some q := by
  obtain ⟨c, t, hn, hc, hall⟩ := ratText_head q
  have ht : tagged (ratText 10 q) = some (10, ratText 10 q) := by
    rw [hn]
    unfold tagged
    split
    · rename_i h; simp at h; omega
    · rename_i h; simp at h; omega
    · rfl
  unfold readRat
  rw [ht, Option.bind_some]
  dsimp only
  rw [readNotation_other (by rw [hn]; rintro ⟨u, hu⟩; simp at hu; omega)]
  rw [readFraction_ratText (by norm_num) (by norm_num) q []]
  dsimp only
  rw [if_pos rfl, Rat.num_divInt_den]

theorem readIns_rats : ∀ (xs : List ℚ) (ts : List (List Nat)) (ss : List Nat) (vs : List ℚ), vs.length + xs.length ≤ 16 →
    readIns readRat (xs.map (ratText 10) ++ ts) ss vs = readIns readRat ts (ss ++ List.range' vs.length xs.length) (vs ++ xs)
  | [], ts, ss, vs, _ => by simp
  | x :: xs, ts, ss, vs, h => by
    obtain ⟨c, t, hn, hc, hall⟩ := ratText_head x
    rw [List.length_cons] at h
    rw [List.map_cons, List.cons_append, readIns, trimmed_ratText]
    have hr := readRat_ratText x
    rw [hn] at hr ⊢
    split
    · rename_i k hk; simp at hk; omega
    · rename_i u hu
      rw [if_neg (by omega), hr]
      dsimp only
      rw [readIns_rats xs ts _ _ (by simp; omega)]
      simp [List.range'_succ]

theorem readOuts_rats {rval : Bool} : ∀ (os : List ℚ) (pos : Nat) (as : List ℚ) (e : Int), pos + os.length ≤ 16 →
    readOuts readRat 0 true rval (os.map (ratText 10)) pos as e = .ok (as ++ os, e)
  | [], pos, as, e, _ => by simp [readOuts]
  | x :: os, pos, as, e, h => by
    obtain ⟨c, t, hn, hc, hall⟩ := ratText_head x
    rw [List.length_cons] at h
    rw [List.map_cons, readOuts, trimmed_ratText]
    have hr := readRat_ratText x
    rw [hn] at hr ⊢
    rw [if_neg (by omega)]
    split
    · rename_i hk; simp at hk; omega
    · rename_i k hk; simp at hk; omega
    · rw [if_pos rfl, hr]
      dsimp only
      rw [readOuts_rats os _ _ _ (by omega)]
      simp

theorem withVals_rats {V : List Nat → List ℚ → List ℚ → Int → Verdict} (xs os : List ℚ) (h : xs.length + os.length ≤ 16) :
    withVals readRat 0 true true true (xs.map (ratText 10)) (os.map (ratText 10)) V = V (List.range xs.length) xs os MP_OK := by
  unfold withVals
  have := readIns_rats xs [] [] [] (by simp; omega)
  rw [List.append_nil] at this
  rw [if_pos rfl, this, readIns]
  dsimp only
  rw [readOuts_rats os _ _ _ (by simp; omega)]
  dsimp only
  congr 1
  · simp [List.range_eq_range']
  · refine List.ext_getElem? fun i => ?_
    simp only [List.nil_append, List.length_nil, List.getElem?_map]
    by_cases hi : i < xs.length
    · simp [hi]
    · simp [hi]

/-- The result replaces the second operand. -/
theorem withVals_rats_ref {V : List Nat → List ℚ → List ℚ → Int → Verdict} (x y : ℚ) (os : List ℚ) (h : os.length ≤ 14) :
    withVals readRat 0 true true true [ratText 10 x, ratText 10 y, chars "=2"] (os.map (ratText 10)) V = V [0, 1, 1] [x, y, y] os MP_OK := by
  unfold withVals
  have := readIns_rats [x, y] [chars "=2"] [] [] (by simp)
  rw [show [ratText 10 x, ratText 10 y, chars "=2"] = [x, y].map (ratText 10) ++ [chars "=2"] from rfl, if_pos rfl, this]
  have e : readIns readRat [chars "=2"] ([] ++ List.range' ([] : List ℚ).length [x, y].length) ([] ++ [x, y]) = .ok ([0, 1, 1], [x, y]) := rfl
  rw [e]
  dsimp only
  rw [readOuts_rats os _ _ _ (by simp; omega)]
  rfl

theorem ratTest2_texts (f : Bool → ℚ → ℚ → QRes) (x y w z : ℚ) :
    ratTest2 f [ratText 10 x, ratText 10 y, ratText 10 w] [ratText 10 z] = judgeQ MP_OK (f false x y) [z] := by
  unfold ratTest2
  exact withVals_rats [x, y, w] [z] (by simp)

theorem ratTest2_texts_ref (f : Bool → ℚ → ℚ → QRes) (x y z : ℚ) :
    ratTest2 f [ratText 10 x, ratText 10 y, chars "=2"] [ratText 10 z] = judgeQ MP_OK (f true x y) [z] := by
  unfold ratTest2
  exact withVals_rats_ref x y [z] (by simp)

end Imath
