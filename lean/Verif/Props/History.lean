import Verif.Proof.History

/-!
# Properties C12 - C16 and C50: what holds after every history of calls

The calls, programs and their meaning in terms of integers (`Step`, `Admissible`, `Leads`) are in
`Verif/SpecHistory.lean`.  `Admissible` excludes the calls for which the library is known to misbehave;
therefore the theorems are called partial, and the exclusions that matter are shown by witnesses.
-/

namespace Imath

variable {env env' : Env} {m m' : Mem} {ρ ρ' : Nat → Option Int} {p : Prog} {c : Call} {out : List Int}

/-! ### Two programs to which the theorems apply -/

/-- Squares a number twice and, depending on a comparison, divides. -/
def demoProg : Prog :=
  .call (.init 0) fun _ => .call (.initValue 1 (-12345)) fun _ => .call (.mul 1 1 0) fun _ => .call (.mul 0 0 0) fun _ =>
  .call (.compareZero 0) fun o =>
    if o = [1] then .call (.div 0 1 (some 0) (some 1)) fun _ => .call (.clear 0) fun _ => .call (.clear 1) fun _ => .done
    else .call (.add 0 0 77) fun _ => .done

theorem demoProg_leads : ∃ ρ', DLeads (fun _ => none) demoProg [[0], [0], [0], [0], [1], [0], [], []] ρ' ∧ ∀ n, ρ' n = none := by
  refine ⟨_, .call (.init rfl) <| .call (.initValue rfl (by unfold Small; omega)) <| .call (.mul rfl rfl rfl) <|
    .call (.mul rfl rfl rfl) <| .call (out := [1]) (ρ' := put (put (put (put (fun _ => none) 0 0) 1 (-12345)) 0 ((-12345) * (-12345)))
      0 ((-12345) * (-12345) * ((-12345) * (-12345)))) ?_ <|
    .call (.div (y := -12345) rfl rfl (by decide) (by rintro n ⟨⟩; exact ⟨_, rfl⟩) (by rintro n ⟨⟩; exact ⟨_, rfl⟩) (by decide)) <|
    .call (.clear rfl) <| .call (.clear rfl) .done, fun n => ?_⟩
  · have h := DStep.compareZero (ρ := put (put (put (put (fun _ => none) 0 0) 1 (-12345)) 0 ((-12345) * (-12345)))
      0 ((-12345) * (-12345) * ((-12345) * (-12345)))) (a := 0) (x := (-12345) * (-12345) * ((-12345) * (-12345))) rfl
    rw [show cmp3 ((-12345) * (-12345) * ((-12345) * (-12345))) 0 = 1 by decide] at h
    exact h
  · unfold del putOpt put
    by_cases h0 : n = 0 <;> by_cases h1 : n = 1 <;> simp [h0, h1]

/-- Asks for the length of a numeral and converts into a buffer of that length; the course of the
program depends on the answer, which is not determined. -/
def demoString : Prog :=
  .call (.stringLen 0 10) fun o =>
  .call (.toString 0 10 (List.replicate (o.headD 0 + 1).toNat 0) (o.headD 0)) fun _ => .done

theorem demoString_admissible : Admissible demo demoString := by
  have hl : 31 ≤ (numeral 10 (2 ^ 100 + 1)).length := by decide +kernel
  refine .call ⟨[40], demo, .inr (.inr (.stringLen (x := 2 ^ 100 + 1) rfl (by norm_num) (by norm_num) ?_))⟩ ?_
  · have : (numeral 10 (2 ^ 100 + 1)).length ≤ 40 := by decide +kernel
    exact_mod_cast this
  · rintro out ρ' (h | h | h)
    · cases h
    · cases h
    · cases h with
      | @stringLen _ _ x n ha hr1 hr2 hn =>
        have hx : x = 2 ^ 100 + 1 := by cases ha; rfl
        subst hx
        refine .call ?_ fun _ _ _ => .done
        have hlen : (List.replicate (n + 1).toNat 0).length = (n + 1).toNat := by simp
        show ∃ out ρ', Step demo (.toString 0 10 (List.replicate (n + 1).toNat 0) n) out ρ'
        by_cases hf : ((numeral 10 (2 ^ 100 + 1)).length : Int) + 1 ≤ n
        · exact ⟨_, _, .inl (.toString rfl hr1 hr2 (by omega) hf (by rw [hlen]; omega))⟩
        · exact ⟨_, _, .inl (.toStringTrunc rfl hr1 hr2 (by omega) (by omega) (by rw [hlen]; omega))⟩

/-- A memory in which no variable is initialised and nothing is allocated. -/
theorem start_state : ∃ m, State m fun _ => none :=
  exists_state _ 0 (fun _ _ => rfl) fun _ _ h => by cases h

/-! ### C13 and C50 -/

/-- Every admissible program runs to its end without undefined behaviour, failing assertion or
divergence, and what it returns and leaves behind is right - or the allocator refuses a request and the
process aborts.

Missing from the full property: the calls that are not admissible (see the witnesses in the files on the
respective functions, and `C13_fake_min`, `C13_init_size_max`). -/
theorem C13_history_partial (h : State m ρ) (hp : Admissible ρ p) :
    Runs env p.exec m fun outs m' => ∃ ρ', Leads ρ p outs ρ' ∧ State m' ρ' := prog_sound hp h

/-- The same for a program that starts with nothing initialised. -/
theorem C13_from_start_partial (h : State m fun _ => none) (hp : Admissible (fun _ => none) p) :
    Runs env p.exec m fun outs m' => ∃ ρ', Leads (fun _ => none) p outs ρ' ∧ State m' ρ' := prog_sound hp h

/-- No refused request can make a wrong result: every result of a program is one it should have. -/
theorem C50_oom_partial {outs : List (List Int)} (h : State m ρ) (hp : Admissible ρ p) (hr : p.exec env m = .ok outs m') :
    ∃ ρ', Leads ρ p outs ρ' ∧ State m' ρ' := by
  have := prog_sound (env := env) hp h
  unfold Runs at this
  rw [hr] at this
  exact this

/-- If a program does not come to its end, a request was refused. -/
theorem C50_abort_partial {e : Fault} (h : State m ρ) (hp : Admissible ρ p) (hr : p.exec env m = .fault e) :
    ∃ n j, e = .oom n ∧ env.grant j n = false := by
  have := prog_sound (env := env) hp h
  unfold Runs at this
  rw [hr] at this
  cases e with
  | oom n => obtain ⟨j, hj⟩ := this; exact ⟨n, j, rfl, hj⟩
  | assert => exact this.elim
  | ub => exact this.elim
  | diverge => exact this.elim

example : ∃ m, State m demo ∧ Runs env demoString.exec m fun outs m' => ∃ ρ', Leads demo demoString outs ρ' ∧ State m' ρ' :=
  let ⟨m, h⟩ := demo_state; ⟨m, h, C13_history_partial h demoString_admissible⟩

/-- The least value of type `mp_small` has no negative: the `*_value` functions and `mp_int_set_value`
convert it by `value = -value`, which is undefined (imath.c:1711-1717). -/
theorem C13_fake_min : faultOf (mp_int_set_value (.var 0) (-2 ^ 63)) [0] = some .ub ∧
    faultOf (mp_int_add_value (.var 0) (-2 ^ 63) (.var 0)) [0] = some .ub := by decide +kernel

/-- `mp_int_init_size(z, UINT_MAX)`: rounding up to an even number gives zero, and the first digit of
the block of no digits is written (imath.c:388-408). -/
theorem C13_init_size_max : faultOf (mp_int_init_size (.var 0) (2 ^ 32 - 1)) [] = some .ub := by decide +kernel

/-! ### C12 -/

/-- The members of an integer that make up its representation. -/
def Reps (m : Mem) (z : Id) (used : Nat) (neg : Bool) (digits : List Nat) : Prop :=
  ∃ Z p l, m.int z = some Z ∧ Z.digits = some p ∧ p.off = 0 ∧ m.dig p.base = some l ∧ Z.used = used ∧ Z.neg = neg ∧
    l.take Z.used = digits

/-- After every admissible program all initialised integers are canonical (`Holds`).

Missing from the full property: calls that are not admissible.  One of them violates it, `C09_negative_zero`. -/
theorem C12_canonical_partial (h : State m ρ) (hp : Admissible ρ p) :
    Runs env p.exec m fun outs m' => ∃ ρ', Leads ρ p outs ρ' ∧ ∀ n v, ρ' n = some v → Holds m' (.var n) v :=
  (prog_sound hp h).mono fun _ _ ⟨ρ', hl, h'⟩ => ⟨ρ', hl, fun _ _ hv => h'.holds hv⟩

/-- A canonical representation is determined by the value. -/
theorem C12_unique {v : Int} : ∃ used neg digits, ∀ m z, Holds m z v → Reps m z used neg digits := by
  refine ⟨if v = 0 then 1 else (Nat.digits (2 ^ 32) v.natAbs).length, decide (v < 0),
    if v = 0 then [0] else Nat.digits (2 ^ 32) v.natAbs, fun m z hh => ?_⟩
  obtain ⟨Z, p, l, hZ, hp, h0, hl, -, -, hd, hu1, hu2, hlast, hv, hneg⟩ := hh
  have hn : v.natAbs = Nat.ofDigits (2 ^ 32) (l.take Z.used) := by
    rw [hv]; split <;> simp [Int.natAbs_neg]
  have hsign : Z.neg = decide (v < 0) := by
    cases hz : Z.neg with
    | true =>
      have h1 := hneg hz
      rw [hz] at hv
      simp only [if_true] at hv
      have : v < 0 := by omega
      simp [this]
    | false =>
      rw [hz] at hv
      simp only [Bool.false_eq_true, if_false] at hv
      have : ¬ v < 0 := by omega
      simp [this]
  have hlen : (l.take Z.used).length = Z.used := by rw [List.length_take]; omega
  by_cases hz : v = 0
  · rw [if_pos hz, if_pos hz]
    have hone : l.take Z.used = [0] := by
      have hz' : Nat.ofDigits (2 ^ 32) (l.take Z.used) = 0 := by rw [← hn, hz]; rfl
      have hall := Nat.digits_zero_of_eq_zero (by norm_num) hz'
      have hu : Z.used = 1 := by
        by_contra hne
        refine hlast (by omega) ?_
        have hlt : Z.used - 1 < l.length := by omega
        rw [List.getElem?_eq_getElem hlt]
        have hm : l[Z.used - 1] ∈ l.take Z.used := by
          rw [List.mem_take_iff_getElem]
          exact ⟨Z.used - 1, by omega, rfl⟩
        rw [hall _ hm]
      rw [hu] at hall ⊢
      match l, hu2 with
      | [], h => simp at h; omega
      | d :: l, _ =>
        have := hall d (by simp)
        rw [this]; rfl
    have hu : Z.used = 1 := by rw [← hlen, hone]; rfl
    exact ⟨Z, p, l, hZ, hp, h0, hl, hu, hsign, hone⟩
  · rw [if_neg hz, if_neg hz]
    have hdig : Nat.digits (2 ^ 32) v.natAbs = l.take Z.used := by
      rw [hn]
      refine Nat.digits_ofDigits _ (by norm_num) _ (fun d hd' => hd d (List.mem_of_mem_take hd')) fun hne => ?_
      intro hl0
      by_cases hu : 1 < Z.used
      · refine hlast hu ?_
        rw [List.getLast_eq_getElem] at hl0
        have hlt : Z.used - 1 < l.length := by omega
        rw [List.getElem?_eq_getElem hlt]
        have : (l.take Z.used)[(l.take Z.used).length - 1]'(by omega) = l[Z.used - 1] := by
          simp only [List.getElem_take, hlen]
        rw [← this, hl0]
      · have hu : Z.used = 1 := by omega
        have : l.take Z.used = [0] := by
          rw [List.getLast_eq_getElem] at hl0
          refine List.ext_getElem (by rw [hlen, hu]; rfl) fun i h1 h2 => ?_
          have hi : i = (l.take Z.used).length - 1 := by rw [hlen]; simp at h2; omega
          subst hi
          rw [hl0]
          simp
        rw [this] at hn
        simp at hn
        exact hz hn
    exact ⟨Z, p, l, hZ, hp, h0, hl, by rw [hdig, hlen], hsign, hdig.symm⟩

example : ∃ m, State m demo ∧ Runs env demoString.exec m fun outs m' => ∃ ρ', Leads demo demoString outs ρ' ∧
    ∀ n v, ρ' n = some v → Holds m' (.var n) v :=
  let ⟨m, h⟩ := demo_state; ⟨m, h, C12_canonical_partial h demoString_admissible⟩

/-! ### C14 -/

/-- After every admissible program the live blocks of the heap are exactly the digits of initialised
variables that are not stored in the variable itself, and no two variables share a block. -/
theorem C14_no_leak_partial (h : State m ρ) (hp : Admissible ρ p) :
    Runs env p.exec m fun outs m' => ∃ ρ', Leads ρ p outs ρ' ∧
      ∀ k, (∃ l, m'.dig (.heap k) = some l) ↔
        ∃ n v Z p, ρ' n = some v ∧ m'.int (.var n) = some Z ∧ Z.digits = some p ∧ p.base = .heap k := by
  refine (prog_sound hp h).mono fun _ m' ⟨ρ', hl, h'⟩ => ⟨ρ', hl, fun k => ⟨fun ⟨l, hk⟩ => h'.noleak hk, ?_⟩⟩
  rintro ⟨n, v, Z, q, hv, hZ, hq, hk⟩
  obtain ⟨Z', q', l, hZ', hq', -, hl', -⟩ := h'.holds hv
  rw [hZ] at hZ'; cases hZ'
  rw [hq] at hq'; cases hq'
  exact ⟨l, by rw [← hk]; exact hl'⟩

/-- A program that clears all its variables leaves nothing allocated. -/
theorem C14_all_cleared_partial (h : State m ρ) (hp : Admissible ρ p) :
    Runs env p.exec m fun outs m' => ∃ ρ', Leads ρ p outs ρ' ∧ ((∀ n, ρ' n = none) → ∀ k, m'.dig (.heap k) = none) := by
  refine (prog_sound hp h).mono fun _ m' ⟨ρ', hl, h'⟩ => ⟨ρ', hl, fun hn k => ?_⟩
  cases hk : m'.dig (.heap k) with
  | none => rfl
  | some l =>
    obtain ⟨n, v, _, _, hv, _⟩ := h'.noleak hk
    rw [hn n] at hv; cases hv

example : ∃ m, State m (fun _ => none) ∧ Runs env demoProg.exec m fun outs m' =>
    outs = [[0], [0], [0], [0], [1], [0], [], []] ∧ ∀ k, m'.dig (.heap k) = none := by
  obtain ⟨m, h⟩ := start_state
  obtain ⟨ρ', hl, hn⟩ := demoProg_leads
  refine ⟨m, h, (dprog_sound hl h).mono fun outs m' hh => ⟨hh.1, fun k => ?_⟩⟩
  cases hk : m'.dig (.heap k) with
  | none => rfl
  | some l =>
    obtain ⟨n, v, _, _, hv, _⟩ := hh.2.noleak hk
    rw [hn n] at hv; cases hv

/-! ### C15 -/

theorem step_frame (hs : Step ρ c out ρ') : ∀ n, n ∉ c.outs → ρ' n = ρ n := by
  have hput : ∀ (ρ : Nat → Option Int) k v n, n ≠ k → put ρ k v n = ρ n := fun ρ k v n hn => if_neg hn
  have hdel : ∀ (ρ : Nat → Option Int) k n, n ≠ k → del ρ k n = ρ n := fun ρ k n hn => if_neg hn
  have hO : ∀ (ρ : Nat → Option Int) q v n, n ∉ q.toList → putOpt ρ q v n = ρ n := by
    intro ρ q v n hn
    cases q with
    | none => rfl
    | some k => exact hput _ _ _ _ (by simpa using hn)
  intro n hn
  rcases hs with hs | hs | hs <;> cases hs <;>
    simp only [Call.outs, List.mem_append, List.mem_cons, List.not_mem_nil, or_false, not_or] at hn <;>
    first
    | rfl
    | exact hput _ _ _ _ hn
    | exact hdel _ _ _ hn
    | exact hO _ _ _ _ hn
    | exact (hput _ _ _ _ hn.2).trans (hput _ _ _ _ hn.1)
    | exact (hO _ _ _ _ hn.2).trans (hO _ _ _ _ hn.1)
    | exact (hput _ _ _ _ hn.1).trans ((hO _ _ _ _ hn.2.2).trans (hO _ _ _ _ hn.2.1))
    | exact (hput _ _ _ _ hn.1).trans ((hput _ _ _ _ (by simpa using hn.2.2)).trans (hput _ _ _ _ (by simpa using hn.2.1)))
    | exact (hput _ _ _ _ (by simpa using hn.2)).trans (hput _ _ _ _ (by simpa using hn.1))
    | exact (hput _ _ _ _ (by simpa using hn.2)).trans ((hput _ _ _ _ (by simpa using hn.1.2)).trans (hput _ _ _ _ (by simpa using hn.1.1)))
    | exact (hput _ _ _ _ (by simpa using hn.1.1)).trans ((hput _ _ _ _ (by simpa using hn.2)).trans (hput _ _ _ _ (by simpa using hn.1.2)))
    | exact (hput _ _ _ _ hn.1.1).trans ((hO _ _ _ _ hn.2).trans (hO _ _ _ _ hn.1.2))

/-- A call leaves every variable that is not one of its output arguments as it was. -/
theorem C15_frame_partial (h : State m ρ) (hs : ∃ out ρ', Step ρ c out ρ') :
    Runs env c.exec m fun _ m' => ∃ ρ', State m' ρ' ∧ ∀ n, n ∉ c.outs → ρ' n = ρ n := by
  obtain ⟨out, ρ1, hs⟩ := hs
  exact (step_sound hs h).mono fun _ _ ⟨ρ', h1, h2⟩ => ⟨ρ', h2, step_frame h1⟩

example : ∃ m, State m demo ∧ Runs env (Call.egcd 0 1 2 (some 3) none).exec m fun _ m' => ∃ ρ', State m' ρ' ∧
    ∀ n, n ∉ [2, 3] → ρ' n = demo n := by
  obtain ⟨m, h⟩ := demo_state
  refine ⟨m, h, C15_frame_partial h ⟨_, _, .inr (.inr (.egcd rfl rfl rfl (by norm_num) (by norm_num) (by rintro n ⟨⟩; exact ⟨_, rfl⟩)
    (by rintro n ⟨⟩) (.inl (by simp)) (P := Int.gcdA |2 ^ 100 + 1| |-2 ^ 70|) (R := Int.gcdB |2 ^ 100 + 1| |-2 ^ 70|) ?_))⟩⟩
  rw [← Int.gcd_eq_gcd_ab]
  simp [Int.gcd]

/-! ### C16 -/

/-- What a program returns and computes is a function of the values it starts with: two runs of it, with
different allocators, different contents of new memory, different amounts of memory reserved for the
variables, different default precision and different multiplication threshold, return the same and end
with the same values.  (`env.fl` is how arithmetic with `double` rounds; `mp_int_string_len` uses it.)

Missing from the full property: calls that are not admissible. -/
theorem C16_deterministic_partial {m₁ m₂ m₁' m₂' : Mem} {o₁ o₂ : List (List Int)} (hp : Admissible ρ p) (hfl : env.fl = env'.fl)
    (h₁ : State m₁ ρ) (h₂ : State m₂ ρ) (hr₁ : p.exec env m₁ = .ok o₁ m₁') (hr₂ : p.exec env' m₂ = .ok o₂ m₂') :
    o₁ = o₂ ∧ ∃ ρ', Leads ρ p o₁ ρ' ∧ State m₁' ρ' ∧ State m₂' ρ' := prog_det hfl hp h₁ h₂ hr₁ hr₂

/-- For programs that call neither `mp_int_egcd` with two operands other than zero nor `mp_int_string_len`,
and so have only calls of whose outcome everything is stated (`DStep`), the rounding does not matter. -/
theorem C16_exact_partial {m₁ m₂ m₁' m₂' : Mem} {outs o₁ o₂ : List (List Int)} (hp : DLeads ρ p outs ρ')
    (h₁ : State m₁ ρ) (h₂ : State m₂ ρ) (hr₁ : p.exec env m₁ = .ok o₁ m₁') (hr₂ : p.exec env' m₂ = .ok o₂ m₂') :
    o₁ = o₂ ∧ ∀ n v, ρ' n = some v → Holds m₁' (.var n) v ∧ Holds m₂' (.var n) v := by
  have e₁ := dprog_sound (env := env) hp h₁
  have e₂ := dprog_sound (env := env') hp h₂
  unfold Runs at e₁ e₂
  rw [hr₁] at e₁
  rw [hr₂] at e₂
  exact ⟨e₁.1.trans e₂.1.symm, fun n v hv => ⟨e₁.2.holds hv, e₂.2.holds hv⟩⟩

/-- The same, run by run. -/
theorem C16_results_partial {outs : List (List Int)} (hp : DLeads ρ p outs ρ') (h : State m ρ) :
    Runs env p.exec m fun o m' => o = outs ∧ State m' ρ' := dprog_sound hp h

/-- Changing the tuning parameters is one of the calls a program can make; it has no effect on values. -/
theorem C16_tuning {n : Nat} (h : State m ρ) :
    (0 < n → n < 2 ^ 32 - 1 → Runs env (mp_int_default_precision n) m fun _ m' => State m' ρ) ∧
    (8 ≤ n → Runs env (mp_int_multiply_threshold n) m fun _ m' => State m' ρ) :=
  ⟨h.default_precision, h.multiply_threshold⟩

/-- The rounding of `double` and all else that matters being equal, a program that uses `mp_int_string_len` and
converts into a buffer of that length does the same with every allocator. -/
example {m₁ m₂ m₁' m₂' : Mem} {o₁ o₂ : List (List Int)} (hfl : env.fl = env'.fl) (h₁ : State m₁ demo) (h₂ : State m₂ demo)
    (hr₁ : demoString.exec env m₁ = .ok o₁ m₁') (hr₂ : demoString.exec env' m₂ = .ok o₂ m₂') : o₁ = o₂ :=
  (C16_deterministic_partial demoString_admissible hfl h₁ h₂ hr₁ hr₂).1

example : (match demoString.exec env0 (memOf [2 ^ 100 + 1, -2 ^ 70, 0, -7]) with
    | .ok o _ => o.map (·.take 3)
    | _ => []) = [[32], [0, 49, 50]] := by decide +kernel

example : ∃ m ρ', State m (fun _ => none) ∧ Runs env demoProg.exec m fun o m' =>
    o = [[0], [0], [0], [0], [1], [0], [], []] ∧ State m' ρ' :=
  let ⟨m, h⟩ := start_state
  let ⟨ρ', hl, _⟩ := demoProg_leads
  ⟨m, ρ', h, C16_results_partial hl h⟩

end Imath
