import Verif.Proof.RatHistory

/-!
# Property C37 after every history of calls with rationals (and C13, C14, C15 for these)

Programs of calls with rational and integer variables, and their meaning in terms of rational numbers
(`QStep`, `QAdmissible`, `QLeads`), are in `Verif/SpecRatHistory.lean`.  Rational variable `k` consists
of the integer variables `3 k` (numerator) and `3 k + 1` (denominator).
-/

namespace Imath

variable {env : Env} {m : Mem} {κ κ' : Nat → Option ℚ} {ι ι' : Nat → Option Int} {p : QProg} {c : QCall}

/-! ### A program to which the theorems apply -/

/-- Computes `(-6/4 + 5/3) * 12 = 2`, whose denominator shrinks to 1, and then goes on differently
depending on a comparison. -/
def demoRat : QProg :=
  .call (.init 0) fun _ => .call (.init 1) fun _ => .call (.setValue 0 (-6) 4) fun _ => .call (.setValue 1 10 6) fun _ =>
  .call (.add 0 1 0) fun _ => .call (.int (.initValue 2 12)) fun _ => .call (.mulInt 0 2 0) fun _ =>
  .call (.compare 0 1) fun o =>
    if o = [1] then .call (.sub 0 0 1) fun _ => .call (.clear 0) fun _ => .done
    else .call (.recip 1 1) fun _ => .done

theorem int_only {ρ ρ' : Nat → Option Int} {n : Nat} {v : Int} {out : List Int} (h : Step ρ (.initValue n v) out ρ') :
    out = [MP_OK] ∧ ρ' = put ρ n v := by
  rcases h with h | h | h
  · cases h; exact ⟨rfl, rfl⟩
  · cases h
  · cases h

theorem demoRat_admissible : QAdmissible (fun _ => none) (fun _ => none) demoRat := by
  refine .call ⟨_, _, _, .init rfl⟩ fun o κ ι h => ?_
  cases h
  refine .call ⟨_, _, _, .init rfl⟩ fun o κ ι h => ?_
  cases h
  refine .call ⟨_, _, _, .setValue (w := 0) rfl (by unfold Small; omega) (by unfold Small; omega) (by omega)⟩ fun o κ ι h => ?_
  cases h
  refine .call ⟨_, _, _, .setValue (w := 0) rfl (by unfold Small; omega) (by unfold Small; omega) (by omega)⟩ fun o κ ι h => ?_
  cases h
  refine .call ⟨_, _, _, .add rfl rfl rfl⟩ fun o κ ι h => ?_
  cases h with | add h1 h2 h3 => ?_
  cases h1; cases h2; cases h3
  refine .call ⟨_, _, _, .int (c := .initValue 2 12) (.inl (.initValue rfl (by unfold Small; omega)))
    (by simp [Call.outs])⟩ fun o κ ι h => ?_
  cases h with | int hs ho => ?_
  obtain ⟨-, rfl⟩ := int_only hs
  refine .call ⟨_, _, _, .mulInt rfl rfl rfl (by omega) (by omega)⟩ fun o κ ι h => ?_
  cases h with
  | mulIntNum _ _ e => omega
  | mulIntDen _ _ e => omega
  | mulInt h1 h2 h3 h4 h5 => ?_
  cases h1; cases h2; cases h3
  refine .call ⟨_, _, _, .compare rfl rfl⟩ fun o κ ι h => ?_
  cases h with | compare h1 h2 => ?_
  cases h1; cases h2
  split
  · refine .call ⟨_, _, _, .sub rfl rfl rfl⟩ fun o κ ι h => ?_
    cases h with | sub h1 h2 h3 => ?_
    exact .call ⟨_, _, _, .clear rfl⟩ fun o κ ι h => .done
  · exact .call ⟨_, _, _, .recip rfl rfl (by norm_num)⟩ fun o κ ι h => .done

theorem start_flat : ∃ m, State m (flat (fun _ => none) fun _ => none) := by
  obtain ⟨m, h⟩ := start_state
  refine ⟨m, ?_⟩
  rwa [← flat_ext (ρ := fun _ => none) (κ := fun _ => none) (ι := fun _ => none) (fun _ => rfl) (fun _ => rfl) fun _ => rfl]

/-! ### C37 -/

/-- After every admissible program, every initialised rational `q` is stored in lowest terms with a
positive denominator: numerator and denominator hold coprime integers with quotient `q`, and zero is
stored as `0/1`.

Missing from the full property: calls that are not admissible, see `C37_reduce_zero`,
`C41_read_string_unreduced`.  The calls of `C38_mul_int_alias` and `C38_div_int_alias` are admissible, with the outcome the code has. -/
theorem C37_history_partial (h : State m (flat κ ι)) (hp : QAdmissible κ ι p) :
    Runs env p.exec m fun outs m' => ∃ κ' ι', QLeads κ ι p outs κ' ι' ∧
      ∀ k q, κ' k = some q → ∃ x y : Int, Holds m' (.var (3 * k)) x ∧ Holds m' (.var (3 * k + 1)) y ∧
        0 < y ∧ Int.gcd x y = 1 ∧ (x = 0 → y = 1) ∧ q = x / y := by
  refine (qprog_sound hp h).mono fun _ m' ⟨κ', ι', hl, h'⟩ => ⟨κ', ι', hl, fun k q hk => ⟨q.num, q.den, ?_⟩⟩
  refine ⟨h'.holds (by rw [flat_num, hk]; rfl), h'.holds (by rw [flat_den, hk]; rfl), by have := q.den_pos; omega, ?_, ?_, ?_⟩
  · exact q.reduced
  · intro h0
    rw [Rat.num_eq_zero.1 h0]; rfl
  · rw [Int.cast_natCast, Rat.num_div_den]

example : ∃ m, State m (flat (fun _ => none) fun _ => none) ∧ Runs env demoRat.exec m fun outs m' => ∃ κ' ι',
    QLeads (fun _ => none) (fun _ => none) demoRat outs κ' ι' ∧
      ∀ k q, κ' k = some q → ∃ x y : Int, Holds m' (.var (3 * k)) x ∧ Holds m' (.var (3 * k + 1)) y ∧
        0 < y ∧ Int.gcd x y = 1 ∧ (x = 0 → y = 1) ∧ q = x / y :=
  let ⟨m, h⟩ := start_flat; ⟨m, h, C37_history_partial h demoRat_admissible⟩

/-! ### C13, C14 and C50 for programs with rationals -/

/-- Every admissible program with rationals runs to its end without undefined behaviour, failing
assertion or divergence, and what it returns and leaves behind is right - or the allocator refuses a
request and the process aborts. -/
theorem C13_rat_history_partial (h : State m (flat κ ι)) (hp : QAdmissible κ ι p) :
    Runs env p.exec m fun outs m' => ∃ κ' ι', QLeads κ ι p outs κ' ι' ∧ State m' (flat κ' ι') := qprog_sound hp h

example : ∃ m, State m (flat (fun _ => none) fun _ => none) ∧ Runs env demoRat.exec m fun outs m' => ∃ κ' ι',
    QLeads (fun _ => none) (fun _ => none) demoRat outs κ' ι' ∧ State m' (flat κ' ι') :=
  let ⟨m, h⟩ := start_flat; ⟨m, h, C13_rat_history_partial h demoRat_admissible⟩

/-- Two runs of an admissible program with rationals, from memories that hold the same values but may
differ in everything else - allocations, junk in fresh blocks, stored zeros - return the same and leave
the same values. -/
theorem C16_rat_deterministic_partial {env' : Env} {m₁ m₂ m₁' m₂' : Mem} {o₁ o₂ : List (List Int)}
    (hp : QAdmissible κ ι p) (hfl : env.fl = env'.fl) (h₁ : State m₁ (flat κ ι)) (h₂ : State m₂ (flat κ ι))
    (hr₁ : p.exec env m₁ = .ok o₁ m₁') (hr₂ : p.exec env' m₂ = .ok o₂ m₂') :
    o₁ = o₂ ∧ ∃ κ' ι', QLeads κ ι p o₁ κ' ι' ∧ State m₁' (flat κ' ι') ∧ State m₂' (flat κ' ι') :=
  qprog_det hfl hp h₁ h₂ hr₁ hr₂

example {env' : Env} {m₁ m₂ m₁' m₂' : Mem} {o₁ o₂ : List (List Int)} (hfl : env.fl = env'.fl)
    (h₁ : State m₁ (flat (fun _ => none) fun _ => none)) (h₂ : State m₂ (flat (fun _ => none) fun _ => none))
    (hr₁ : demoRat.exec env m₁ = .ok o₁ m₁') (hr₂ : demoRat.exec env' m₂ = .ok o₂ m₂') : o₁ = o₂ :=
  (C16_rat_deterministic_partial demoRat_admissible hfl h₁ h₂ hr₁ hr₂).1

/-- A program with rationals that clears all its variables leaves nothing allocated. -/
theorem C14_rat_cleared_partial (h : State m (flat κ ι)) (hp : QAdmissible κ ι p) :
    Runs env p.exec m fun outs m' => ∃ κ' ι', QLeads κ ι p outs κ' ι' ∧
      ((∀ n, κ' n = none) → (∀ n, ι' n = none) → ∀ k, m'.dig (.heap k) = none) := by
  refine (qprog_sound hp h).mono fun _ m' ⟨κ', ι', hl, h'⟩ => ⟨κ', ι', hl, fun hn hi k => ?_⟩
  cases hk : m'.dig (.heap k) with
  | none => rfl
  | some l =>
    obtain ⟨n, v, _, _, hv, _⟩ := h'.noleak hk
    rw [← flat_ext (ρ := fun _ => none) (κ := κ') (ι := ι') (fun k => by rw [hn k]; rfl) (fun k => by rw [hn k]; rfl)
      fun k => (hi k).symm] at hv
    cases hv

/-- A program that clears what it has initialised. -/
def demoRatClear : QProg :=
  .call (.init 0) fun _ => .call (.setValue 0 (-6) 4) fun _ => .call (.mul 0 0 0) fun _ => .call (.clear 0) fun _ => .done

example : ∃ m, State m (flat (fun _ => none) fun _ => none) ∧ Runs env demoRatClear.exec m fun _ m' =>
    ∀ k, m'.dig (.heap k) = none := by
  obtain ⟨m, h⟩ := start_flat
  refine ⟨m, h, (C14_rat_cleared_partial h ?_).mono fun o m' ⟨κ', ι', hl, hh⟩ => ?_⟩
  · refine .call ⟨_, _, _, .init rfl⟩ fun o κ ι h => ?_
    cases h
    refine .call ⟨_, _, _, .setValue (w := 0) rfl (by unfold Small; omega) (by unfold Small; omega) (by omega)⟩ fun o κ ι h => ?_
    cases h
    refine .call ⟨_, _, _, .mul rfl rfl rfl⟩ fun o κ ι h => ?_
    cases h
    exact .call ⟨_, _, _, .clear rfl⟩ fun o κ ι h => .done
  · cases hl with | call h1 hl => ?_
    cases h1
    cases hl with | call h2 hl => ?_
    cases h2
    cases hl with | call h3 hl => ?_
    cases h3
    cases hl with | call h4 hl => ?_
    cases h4
    cases hl
    refine hh (fun n => ?_) fun n => rfl
    unfold delR putR
    by_cases e : n = 0 <;> simp [e]

end Imath
