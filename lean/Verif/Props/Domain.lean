import Verif.Proof.Domain
import Verif.Props.History

/-!
# C77: which calls are admissible

The theorems on histories (C13, C50, C76) are about programs all of whose calls are admissible, which means that
`Step` has a rule for them.  Here it is proved that there is a rule for every call that meets the conditions of
`Call.Ready`, that the other calls end in a fault or use up the memory, and what is left open.
-/

namespace Imath

variable {m : Mem} {env : Env} {ρ : Nat → Option Int} {c : Call}

/-- Every call of a function of imath.h that is ready ends, and what it returns and stores is right - or a request
is refused. -/
theorem C77_ready (h : State m ρ) (ht : c.Typed) (hv : c.Vars ρ) (hr : c.Ready ρ) :
    (∃ out ρ', Step ρ c out ρ') ∧ Runs env c.exec m fun out m' => ∃ ρ', Step ρ c out ρ' ∧ State m' ρ' :=
  have hs := ready_step ht hv hr
  ⟨hs, let ⟨_, _, h1⟩ := hs; step_sound h1 h⟩

/-- Calls that are not ready end in undefined behaviour or a failing assertion ... -/
theorem C77_breaks {e : Fault} (h : State m ρ) (hv : c.Vars ρ) (hb : Breaks ρ c e) : FaultsOr env c.exec m e :=
  breaks_fault h hb hv

theorem Runs.bind_false {α β : Type} {f : M α} {k : α → M β} (h : Runs env f m fun _ _ => False) : Runs env (f >>= k) m fun _ _ => False := by
  unfold Runs at h ⊢
  show (match M.bind f k env m with | .ok r m' => _ | .fault (.oom n) => _ | .fault _ => _)
  unfold M.bind
  cases hf : f env m with
  | ok a m' => rw [hf] at h; exact h.elim
  | fault e => rw [hf] at h; cases e <;> exact h

/-- ... or grow until a request is refused ... -/
theorem C77_exhausts (h : State m ρ) (he : Exhausts ρ c) : Runs env c.exec m fun _ _ => False := by
  cases he with
  | exptFull ha hb hy hx => exact Runs.bind_false (C18_alias_large h ha hb hy hx)

/-- ... or are of the kinds listed in `Call.Open`.

Missing from the full property: what happens for these. -/
theorem C77_classified_partial (ht : c.Typed) : c.Ready ρ ∨ (∃ e, Breaks ρ c e) ∨ Exhausts ρ c ∨ c.Open ρ := by
  by_cases hr : c.Ready ρ
  · exact .inl hr
  · exact .inr (classify ht hr)

/-- No call that breaks is admissible. -/
theorem C77_exclusive {e : Fault} {out : List Int} {ρ' : Nat → Option Int} (hb : Breaks ρ c e) : ¬ Step ρ c out ρ' := breaks_no_step hb

/-- The theorem on histories for programs all of whose calls are ready. -/
theorem C77_history {p : Prog} (h : State m ρ) (hp : ReadyProg ρ p) :
    Runs env p.exec m fun outs m' => ∃ ρ', Leads ρ p outs ρ' ∧ State m' ρ' := by
  refine C13_history_partial h ?_
  clear h
  induction hp with
  | done => exact .done
  | call ht hv hr _ ih => exact .call (ready_step ht hv hr) ih

/-! ### The hypotheses can be met -/

example : (Call.egcd 0 1 2 (some 2) (some 3)).Ready demo ∧ (Call.egcd 0 1 2 (some 2) (some 3)).Vars demo := by
  refine ⟨⟨.inl (by simp), fun x y hx hy h0 => by simp⟩, ⟨_, rfl⟩, ⟨_, rfl⟩, ⟨_, rfl⟩, ?_, ?_⟩ <;> rintro n ⟨⟩ <;> exact ⟨_, rfl⟩

example : ∃ m, State m demo ∧ Runs env (Call.readCstring 2 16 [32, 45, 102, 70, 120, 0]).exec m fun out m' =>
    ∃ ρ', Step demo (.readCstring 2 16 [32, 45, 102, 70, 120, 0]) out ρ' ∧ State m' ρ' :=
  let ⟨m, h⟩ := demo_state
  ⟨m, h, (C77_ready (c := .readCstring 2 16 [32, 45, 102, 70, 120, 0]) h ⟨by norm_num, by decide⟩ ⟨_, rfl⟩ ⟨by norm_num, by decide⟩).2⟩

example : ∃ m, State m (vars [-2 ^ 63, 0, 5]) ∧ FaultsOr env (Call.toInt 0).exec m .ub ∧
    FaultsOr env (Call.egcd 1 2 0 (some 0) none).exec m .assert := by
  obtain ⟨m, h⟩ := vars_state (l := [-2 ^ 63, 0, 5]) (by simp)
  refine ⟨m, h, C77_breaks h ⟨_, rfl⟩ (.toInt rfl), C77_breaks h ⟨⟨_, rfl⟩, ⟨_, rfl⟩, ⟨_, rfl⟩, ?_, ?_⟩
    (.egcdNull rfl rfl (.inl ⟨rfl, by norm_num⟩) (.inr rfl))⟩
  · rintro n ⟨⟩; exact ⟨_, rfl⟩
  · rintro n ⟨⟩

example : ∃ m, State m demo ∧ FaultsOr env (Call.toBinary 1 [1, 2, 3] 100).exec m .ub ∧
    FaultsOr env (Call.readCstring 1 10 [49, 50, 120]).exec m .ub :=
  let ⟨m, h⟩ := demo_state
  ⟨m, h, C77_breaks h ⟨_, rfl⟩ (.toBinaryShort (x := -(2 ^ 70)) rfl (by simp) (by decide +kernel)),
    C77_breaks h ⟨_, rfl⟩ (.readCstringEnd (by omega) (by decide))⟩

example : ∃ m, State m (vars [-2 ^ 70, 3]) ∧ Runs env (Call.exptFull 0 1 1).exec m fun _ _ => False := by
  obtain ⟨m, h⟩ := vars_state (l := [-2 ^ 70, 3]) (by simp)
  exact ⟨m, h, C77_exhausts h (.exptFull rfl rfl (by norm_num) (by norm_num))⟩

/-- Read a number, take its cube root, write it to 100 bytes. -/
def cubeRoot (s : Bytes) : Prog :=
  .call (.init 0) fun _ => .call (.readCstring 0 7 s) fun _ => .call (.root 0 3 0) fun _ =>
  .call (.toBinary 0 (List.replicate 100 0) 100) fun _ => .call (.clear 0) fun _ => .done

/-- The program is right for every terminated text, whatever number it denotes. -/
theorem cubeRoot_ready {s : Bytes} (hs : ∀ b ∈ s, b < 256) (h0 : 0 ∈ s.take 800000001) : ReadyProg (fun _ => none) (cubeRoot s) := by
  have in0 : ∀ {ρ ρ' : Nat → Option Int} {v : Int}, ρ' = put ρ 0 v → In ρ' 0 := fun {ρ ρ' v} e => ⟨v, by rw [e]; simp [put]⟩
  refine .call trivial rfl trivial fun out ρ1 h1 => ?_
  have i1 : In ρ1 0 := by rcases h1 with h | h | h <;> cases h; exact in0 rfl
  refine .call ⟨by norm_num, hs⟩ i1 ⟨by norm_num, h0⟩ fun out ρ2 h2 => ?_
  have i2 : In ρ2 0 := by
    rcases h2 with h | h | h
    · generalize e : Call.readCstring 0 7 s = cc at h
      cases h <;> cases e
      exact in0 rfl
    · cases h
    · cases h
  refine .call (by norm_num [Call.Typed]) ⟨i2, i2⟩ (by norm_num [Call.Ready]) fun out ρ3 h3 => ?_
  have i3 : In ρ3 0 := by
    rcases h3 with h | h | h <;> cases h <;> first | exact in0 rfl | exact i2
  refine .call ⟨by simp, by norm_num, by norm_num⟩ i3 ⟨by norm_num, fun x _ => ?_⟩ fun out ρ4 h4 => ?_
  · rw [List.length_replicate]; exact Nat.min_le_right _ _
  have i4 : In ρ4 0 := by rcases h4 with h | h | h <;> cases h <;> exact i3
  exact .call trivial i4 trivial fun _ _ _ => .done

example : ∃ m, State m (fun _ => none) ∧ Runs env (cubeRoot [49, 50, 48, 0]).exec m fun outs m' =>
    ∃ ρ', Leads (fun _ => none) (cubeRoot [49, 50, 48, 0]) outs ρ' ∧ State m' ρ' :=
  let ⟨m, h⟩ := start_state
  ⟨m, h, C77_history h (cubeRoot_ready (by decide) (by decide))⟩

end Imath
