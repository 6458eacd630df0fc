import Verif.Proof.RatDomain
import Verif.Props.RatHistory
import Verif.Props.Domain

/-!
# C78: which rational calls are admissible

As C77 (`Props/Domain.lean`), for the calls of imrat.h: which calls the theorems on histories of rational calls (C37)
apply to, which calls end in a fault, which store an integer pair that is no rational in lowest terms, and what is left.
-/

namespace Imath

variable {m : Mem} {env : Env} {κ : Nat → Option ℚ} {ι : Nat → Option Int} {c : QCall}

/-- Every call of a function of imrat.h that is ready ends, and what it returns and stores is what `QStep` says - or a
request is refused. -/
theorem C78_ready (h : State m (flat κ ι)) (ht : c.Typed) (hv : c.Vars κ ι) (hr : c.Ready κ ι) :
    (∃ out κ' ι', QStep κ ι c out κ' ι') ∧
    Runs env c.exec m fun out m' => ∃ κ' ι', QStep κ ι c out κ' ι' ∧ State m' (flat κ' ι') :=
  have hs := qready_step ht hv hr
  ⟨hs, let ⟨_, _, _, h1⟩ := hs; qstep_sound h1 h⟩

/-- Calls that are not ready end in undefined behaviour or a failing assertion ... -/
theorem C78_breaks {e : Fault} (h : State m (flat κ ι)) (ht : c.Typed) (hv : c.Vars κ ι) (hb : QBreaks κ ι c e) :
    FaultsOr env c.exec m e := qbreaks_fault h ht hv hb

/-- ... or store a numerator and denominator that are not those of a rational ... -/
theorem C78_raw {out : List Int} {k : Nat} {x y : Int} (h : State m (flat κ ι)) (hv : c.Vars κ ι) (hb : Raw c out k x y) :
    Runs env c.exec m fun o m' => o = out ∧ State m' (put (put (flat κ ι) (3 * k) x) (3 * k + 1) y) := raw_run h hv hb

/-- ... or return without freeing the memory of their temporary variables, while all variables keep their values ... -/
theorem C78_leaks {out : List Int} (h : State m (flat κ ι)) (ht : c.Typed) (hv : c.Vars κ ι) (hb : Leaks c out) :
    Runs env c.exec m fun o m' => o = out ∧ ∀ n v, flat κ ι n = some v → Holds m' (.var n) v := leaks_run h ht hv hb

/-- ... or are calls on integers, which may be the parts of rationals.  The integers that are stored are right then, and the parts of a rational
are left as two integers; or the memory is used up ... -/
theorem C78_on_int (h : State m (flat κ ι)) (ht : c.Typed) (hv : c.Vars κ ι) (hb : OnInt κ ι c) :
    Runs env c.exec m fun out m' => ∃ i ρ', c = .int i ∧ Step (flat κ ι) i out ρ' ∧ State m' ρ' := by
  cases hb with
  | @ready i hr => exact (C77_ready (c := i) h ht hv hr).2.mono fun _ _ ⟨ρ', h1, h2⟩ => ⟨i, ρ', rfl, h1, h2⟩
  | exhausts he => exact (C77_exhausts h he).mono fun _ _ hf => hf.elim

/-- ... or are of the kinds listed in `QCall.Open`.

Missing from the full property: what happens for these. -/
theorem C78_classified_partial (ht : c.Typed) (hv : c.Vars κ ι) :
    c.Ready κ ι ∨ (∃ e, QBreaks κ ι c e) ∨ (∃ out k x y, Raw c out k x y) ∨ (∃ out, Leaks c out) ∨ OnInt κ ι c ∨ c.Open κ ι := by
  by_cases hr : c.Ready κ ι
  · exact .inl hr
  by_cases hl : ∃ out, Leaks c out
  · exact .inr (.inr (.inr (.inl hl)))
  by_cases hi : OnInt κ ι c
  · exact .inr (.inr (.inr (.inr (.inl hi))))
  · rcases qclassify ht hv hr hl hi with h | h | h
    · exact .inr (.inl h)
    · exact .inr (.inr (.inl h))
    · exact .inr (.inr (.inr (.inr (.inr h))))

/-- No call that breaks is admissible. -/
theorem C78_exclusive {e : Fault} {out : List Int} {κ' : Nat → Option ℚ} {ι' : Nat → Option Int} (hb : QBreaks κ ι c e) :
    ¬ QStep κ ι c out κ' ι' := qbreaks_no_step hb

/-- All calls but those for text and the constructors of values have no conditions but that their arguments are
initialised. -/
theorem C78_arithmetic (h : State m (flat κ ι)) (hv : c.Vars κ ι)
    (hc : (∃ a b d, c = .add a b d ∨ c = .sub a b d ∨ c = .mul a b d ∨ c = .div a b d ∨ c = .addInt a b d ∨ c = .subInt a b d ∨
      c = .mulInt a b d ∨ c = .divInt a b d) ∨ ∃ a d, c = .copy a d ∨ c = .abs a d ∨ c = .neg a d ∨ c = .recip a d ∨ c = .compare a d ∨
      c = .compareUnsigned a d ∨ c = .numer a d ∨ c = .denom a d) :
    Runs env c.exec m fun out m' => ∃ κ' ι', QStep κ ι c out κ' ι' ∧ State m' (flat κ' ι') := by
  have : c.Typed ∧ c.Ready κ ι := by
    rcases hc with ⟨a, b, d, h | h | h | h | h | h | h | h⟩ | ⟨a, d, h | h | h | h | h | h | h | h⟩ <;> subst h <;> exact ⟨trivial, trivial⟩
  exact (C78_ready h this.1 hv this.2).2

/-- The theorem on histories for programs all of whose calls are ready. -/
theorem C78_history {p : QProg} (h : State m (flat κ ι)) (hp : ReadyQProg κ ι p) :
    Runs env p.exec m fun outs m' => ∃ κ' ι', QLeads κ ι p outs κ' ι' ∧ State m' (flat κ' ι') := by
  refine qprog_sound ?_ h
  clear h
  induction hp with
  | done => exact .done
  | call ht hv hr _ ih => exact .call (qready_step ht hv hr) ih

/-! ### The hypotheses can be met -/

/-- Rational variables 0: -22/7, 1: 0. -/
def demoK : Nat → Option ℚ
  | 0 => some (-22 / 7)
  | 1 => some 0
  | _ => none

/-- Integer variable 0: 12. -/
def demoI : Nat → Option Int
  | 0 => some 12
  | _ => none

theorem demoK_state : ∃ m, State m (flat demoK demoI) := by
  refine exists_state (flat demoK demoI) 6 ?_ ?_
  · intro n hn
    unfold flat
    have h2 : 2 ≤ n / 3 := by omega
    obtain ⟨k, hk⟩ : ∃ k, n / 3 = k + 2 := ⟨n / 3 - 2, by omega⟩
    rw [hk]
    split
    · rfl
    · split <;> rfl
  · have hb : 2 ^ 100 + 1 < (2 ^ 32) ^ MAXD := by
      rw [← Nat.pow_mul]
      exact Nat.lt_of_lt_of_le (show 2 ^ 100 + 1 < 2 ^ 101 by norm_num) (Nat.pow_le_pow_right (by norm_num) (by norm_num))
    have hc : ∀ k, k ≤ 22 → k < (2 ^ 32) ^ MAXD := fun k hk => Nat.lt_of_le_of_lt (Nat.le_trans hk (by norm_num)) hb
    have e1 : flat demoK demoI 0 = some (-22) := by decide +kernel
    have e2 : flat demoK demoI 1 = some 7 := by decide +kernel
    have e3 : flat demoK demoI 2 = some 12 := by decide +kernel
    have e4 : flat demoK demoI 3 = some 0 := by decide +kernel
    have e5 : flat demoK demoI 4 = some 1 := by decide +kernel
    have e6 : flat demoK demoI 5 = none := by decide +kernel
    intro n v hv
    refine hc _ ?_
    match n, hv with
    | 0, hv => rw [e1] at hv; cases hv; decide
    | 1, hv => rw [e2] at hv; cases hv; decide
    | 2, hv => rw [e3] at hv; cases hv; decide
    | 3, hv => rw [e4] at hv; cases hv; decide
    | 4, hv => rw [e5] at hv; cases hv; decide
    | 5, hv => rw [e6] at hv; cases hv
    | n + 6, hv =>
      unfold flat at hv
      obtain ⟨k, hk⟩ : ∃ k, (n + 6) / 3 = k + 2 := ⟨(n + 6) / 3 - 2, by omega⟩
      rw [hk] at hv
      split at hv
      · cases hv
      · split at hv <;> cases hv

/-- " -3.5x" is read. -/
example : ∃ m, State m (flat demoK demoI) ∧
    (Runs env (QCall.readCdecimal 1 10 [32, 45, 51, 46, 53, 120, 0]).exec m fun out m' =>
      ∃ κ' ι', QStep demoK demoI (.readCdecimal 1 10 [32, 45, 51, 46, 53, 120, 0]) out κ' ι' ∧ State m' (flat κ' ι')) ∧
    (QCall.mulInt 0 3 1).Vars demoK demoI :=
  let ⟨m, h⟩ := demoK_state
  ⟨m, h, (C78_ready (c := .readCdecimal 1 10 [32, 45, 51, 46, 53, 120, 0]) h ⟨by norm_num, by decide⟩ ⟨_, rfl⟩ ⟨by norm_num, by decide⟩).2,
    ⟨_, rfl⟩, ⟨_, rfl⟩, ⟨_, rfl⟩⟩

example : ∃ m, State m (flat demoK demoI) ∧ FaultsOr env (QCall.setValue 0 3 (-2 ^ 63)).exec m .ub ∧
    FaultsOr env (QCall.readCstring 1 10 [49, 47, 50]).exec m .ub :=
  let ⟨m, h⟩ := demoK_state
  ⟨m, h, C78_breaks h ⟨by norm_num, by norm_num⟩ ⟨_, rfl⟩ (.setValue (by norm_num) (.inr rfl)),
    C78_breaks h ⟨by norm_num, by decide⟩ ⟨_, rfl⟩ (.readCstringEnd (by omega) (by decide))⟩

/-- A rounding mode that does not exist; a sign for which there is no room, in a radix that does not exist. -/
example : ∃ m, State m (flat demoK demoI) ∧
    (Runs env (QCall.toDecimal 0 10 2 4 [88] 1).exec m fun o m' =>
      o = outB (MP_BADARG, [88]) ∧ ∀ n v, flat demoK demoI n = some v → Holds m' (.var n) v) ∧
    FaultsOr env (QCall.toDecimal 0 37 2 0 [] 5).exec m .ub ∧ FaultsOr env (QCall.toDecimal 1 37 2 0 [] 5).exec m .assert := by
  obtain ⟨m, h⟩ := demoK_state
  refine ⟨m, h, C78_leaks h ⟨by norm_num, by norm_num, by norm_num, by decide, by norm_num, by norm_num⟩ ⟨_, rfl⟩ (.toDecimal (by norm_num)),
    C78_breaks h ⟨by norm_num, by norm_num, by norm_num, by decide, by norm_num, by norm_num⟩ ⟨_, rfl⟩
      (.toDecimalSign rfl (.inr (by norm_num)) (by norm_num) (by norm_num) ⟨by norm_num, .inl ?_⟩),
    C78_breaks h ⟨by norm_num, by norm_num, by norm_num, by decide, by norm_num, by norm_num⟩ ⟨_, rfl⟩
      (.toDecimalEmpty rfl (.inr (by norm_num)) (by norm_num) (by norm_num) fun hs => absurd hs.1 (by norm_num))⟩
  have e : |(-22 / 7 : ℚ)| = 22 / 7 := by rw [abs_of_neg] <;> norm_num
  rw [e]; decide +kernel

/-- The denominator of variable 1 is set to -6 through `mp_rat_denom_ref`. -/
example : ∃ m, State m (flat demoK demoI) ∧ Runs env (QCall.int (.setValue 4 (-6))).exec m fun out m' =>
    ∃ i ρ', QCall.int (.setValue 4 (-6)) = .int i ∧ Step (flat demoK demoI) i out ρ' ∧ State m' ρ' :=
  let ⟨m, h⟩ := demoK_state
  ⟨m, h, C78_on_int h ⟨by norm_num, by norm_num⟩ ⟨_, rfl⟩ (.ready (by norm_num [Call.Ready]))⟩

/-- "1/0" -/
example : ∃ m, State m (flat demoK demoI) ∧ Runs env (QCall.readCstring 1 10 [49, 47, 48, 0]).exec m fun o m' =>
    o = outU (MP_UNDEF, some 3) ∧ State m' (put (put (flat demoK demoI) 3 1) 4 0) := by
  obtain ⟨m, h⟩ := demoK_state
  refine ⟨m, h, ?_⟩
  have ht : RawText 10 [] [] [49] [] [] [] [48] 0 [1] [0] := by
    refine ⟨by simp, by simp, by simp [IsDigit, digitChar], by simp, by simp, by simp, by simp, by simp [IsDigit, digitChar],
      fun d => not_isDigit_zero, by simp, by simp [Nat.ofDigits]⟩
  have hb := Raw.readCstring (c := 1) (r := 10) (rest := []) (by omega) ht (by decide)
  have := C78_raw (env := env) (κ := demoK) (ι := demoI) h (c := .readCstring 1 10 _) (show InQ demoK 1 from ⟨0, rfl⟩) hb
  norm_num [Nat.ofDigits] at this
  exact this

/-- Read two rationals from any texts in positional notation and divide them. -/
def quotient (s t : Bytes) : QProg :=
  .call (.init 0) fun _ => .call (.init 1) fun _ => .call (.readCdecimal 0 10 s) fun _ => .call (.readCdecimal 1 10 t) fun _ =>
  .call (.div 0 1 0) fun _ => .call (.clear 0) fun _ => .call (.clear 1) fun _ => .done

/-- The program is right for all terminated texts. -/
theorem quotient_ready {s t : Bytes} (hs : ∀ b ∈ s, b < 256) (ht : ∀ b ∈ t, b < 256) (h0 : 0 ∈ s.take 800000001) (h1 : 0 ∈ t.take 800000001) :
    ReadyQProg (fun _ => none) (fun _ => none) (quotient s t) := by
  have rd : ∀ {κ κ' : Nat → Option ℚ} {ι ι' : Nat → Option Int} {c : Nat} {s : Bytes} {out : List Int}, QStep κ ι (.readCdecimal c 10 s) out κ' ι' →
      ∃ v, κ' = putR κ c v := by
    intro κ κ' ι ι' c s out h
    generalize e : QCall.readCdecimal c 10 s = cc at h
    cases h <;> cases e <;> exact ⟨_, rfl⟩
  refine .call trivial rfl trivial fun out κ1 ι1 h => ?_
  cases h
  refine .call trivial rfl trivial fun out κ2 ι2 h => ?_
  cases h
  refine .call ⟨by norm_num, hs⟩ ⟨0, by simp [putR]⟩ ⟨by norm_num, h0⟩ fun out κ3 ι3 h => ?_
  obtain ⟨v, rfl⟩ := rd h
  refine .call ⟨by norm_num, ht⟩ ⟨0, by simp [putR]⟩ ⟨by norm_num, h1⟩ fun out κ4 ι4 h => ?_
  obtain ⟨w, rfl⟩ := rd h
  refine .call trivial ⟨⟨v, by simp [putR]⟩, ⟨w, by simp [putR]⟩, ⟨v, by simp [putR]⟩⟩ trivial fun out κ5 ι5 h => ?_
  have : ∃ v', κ5 0 = some v' ∧ κ5 1 = some w := by
    cases h with
    | div => exact ⟨_, by simp [putR]; rfl, by simp [putR]⟩
    | divZero => exact ⟨v, by simp [putR], by simp [putR]⟩
  obtain ⟨v', h50, h51⟩ := this
  refine .call trivial ⟨v', h50⟩ trivial fun out κ6 ι6 h => ?_
  cases h
  exact .call trivial ⟨w, by simp [delR, h51]⟩ trivial fun _ _ _ _ => .done

example : ∃ m, State m (flat (fun _ => none) fun _ => none) ∧ Runs env (quotient [49, 46, 53, 0] [48, 0]).exec m fun outs m' =>
    ∃ κ' ι', QLeads (fun _ => none) (fun _ => none) (quotient [49, 46, 53, 0] [48, 0]) outs κ' ι' ∧ State m' (flat κ' ι') :=
  let ⟨m, h⟩ := start_flat
  ⟨m, h, C78_history h (quotient_ready (by decide) (by decide) (by decide) (by decide))⟩

end Imath
