import Verif.Proof.GmpHistory
import Verif.Props.History

/-!
# Property C76: histories of calls of all interfaces

What C12 - C16 and C50 say of programs that use imath.h holds of programs that use the rational numbers, the GMP-compatible
interface, the prime numbers and the RSA functions besides, in any order.  The calls and their meaning (`XStep`, `XAdmissible`, `XLeads`) are in
`Verif/SpecGmpHistory.lean`.
-/

namespace Imath

variable {env env' : Env} {m m' : Mem} {ρ ρ' : Nat → Option Int} {p : XProg} {c : XCall} {out : List Int}

/-! ### Two clients -/

/-- Euclid's algorithm with the GMP-compatible interface, on the variables 0 and 1, in at most `n` rounds. -/
def euclid : Nat → XProg
  | 0 => .done
  | n + 1 => .call (.zSgn 1) fun o =>
    if o = [0] then .done
    else .call (.zFdivR 0 0 1) fun _ => .call (.zSwap 0 1) fun _ => euclid n

/-- Makes an RSA key from a prime found at run time, encrypts, decrypts and compares, and writes the message as hexadecimal
text; uses four interfaces. -/
def rsaClient : XProg :=
  .call (.lib (.initValue 0 60)) fun _ => .call (.findPrime 0) fun _ => .call (.isPrime 0) fun _ =>
  .call (.zInit 1) fun _ => .call (.zMulUi 1 0 53) fun _ =>
  .call (.lib (.initValue 2 17)) fun _ => .call (.lib (.initValue 3 2753)) fun _ => .call (.lib (.initValue 4 65)) fun _ =>
  .call (.rsa 0 4 2 1 0) fun _ => .call (.rsa 1 0 3 1 0) fun _ => .call (.zCmp 0 4) fun _ => .call (.zGetStr 0 16) fun _ =>
  .call (.zClear 0) fun _ => .call (.zClear 1) fun _ => .call (.zClear 2) fun _ => .call (.lib (.clear 3)) fun _ =>
  .call (.lib (.clear 4)) fun _ => .done

/-- The values after the eighth call of `rsaClient`. -/
def rsaVars : Nat → Option Int :=
  put (put (put (put (put (put (put (fun _ => none) 0 60) 0 61) 1 0) 1 (61 * 53)) 2 17) 3 2753) 4 65

theorem rsaClient_leads : ∃ ρ', XDLeads (fun _ => none) rsaClient
    [[0], [-1], [-1], [], [], [0], [0], [0], [0], [0], [0], [52, 49], [], [], [], [], []] ρ' ∧ ∀ n, ρ' n = none := by
  have hp : Accepted 61 := accepted_of_prime (p := 61) (by norm_num)
  have h60 : ¬ Accepted 60 := fun h => by have := accepted_even h (by norm_num); omega
  have hs : ∀ v : Int, -100000 < v → v < 100000 → Small v := fun v h1 h2 => by unfold Small; omega
  have s2 : GStep (put (fun _ => none) 0 60) (.findPrime 0) [-1] (put (put (fun _ => none) 0 60) 0 61) :=
    .findPrime (x := 60) rfl (by norm_num) (by norm_num) hp fun u h1 h2 => by
      have : u = 60 := by omega
      rw [this]; exact h60
  have s3 := GStep.isPrime (ρ := put (put (fun _ => none) 0 60) 0 61) (a := 0) (x := 61) rfl
  rw [if_pos hp] at s3
  have s8 := GStep.rsa (ρ := rsaVars) (k := 0) (a := 4) (b := 2) (n := 1) (c := 0) (x := 65) (y := 17) (v := 61 * 53) (w := 61)
    rfl rfl rfl rfl (by norm_num) (by norm_num) (by norm_num) (by norm_num)
  rw [show (65 : Int) ^ (17 : Int).toNat % (61 * 53) = 2790 by decide +kernel] at s8
  have s9 := GStep.rsa (ρ := put rsaVars 0 2790) (k := 1) (a := 0) (b := 3) (n := 1) (c := 0) (x := 2790) (y := 2753) (v := 61 * 53)
    (w := 2790) rfl rfl rfl rfl (by norm_num) (by norm_num) (by norm_num) (by norm_num)
  rw [show (2790 : Int) ^ (2753 : Int).toNat % (61 * 53) = 65 by decide +kernel] at s9
  have s10 := GStep.zCmp (ρ := put (put rsaVars 0 2790) 0 65) (a := 0) (b := 4) (x := 65) (y := 65) rfl rfl
  have s11 := GStep.zGetStr (ρ := put (put rsaVars 0 2790) 0 65) (a := 0) (x := 65) (radix := 16) rfl (by decide) (by decide)
    ⟨.inl (by decide), by decide +kernel⟩
  rw [show outBs (gmpCase 16 (numeral (16 : Int).natAbs 65)) = [52, 49] by decide +kernel] at s11
  refine ⟨_, .lib (.initValue rfl (hs _ (by norm_num) (by norm_num))) <| .call s2 <| .call s3 <| .call (.zInit rfl) <|
    .call (.zMulUi (x := 61) rfl rfl (by norm_num)) <| .lib (.initValue rfl (hs _ (by norm_num) (by norm_num))) <|
    .lib (.initValue rfl (hs _ (by norm_num) (by norm_num))) <| .lib (.initValue rfl (hs _ (by norm_num) (by norm_num))) <|
    .call s8 <| .call s9 <| .call s10 <| .call s11 <| .call (.zClear rfl) <| .call (.zClear rfl) <| .call (.zClear rfl) <|
    .lib (.clear rfl) <| .lib (.clear rfl) .done, fun n => ?_⟩
  unfold del put
  by_cases h0 : n = 0 <;> by_cases h1 : n = 1 <;> by_cases h2 : n = 2 <;> by_cases h3 : n = 3 <;> by_cases h4 : n = 4 <;>
    simp [h0, h1, h2, h3, h4, rsaVars, put]

/-! ### Safety and results -/

/-- Every admissible program runs to its end without undefined behaviour, failing assertion or divergence, and what it returns
and leaves behind is right - or the allocator refuses a request and the process aborts.

Missing from the full property: the calls that are not admissible (see the witnesses beside the theorems on the respective
functions). -/
theorem C76_history_partial (h : State m ρ) (hp : XAdmissible ρ p) :
    Runs env p.exec m fun outs m' => ∃ ρ', XLeads ρ p outs ρ' ∧ State m' ρ' := xprog_sound hp h

/-- All initialised integers are canonical afterwards. -/
theorem C76_canonical_partial (h : State m ρ) (hp : XAdmissible ρ p) :
    Runs env p.exec m fun outs m' => ∃ ρ', XLeads ρ p outs ρ' ∧ ∀ n v, ρ' n = some v → Holds m' (.var n) v :=
  (xprog_sound hp h).mono fun _ _ ⟨ρ', hl, h'⟩ => ⟨ρ', hl, fun _ _ hv => h'.holds hv⟩

/-- If a program does not come to its end, a request was refused; a refused request never makes a wrong result. -/
theorem C76_abort_partial {e : Fault} (h : State m ρ) (hp : XAdmissible ρ p) (hr : p.exec env m = .fault e) :
    ∃ n j, e = .oom n ∧ env.grant j n = false := by
  have := xprog_sound (env := env) hp h
  unfold Runs at this
  rw [hr] at this
  cases e with
  | oom n => obtain ⟨j, hj⟩ := this; exact ⟨n, j, rfl, hj⟩
  | assert => exact this.elim
  | ub => exact this.elim
  | diverge => exact this.elim

/-- The live blocks of the heap are exactly the digits of initialised variables: nothing leaks, in particular none of the
temporary integers of the wrappers, of the primality test and of the RSA functions.  (The arrays that `impz_get_str` and
`impz_export` allocate for the caller are not modelled as blocks of this heap.) -/
theorem C76_no_leak_partial (h : State m ρ) (hp : XAdmissible ρ p) :
    Runs env p.exec m fun outs m' => ∃ ρ', XLeads ρ p outs ρ' ∧
      ∀ k, (∃ l, m'.dig (.heap k) = some l) ↔
        ∃ n v Z p, ρ' n = some v ∧ m'.int (.var n) = some Z ∧ Z.digits = some p ∧ p.base = .heap k := by
  refine (xprog_sound hp h).mono fun _ m' ⟨ρ', hl, h'⟩ => ⟨ρ', hl, fun k => ⟨fun ⟨l, hk⟩ => h'.noleak hk, ?_⟩⟩
  rintro ⟨n, v, Z, q, hv, hZ, hq, hk⟩
  obtain ⟨Z', q', l, hZ', hq', -, hl', -⟩ := h'.holds hv
  rw [hZ] at hZ'; cases hZ'
  rw [hq] at hq'; cases hq'
  exact ⟨l, by rw [← hk]; exact hl'⟩

/-- A program of determined calls returns what it should and leaves the values it should. -/
theorem C76_results_partial {outs : List (List Int)} (hp : XDLeads ρ p outs ρ') (h : State m ρ) :
    Runs env p.exec m fun o m' => o = outs ∧ State m' ρ' := xdprog_sound hp h

/-- What a program returns and computes is a function of the values it starts with, whatever the allocator, the contents of new
memory and the tuning parameters are (given how `double` arithmetic rounds). -/
theorem C76_deterministic_partial {m₁ m₂ m₁' m₂' : Mem} {o₁ o₂ : List (List Int)} (hp : XAdmissible ρ p) (hfl : env.fl = env'.fl)
    (h₁ : State m₁ ρ) (h₂ : State m₂ ρ) (hr₁ : p.exec env m₁ = .ok o₁ m₁') (hr₂ : p.exec env' m₂ = .ok o₂ m₂') :
    o₁ = o₂ ∧ ∃ ρ', XLeads ρ p o₁ ρ' ∧ State m₁' ρ' ∧ State m₂' ρ' := xprog_det hfl hp h₁ h₂ hr₁ hr₂

theorem xstep_frame (hs : XStep ρ c out ρ') : ∀ n, n ∉ c.outs → ρ' n = ρ n := by
  have hput : ∀ (ρ : Nat → Option Int) k v n, n ≠ k → put ρ k v n = ρ n := fun ρ k v n hn => if_neg hn
  have hdel : ∀ (ρ : Nat → Option Int) k n, n ≠ k → del ρ k n = ρ n := fun ρ k n hn => if_neg hn
  intro n hn
  cases hs with
  | lib hs => exact step_frame hs n hn
  | rat e hs =>
    subst e
    have hr : ∀ (κ : Nat → Option ℚ) (ι : Nat → Option Int) k q n, n ≠ (rv k).num → n ≠ (rv k).den →
        flat (putR κ k q) ι n = flat κ ι n := fun κ ι k q n h1 h2 => by
      rw [← putQ_flat]; unfold putQ; rw [hput _ _ _ _ h2, hput _ _ _ _ h1]
    cases hs with
    | int h1 h2 => rw [← int_flat h1 h2]; exact step_frame h1 n hn
    | _ =>
      simp only [XCall.outs, QCall.outs, List.mem_cons, List.not_mem_nil, or_false, not_or] at hn
      first
      | rfl
      | exact hr _ _ _ _ _ hn.1 hn.2
      | (rw [← del_flat]; exact (hdel _ _ _ hn.2).trans (hdel _ _ _ hn.1))
      | (rw [← put_flat]; exact hput _ _ _ _ hn)
  | nondet hs => cases hs; rfl
  | det hs =>
    cases hs <;> simp only [XCall.outs, List.mem_cons, List.not_mem_nil, or_false, not_or] at hn <;>
      first
      | rfl
      | exact hput _ _ _ _ hn
      | exact hdel _ _ _ hn
      | exact (hput _ _ _ _ hn.2).trans (hput _ _ _ _ hn.1)
      | exact (hdel _ _ _ hn.2).trans (hdel _ _ _ hn.1)

/-- A call leaves every variable that is not one of its output arguments as it was. -/
theorem C76_frame_partial (h : State m ρ) (hs : ∃ out ρ', XStep ρ c out ρ') :
    Runs env c.exec m fun _ m' => ∃ ρ', State m' ρ' ∧ ∀ n, n ∉ c.outs → ρ' n = ρ n := by
  obtain ⟨out, ρ1, hs⟩ := hs
  exact (xstep_sound hs h).mono fun _ _ ⟨ρ', h1, h2⟩ => ⟨ρ', h2, xstep_frame h1⟩

/-- The key is made, the message 65 decrypted again and written as "41", and nothing remains allocated. -/
example : ∃ m, State m (fun _ => none) ∧ Runs env rsaClient.exec m fun outs m' =>
    outs = [[0], [-1], [-1], [], [], [0], [0], [0], [0], [0], [0], [52, 49], [], [], [], [], []] ∧ ∀ k, m'.dig (.heap k) = none := by
  obtain ⟨m, h⟩ := start_state
  obtain ⟨ρ', hl, hn⟩ := rsaClient_leads
  refine ⟨m, h, (C76_results_partial hl h).mono fun outs m' hh => ⟨hh.1, fun k => ?_⟩⟩
  cases hk : m'.dig (.heap k) with
  | none => rfl
  | some l =>
    obtain ⟨n, v, _, _, hv, _⟩ := hh.2.noleak hk
    rw [hn n] at hv; cases hv

/-! ### Rational numbers through three interfaces -/

/-- Adds 3/4, made with imrat.h, and 10/4, made with the GMP-compatible interface, multiplies numerator and denominator of the
sum as integers, and clears the variables, each with another interface than it was initialised with. -/
def mixedClient : XProg :=
  .call (.rat (.init 0)) fun _ => .call (.rat (.setValue 0 3 4)) fun _ => .call (.qInit (rv 1)) fun _ =>
  .call (.qSetUi (rv 1) 10 4) fun _ => .call (.rat (.add 0 1 0)) fun _ => .call (.qCmp (rv 0) (rv 1)) fun _ =>
  .call (.lib (.init (iv 0))) fun _ => .call (.zMul (iv 0) (rv 0).num (rv 0).den) fun _ => .call (.zGetUi (iv 0)) fun _ =>
  .call (.qClear (rv 0)) fun _ => .call (.rat (.clear 1)) fun _ => .call (.zClear (iv 0)) fun _ => .done

theorem mixedClient_leads : ∃ ρ', XDLeads (fun _ => none) mixedClient [[0], [0], [], [], [0], [1], [0], [], [52], [], [], []] ρ' ∧
    ∀ n, ρ' n = none := by
  let κ0 : Nat → Option ℚ := fun _ => none
  let ι0 : Nat → Option Int := fun _ => none
  let κ1 := putR κ0 0 0
  let κ2 := putR κ1 0 ((3 : Int) / (4 : Int))
  let κ3 := putR κ2 1 0
  let κ4 := putR κ3 1 ((10 : Nat) / (4 : Nat))
  let κ5 := putR κ4 0 ((3 : Int) / (4 : Int) + (10 : Nat) / (4 : Nat))
  let ι1 := put ι0 0 0
  let ι2 := put ι1 0 (13 * 4)
  let κ6 := delR κ5 0
  let κ7 := delR κ6 1
  have e0 : (fun _ => none : Nat → Option Int) = flat κ0 ι0 := flat_ext (fun _ => rfl) (fun _ => rfl) fun _ => rfl
  have hs : ∀ v : Int, -100000 < v → v < 100000 → Small v := fun v h1 h2 => by unfold Small; omega
  have s3 : GStep (flat κ2 ι0) (.qInit (rv 1)) [] (flat κ3 ι0) := by
    have := GStep.qInit (ρ := flat κ2 ι0) (d := rv 1) (rv_ne 1) (noneN rfl) (noneD rfl)
    rwa [putQ_flat] at this
  have s4 : GStep (flat κ3 ι0) (.qSetUi (rv 1) 10 4) [] (flat κ4 ι0) := by
    have := GStep.qSetUi (ρ := flat κ3 ι0) (d := rv 1) (u := 10) (v := 4) (readyQ (q := 0) rfl) (by norm_num) (by norm_num) (by norm_num)
    rwa [putQ_flat] at this
  have h5 : κ5 0 = some (13 / 4) := by
    show some (((3 : Int) : ℚ) / (4 : Int) + ((10 : Nat) : ℚ) / (4 : Nat)) = _
    norm_num
  have h5' : κ5 1 = some (5 / 2) := by
    show some (((10 : Nat) : ℚ) / (4 : Nat)) = _
    norm_num
  have s6 : GStep (flat κ5 ι0) (.qCmp (rv 0) (rv 1)) [1] (flat κ5 ι0) := by
    have := GStep.qCmp (ρ := flat κ5 ι0) (hasQ h5) (hasQ h5')
    rwa [show cmp3Q (13 / 4) (5 / 2) = 1 by unfold cmp3Q; norm_num] at this
  have s7 : DStep (flat κ5 ι0) (.init (iv 0)) [MP_OK] (flat κ5 ι1) := by
    have := DStep.init (ρ := flat κ5 ι0) (c := iv 0) (by unfold iv; rw [flat_int])
    rwa [put_flat] at this
  have hq := hasQ (ι := ι1) h5
  have en : (13 / 4 : ℚ).num = 13 := by norm_num
  have ed : ((13 / 4 : ℚ).den : Int) = 4 := by norm_num
  have s8 : GStep (flat κ5 ι1) (.zMul (iv 0) (rv 0).num (rv 0).den) [] (flat κ5 ι2) := by
    have := GStep.zMul (ρ := flat κ5 ι1) (c := iv 0) (a := (rv 0).num) (b := (rv 0).den) (w := 0) hq.1 hq.2 (by unfold iv; rw [flat_int]; rfl)
    rwa [put_flat, en, ed] at this
  have s9 : GStep (flat κ5 ι2) (.zGetUi (iv 0)) [52] (flat κ5 ι2) := GStep.zGetUi (x := 13 * 4) (by unfold iv; rw [flat_int]; rfl)
  have s10 : GStep (flat κ5 ι2) (.qClear (rv 0)) [] (flat κ6 ι2) := by
    have := GStep.qClear (ρ := flat κ5 ι2) (d := rv 0) (readyQ h5)
    rwa [del_flat] at this
  rw [e0]
  refine ⟨_, .rat rfl (.init rfl) trivial <| .rat rfl (.setValue (w := 0) rfl (hs _ (by norm_num) (by norm_num)) (hs _ (by norm_num) (by norm_num))
    (by norm_num)) trivial <| .call s3 <| .call s4 <| .rat rfl (.add rfl rfl rfl) trivial <| .call s6 <| .lib s7 <| .call s8 <| .call s9 <|
    .call s10 <| .rat rfl (.clear (c := 1) h5') trivial <| .call (.zClear (w := 13 * 4) (by unfold iv; rw [flat_int]; rfl)) .done, fun n => ?_⟩
  unfold del
  split
  · rfl
  · next hn =>
    show flat κ7 ι2 n = none
    have hk : ∀ k, κ7 k = none := fun k => by
      show (if k = 1 then none else if k = 0 then none else if k = 0 then some _ else if k = 1 then some _ else
        if k = 1 then some _ else if k = 0 then some _ else if k = 0 then some _ else none) = none
      by_cases h0 : k = 0 <;> by_cases h1 : k = 1 <;> simp [h0, h1]
    unfold flat
    rw [hk]
    split
    · rfl
    · split
      · rfl
      · show (if n / 3 = 0 then some _ else if n / 3 = 0 then some _ else none) = none
        unfold iv at hn
        rw [if_neg (by omega), if_neg (by omega)]

example : ∃ m, State m (fun _ => none) ∧ Runs env mixedClient.exec m fun outs m' =>
    outs = [[0], [0], [], [], [0], [1], [0], [], [52], [], [], []] ∧ ∀ k, m'.dig (.heap k) = none := by
  obtain ⟨m, h⟩ := start_state
  obtain ⟨ρ', hl, hn⟩ := mixedClient_leads
  refine ⟨m, h, (C76_results_partial hl h).mono fun outs m' hh => ⟨hh.1, fun k => ?_⟩⟩
  cases hk : m'.dig (.heap k) with
  | none => rfl
  | some l =>
    obtain ⟨n, v, _, _, hv, _⟩ := hh.2.noleak hk
    rw [hn n] at hv; cases hv

/-! ### Euclid's algorithm -/

theorem cmp3_zero {x : Int} : cmp3 x 0 = 0 ↔ x = 0 := by unfold cmp3; split <;> [omega; (split <;> simp_all)]

theorem floor_rem {x y : Int} (hy : 0 < y) : x - ⌊(x : ℚ) / y⌋ * y = x % y := by
  obtain ⟨k, rfl⟩ := Int.eq_ofNat_of_zero_le hy.le
  rw [Int.cast_natCast, Rat.floor_intCast_div_natCast, Int.emod_def, Int.mul_comm]

/-- The program makes admissible calls only, for all values that are not negative, and computes the greatest common divisor. -/
theorem euclid_leads : ∀ (n : Nat) (ρ : Nat → Option Int) (x y : Int), ρ 0 = some x → ρ 1 = some y → 0 ≤ x → 0 ≤ y → y < n →
    XAdmissible ρ (euclid n) ∧ ∃ outs ρ', XDLeads ρ (euclid n) outs ρ' ∧ ρ' 0 = some (Int.gcd x y : Int) ∧ ρ' 1 = some 0 := by
  intro n
  induction n with
  | zero => intro ρ x y _ _ _ h1 h2; omega
  | succ n ih =>
    intro ρ x y hx hy hx0 hy0 hn
    have s1 : GStep ρ (.zSgn 1) [cmp3 y 0] ρ := .zSgn hy
    have u1 : ∀ o ρ', XStep ρ (.zSgn 1) o ρ' → o = [cmp3 y 0] ∧ ρ' = ρ := by
      intro o ρ' hs
      cases hs with
      | det hs => cases hs with | zSgn h => rw [hy] at h; cases h; exact ⟨rfl, rfl⟩
      | nondet hs => cases hs
    by_cases h0 : y = 0
    · subst h0
      have e : cmp3 0 0 = 0 := by decide
      rw [e] at s1 u1
      refine ⟨.call ⟨_, _, .det s1⟩ fun o ρ' hs => ?_, [[0]], ρ, .call s1 ?_, ?_, hy⟩
      · obtain ⟨rfl, rfl⟩ := u1 o ρ' hs
        rw [if_pos rfl]; exact .done
      · rw [if_pos rfl]; exact .done
      · rw [hx, Int.gcd_zero_right, Int.natAbs_of_nonneg hx0]
    · have hk : ¬ [cmp3 y 0] = [0] := by
        intro h
        have h := (List.cons.inj h).1
        rw [cmp3_zero] at h
        exact h0 h
      have hpos : 0 < y := by omega
      have s2 : GStep ρ (.zFdivR 0 0 1) [] (put ρ 0 (x % y)) := by
        have := GStep.zFdivR (ρ := ρ) (c := 0) hx hy hx h0
        rwa [floor_rem hpos] at this
      have s3 : GStep (put ρ 0 (x % y)) (.zSwap 0 1) [] (put (put (put ρ 0 (x % y)) 0 y) 1 (x % y)) :=
        .zSwap (x := x % y) (y := y) rfl hy
      have hm0 := Int.emod_nonneg x h0
      have hm1 := Int.emod_lt_of_pos x hpos
      obtain ⟨i1, outs, ρ', i2, i3, i4⟩ := ih (put (put (put ρ 0 (x % y)) 0 y) 1 (x % y)) y (x % y) rfl rfl hy0 hm0 (by omega)
      refine ⟨.call ⟨_, _, .det s1⟩ fun o ρ' hs => ?_, _ :: [] :: [] :: outs, ρ', .call s1 ?_, ?_, i4⟩
      · obtain ⟨rfl, rfl⟩ := u1 o ρ' hs
        rw [if_neg hk]
        refine .call ⟨_, _, .det s2⟩ fun o ρ₂ hs => .call ?_ ?_
        · cases hs with
          | det hs =>
            cases hs with
            | zFdivR h1 h2 h3 h4 =>
              rw [hx] at h1; cases h1; rw [hy] at h2; cases h2
              rw [floor_rem hpos]
              exact ⟨_, _, .det s3⟩
          | nondet hs => cases hs
        · cases hs with
          | det hs =>
            cases hs with
            | zFdivR h1 h2 h3 h4 =>
              rw [hx] at h1; cases h1; rw [hy] at h2; cases h2
              rw [floor_rem hpos]
              intro o ρ₃ hs
              cases hs with
              | det hs =>
                cases hs with
                | zSwap h1 h2 =>
                  have e1 : put ρ' 0 (x % y) 0 = some (x % y) := rfl
                  have e2 : put ρ' 0 (x % y) 1 = some y := hy
                  rw [e1] at h1; cases h1; rw [e2] at h2; cases h2
                  exact i1
              | nondet hs => cases hs
          | nondet hs => cases hs
      · rw [if_neg hk]
        exact .call s2 (.call s3 i2)
      · rw [i3, Int.gcd_comm y, Int.gcd_emod]

/-- The client computes the greatest common divisor of all values that are not negative, in every environment. -/
theorem C76_euclid {x y : Int} (h : State m ρ) (hx : ρ 0 = some x) (hy : ρ 1 = some y) (hx0 : 0 ≤ x) (hy0 : 0 ≤ y) :
    Runs env (euclid (y.toNat + 1)).exec m fun _ m' => Holds m' (.var 0) (Int.gcd x y) ∧ Holds m' (.var 1) 0 := by
  obtain ⟨-, outs, ρ', h1, h2, h3⟩ := euclid_leads (y.toNat + 1) ρ x y hx hy hx0 hy0 (by omega)
  exact (xdprog_sound h1 h).mono fun _ m' hh => ⟨hh.2.holds h2, hh.2.holds h3⟩

example : ∃ m, State m (vars [1071, 462]) ∧ Runs env (euclid 463).exec m fun _ m' => Holds m' (.var 0) 21 ∧ Holds m' (.var 1) 0 :=
  let ⟨m, h⟩ := vars_state (l := [1071, 462]) (by simp)
  ⟨m, h, C76_euclid (x := 1071) (y := 462) h rfl rfl (by norm_num) (by norm_num)⟩

example : ∃ m, State m (vars [1071, 462]) ∧ Runs env (euclid 463).exec m fun outs m' =>
    ∃ ρ', XLeads (vars [1071, 462]) (euclid 463) outs ρ' ∧ State m' ρ' :=
  let ⟨m, h⟩ := vars_state (l := [1071, 462]) (by simp)
  ⟨m, h, C76_history_partial h (euclid_leads 463 _ 1071 462 rfl rfl (by norm_num) (by norm_num) (by norm_num)).1⟩

/-- Two runs in different environments -/
example {m₁ m₂ m₁' m₂' : Mem} {o₁ o₂ : List (List Int)} (hfl : env.fl = env'.fl) (h₁ : State m₁ (vars [1071, 462]))
    (h₂ : State m₂ (vars [1071, 462])) (hr₁ : (euclid 463).exec env m₁ = .ok o₁ m₁') (hr₂ : (euclid 463).exec env' m₂ = .ok o₂ m₂') :
    o₁ = o₂ :=
  (C76_deterministic_partial (euclid_leads 463 _ 1071 462 rfl rfl (by norm_num) (by norm_num) (by norm_num)).1 hfl h₁ h₂ hr₁ hr₂).1

example : ∃ m, State m (vars [1071, 462, 5]) ∧ Runs env (XCall.zCdivQ 0 0 1).exec m fun _ m' => ∃ ρ', State m' ρ' ∧
    ∀ n, n ∉ [0] → ρ' n = vars [1071, 462, 5] n :=
  let ⟨m, h⟩ := vars_state (l := [1071, 462, 5]) (by simp)
  ⟨m, h, C76_frame_partial h ⟨_, _, .det (.zCdivQ (c := 0) (a := 0) (b := 1) rfl rfl rfl (by norm_num : (462 : Int) ≠ 0))⟩⟩

end Imath
