import Verif.SpecRatHistory
import Verif.Props.RatDecTrunc
import Verif.Props.RatOut
import Verif.Props.Read
import Verif.Props.RatRead
import Verif.Props.History

/-!
# Every admissible call with rational variables does what `QStep` says
-/

namespace Imath

variable {env : Env} {m : Mem} {κ κ' : Nat → Option ℚ} {ι ι' : Nat → Option Int} {c : QCall} {out : List Int}

theorem rv_ne (k : Nat) : (rv k).num ≠ (rv k).den := by simp [rv]

theorem rv_sep (a c : Nat) : SepV (rv a) (rv c) := by
  unfold SepV
  by_cases h : a = c
  · left; rw [h]
  · right; simp only [rv]; omega

theorem flat_num (k : Nat) : flat κ ι (3 * k) = (κ k).map Rat.num := by
  unfold flat; rw [if_pos (by omega), show 3 * k / 3 = k by omega]

theorem flat_den (k : Nat) : flat κ ι (3 * k + 1) = (κ k).map fun q => (q.den : Int) := by
  unfold flat; rw [if_neg (by omega), if_pos (by omega), show (3 * k + 1) / 3 = k by omega]

theorem flat_int (k : Nat) : flat κ ι (3 * k + 2) = ι k := by
  unfold flat; rw [if_neg (by omega), if_neg (by omega), show (3 * k + 2) / 3 = k by omega]

theorem flat_ext {ρ : Nat → Option Int} (h1 : ∀ k, ρ (3 * k) = (κ k).map Rat.num)
    (h2 : ∀ k, ρ (3 * k + 1) = (κ k).map fun q => (q.den : Int)) (h3 : ∀ k, ρ (3 * k + 2) = ι k) : ρ = flat κ ι := by
  funext n
  rcases show n % 3 = 0 ∨ n % 3 = 1 ∨ n % 3 = 2 by omega with h | h | h
  · have := h1 (n / 3)
    rw [show 3 * (n / 3) = n by omega] at this
    rw [this]; unfold flat; rw [if_pos h]
  · have := h2 (n / 3)
    rw [show 3 * (n / 3) + 1 = n by omega] at this
    rw [this]; unfold flat; rw [if_neg (by omega), if_pos h]
  · have := h3 (n / 3)
    rw [show 3 * (n / 3) + 2 = n by omega] at this
    rw [this]; unfold flat; rw [if_neg (by omega), if_neg (by omega)]

theorem hasQ {k : Nat} {q : ℚ} (h : κ k = some q) : HasQ (flat κ ι) (rv k) q := by
  refine ⟨?_, ?_⟩
  · show flat κ ι (3 * k) = _
    rw [flat_num, h]; rfl
  · show flat κ ι (3 * k + 1) = _
    rw [flat_den, h]; rfl

theorem readyQ {k : Nat} {q : ℚ} (h : κ k = some q) : ReadyQ (flat κ ι) (rv k) :=
  ⟨rv_ne k, ⟨_, (hasQ h).1⟩, ⟨_, (hasQ h).2⟩⟩

theorem noneN {k : Nat} (h : κ k = none) : flat κ ι (rv k).num = none := by
  show flat κ ι (3 * k) = _
  rw [flat_num, h]; rfl

theorem noneD {k : Nat} (h : κ k = none) : flat κ ι (rv k).den = none := by
  show flat κ ι (3 * k + 1) = _
  rw [flat_den, h]; rfl

theorem putQ_flat (c : Nat) (q : ℚ) : putQ (flat κ ι) (rv c) q = flat (putR κ c q) ι := by
  refine flat_ext (fun k => ?_) (fun k => ?_) fun k => ?_
  · unfold putQ put putR rv
    by_cases h : k = c
    · subst h; simp
    · simp only [h, if_false]
      rw [if_neg (by omega), if_neg (by omega), flat_num]
  · unfold putQ put putR rv
    by_cases h : k = c
    · subst h; simp
    · simp only [h, if_false]
      rw [if_neg (by omega), if_neg (by omega), flat_den]
  · unfold putQ put rv
    simp only
    rw [if_neg (by omega), if_neg (by omega), flat_int]

theorem putQ_same {c : Nat} {q : ℚ} (h : κ c = some q) : putR κ c q = κ := by
  funext n; unfold putR; split
  · next e => rw [e, h]
  · rfl

theorem del_flat (c : Nat) : del (del (flat κ ι) (rv c).num) (rv c).den = flat (delR κ c) ι := by
  refine flat_ext (fun k => ?_) (fun k => ?_) fun k => ?_
  · unfold del delR rv
    by_cases h : k = c
    · subst h; simp
    · simp only [h, if_false]
      rw [if_neg (by omega), if_neg (by omega), flat_num]
  · unfold del delR rv
    by_cases h : k = c
    · subst h; simp
    · simp only [h, if_false]
      rw [if_neg (by omega), if_neg (by omega), flat_den]
  · unfold del rv
    simp only
    rw [if_neg (by omega), if_neg (by omega), flat_int]

theorem put_flat (i : Nat) (v : Int) : put (flat κ ι) (iv i) v = flat κ (put ι i v) := by
  refine flat_ext (fun k => ?_) (fun k => ?_) fun k => ?_
  · unfold put iv; rw [if_neg (by omega), flat_num]
  · unfold put iv; rw [if_neg (by omega), flat_den]
  · unfold put iv
    by_cases h : k = i
    · subst h; simp
    · rw [if_neg (by omega), if_neg h, flat_int]

theorem int_flat {d : Call} {ρ' : Nat → Option Int} (hs : Step (flat κ ι) d out ρ') (ho : ∀ n ∈ d.outs, n % 3 = 2) :
    ρ' = flat κ fun k => ρ' (3 * k + 2) := by
  refine flat_ext (fun k => ?_) (fun k => ?_) fun k => rfl
  · rw [step_frame hs _ fun hn => by have := ho _ hn; omega, flat_num]
  · rw [step_frame hs _ fun hn => by have := ho _ hn; omega, flat_den]

/-- What has to be shown of a call that is not a call on integers. -/
def QExact (env : Env) (m : Mem) (c : QCall) (out : List Int) (κ' : Nat → Option ℚ) (ι' : Nat → Option Int) : Prop :=
  Runs env c.exec m fun o m' => o = out ∧ State m' (flat κ' ι')

theorem qstep_exact (hs : QStep κ ι c out κ' ι') (hi : c.Fixed) (h : State m (flat κ ι)) :
    QExact env m c out κ' ι' := by
  have D : ∀ {f : M Int} {r0 : Int} (e : c.exec = f >>= fun r => pure [r]) (_ : out = [r0])
    (_ : Runs env f m fun r m' => r = r0 ∧ State m' (flat κ' ι')), QExact env m c out κ' ι' := fun e eo h => by
      unfold QExact; rw [e]
      exact h.list fun _ _ hh => ⟨by rw [hh.1, ← eo], hh.2⟩
  have DS : ∀ {f : M Int} {r0 : Int} (e : c.exec = f >>= fun r => pure [r]) (_ : out = [r0]) (_ : κ' = κ) (_ : ι' = ι)
    (_ : Runs env f m fun r m' => r = r0 ∧ m' = m), QExact env m c out κ' ι' := fun e eo e1 e2 h' => by
      unfold QExact; rw [e]
      exact h'.list fun _ _ hh => ⟨by rw [hh.1, ← eo], by rw [hh.2, e1, e2]; exact h⟩
  have G : ∀ {α : Type} {f : M α} {r0 : α} {g : α → List Int} (e : c.exec = f >>= fun r => pure (g r)) (_ : out = g r0)
    (_ : Runs env f m fun r m' => r = r0 ∧ State m' (flat κ' ι')), QExact env m c out κ' ι' := fun e eo h => by
      unfold QExact; rw [e]
      exact h.list fun _ _ hh => ⟨by rw [hh.1, ← eo], hh.2⟩
  cases hs with
  | init h0 => exact D rfl rfl (by rw [← putQ_flat]; exact C38_init h (rv_ne _) (noneN h0) (noneD h0))
  | initSize h0 h1 h2 => exact D rfl rfl (by rw [← putQ_flat]; exact C38_init_size h (rv_ne _) (noneN h0) (noneD h0) h1 h2)
  | initCopy h0 ha => exact D rfl rfl (by rw [← putQ_flat]; exact C38_init_copy h (rv_ne _) (noneN h0) (noneD h0) (hasQ ha))
  | clear hc =>
    refine (C38_clear h (readyQ hc)).list fun _ m' h' => ⟨rfl, ?_⟩
    rw [← del_flat]; exact h'
  | setValue hc hx hy h0 => exact D rfl rfl (by rw [← putQ_flat]; exact C38_set_value_partial h (readyQ hc) hx hy h0)
  | setValueZero hc => exact DS rfl rfl rfl rfl C38_set_value_zero
  | setUvalue hc hx hy h0 => exact D rfl rfl (by rw [← putQ_flat]; exact C38_set_uvalue h (readyQ hc) hx hy h0)
  | setUvalueZero hc => exact DS rfl rfl rfl rfl C38_set_uvalue_zero
  | copy ha hc => exact D rfl rfl (by rw [← putQ_flat]; exact C38_copy h (hasQ ha) (readyQ hc) (rv_sep _ _))
  | zero hc =>
    refine (C38_zero h (readyQ hc)).list fun _ m' h' => ⟨rfl, ?_⟩
    rw [← putQ_flat]; exact h'
  | abs ha hc => exact D rfl rfl (by rw [← putQ_flat]; exact C38_abs h (hasQ ha) (readyQ hc) (rv_sep _ _))
  | neg ha hc => exact D rfl rfl (by rw [← putQ_flat]; exact C38_neg h (hasQ ha) (readyQ hc) (rv_sep _ _))
  | recip ha hc h0 => exact D rfl rfl (by rw [← putQ_flat]; exact C38_recip h (hasQ ha) (readyQ hc) (rv_sep _ _) h0)
  | recipZero ha hc => exact DS rfl rfl rfl rfl (C38_recip_zero h (hasQ ha) (readyQ hc) (rv_sep _ _))
  | add ha hb hc => exact D rfl rfl (by rw [← putQ_flat]; exact C38_add h (hasQ ha) (hasQ hb) (readyQ hc) (rv_sep _ _) (rv_sep _ _))
  | sub ha hb hc => exact D rfl rfl (by rw [← putQ_flat]; exact C38_sub h (hasQ ha) (hasQ hb) (readyQ hc) (rv_sep _ _) (rv_sep _ _))
  | mul ha hb hc => exact D rfl rfl (by rw [← putQ_flat]; exact C38_mul h (hasQ ha) (hasQ hb) (readyQ hc) (rv_sep _ _) (rv_sep _ _))
  | div ha hb hc h0 => exact D rfl rfl (by rw [← putQ_flat]; exact C38_div h (hasQ ha) (hasQ hb) (readyQ hc) (rv_sep _ _) (rv_sep _ _) h0)
  | divZero ha hb hc => exact DS rfl rfl rfl rfl (C38_div_zero h (hasQ ha) (hasQ hb) (readyQ hc) (rv_sep _ _) (rv_sep _ _))
  | addInt ha hn hc => exact D rfl rfl (by rw [← putQ_flat]; exact C38_add_int h (hasQ ha) hn (readyQ hc) (rv_sep _ _))
  | subInt ha hn hc => exact D rfl rfl (by rw [← putQ_flat]; exact C38_sub_int h (hasQ ha) hn (readyQ hc) (rv_sep _ _))
  | mulInt ha hn hc h1 h2 => exact D rfl rfl (by rw [← putQ_flat]; exact C38_mul_int_partial h (hasQ ha) hn (readyQ hc) (rv_sep _ _) h1 h2)
  | divInt ha hn hc h1 h2 h0 => exact D rfl rfl (by rw [← putQ_flat]; exact C38_div_int_partial h (hasQ ha) hn (readyQ hc) (rv_sep _ _) h1 h2 h0)
  | divIntZero ha hn hc => exact DS rfl rfl rfl rfl (C38_div_int_zero_any h hn)
  | mulIntNum ha hc e => subst e; exact D rfl rfl (by rw [← putQ_flat]; exact (C38_mul_int_part h (hasQ ha) (readyQ hc) (rv_sep _ _)).1)
  | mulIntDen ha hc e => subst e; exact D rfl rfl (by rw [← putQ_flat]; exact (C38_mul_int_part h (hasQ ha) (readyQ hc) (rv_sep _ _)).2)
  | divIntNum ha hc e h0 =>
    subst e
    exact D rfl rfl (by rw [← putQ_flat]; exact (C38_div_int_part h (hasQ ha) (readyQ hc) (rv_sep _ _) (Rat.num_ne_zero.2 h0)).1 (hasQ hc).1)
  | divIntDen ha hc e =>
    subst e
    exact D rfl rfl (by rw [← putQ_flat]; exact (C38_div_int_part h (hasQ ha) (readyQ hc) (rv_sep _ _) (den_ne _)).2 (hasQ hc).2)
  | expt ha hc hk => exact D rfl rfl (by rw [← putQ_flat]; exact C38_expt_partial h (hasQ ha) (readyQ hc) (rv_sep _ _) hk)
  | exptWrap ha hc hk => exact D rfl rfl (by rw [← putQ_flat]; exact C38_expt_residue h (hasQ ha) (readyQ hc) (rv_sep _ _))
  | exptNeg ha hc hk => exact DS rfl rfl rfl rfl (C38_expt_negative h (hasQ ha) (readyQ hc) (rv_sep _ _) hk)
  | @reduce _ p hc =>
    refine D rfl rfl ?_
    have := C37_reduce_partial (env := env) h (rv_ne _) (hasQ hc).1 (hasQ hc).2 (by have := p.den_pos; omega)
    rw [Int.cast_natCast, Rat.num_div_den] at this
    rw [← putQ_flat]; exact this
  | numer ha hv => exact D rfl rfl (by rw [← put_flat]; exact C38_numer h (hasQ ha) ((flat_int _).trans hv))
  | denom ha hv => exact D rfl rfl (by rw [← put_flat]; exact C38_denom h (hasQ ha) ((flat_int _).trans hv))
  | compare ha hb => exact D rfl rfl (C39_compare h (hasQ ha) (hasQ hb))
  | compareUnsigned ha hb => exact D rfl rfl (C39_compare_unsigned h (hasQ ha) (hasQ hb))
  | compareZero ha => exact DS rfl rfl rfl rfl (C39_compare_zero h (hasQ ha))
  | compareValue ha hx hy h0 => exact D rfl rfl (C39_compare_value_partial h (hasQ ha) hx hy h0)
  | compareValueZero ha => exact D rfl rfl (C39_compare_value_zero_any h)
  | @isInteger _ k ha =>
    refine G (r0 := true) rfl rfl ((C39_is_integer h (hasQ ha)).mono fun r m' hh => ⟨hh.1.2 ⟨k, rfl⟩, hh.2⟩)
  | isIntegerNo ha hk =>
    refine G (r0 := false) rfl rfl ((C39_is_integer h (hasQ ha)).mono fun r m' hh => ⟨?_, hh.2⟩)
    cases r with
    | false => rfl
    | true => obtain ⟨k, e⟩ := hh.1.1 rfl; exact absurd e (hk k)
  | @sign a p ha =>
    refine G (r0 := decide (p < 0)) rfl (by simp [outT]) ((C39_sign h (hasQ ha)).mono fun r m' hh => ⟨?_, by rw [hh.2]; exact h⟩)
    rw [Bool.eq_iff_iff, hh.1]; simp
  | toString ha h1 h2 h3 h4 => exact G rfl rfl (C41_to_string h (hasQ ha) ⟨h1, h2⟩ h3 h4)
  | toStringTruncNum ha h1 h2 h3 h4 h5 => exact G rfl rfl (C41_to_string_trunc_num h (hasQ ha) ⟨h1, h2⟩ h3 h4 h5)
  | toStringTruncDen ha h1 h2 h3 h4 h5 => exact G rfl rfl (C41_to_string_trunc_den h (hasQ ha) ⟨h1, h2⟩ h3 h4 h5)
  | toDecimal ha h1 h2 h3 h4 h5 e h6 h7 => subst e; exact G rfl rfl (C40_to_decimal_partial h (hasQ ha) ⟨h1, h2⟩ h3 h4 h5 h6 h7)
  | toDecimalCarry ha h1 h2 h3 h4 h5 e h6 h7 => subst e; exact G rfl rfl (C40_carry_exact h (hasQ ha) ⟨h1, h2⟩ h3 h4 h5 h6 h7)
  | toDecimalTruncInt ha h1 h2 h3 h4 h5 h6 h7 => exact G rfl rfl (C40_trunc_int h (hasQ ha) ⟨h1, h2⟩ h3 (by omega) h5 h6 h7)
  | toDecimalBig ha h1 h2 h3 h4 h5 h6 h7 h8 => exact G rfl rfl (C40_big_trunc h (hasQ ha) ⟨h1, h2⟩ h3 h4 h5 h6 h7 h8)
  | toDecimalTruncPoint ha h1 h2 h3 h4 h5 h6 h7 h8 => exact G rfl rfl (C40_trunc_point h (hasQ ha) ⟨h1, h2⟩ h3 h4 h5 h6 h7 h8)
  | toDecimalTruncLast ha h1 h2 h3 h4 h5 h6 h7 h8 => exact G rfl rfl (C40_trunc_last h (hasQ ha) ⟨h1, h2⟩ h3 h4 h5 h6 h7 h8)
  | toDecimalTruncCarry ha h1 h2 h3 h4 h5 h6 h7 h8 h9 => exact G rfl rfl (C40_trunc_carry h (hasQ ha) ⟨h1, h2⟩ h3 h4 h5 h6 h7 h8 h9)
  | readCstring hc h1 h2 h3 h4 h5 h6 h7 h8 h9 h10 h11 h12 =>
    exact G rfl rfl (by rw [← putQ_flat]; exact C41_read_fraction_partial h (readyQ hc) ⟨h1, h2⟩ h3 h4 h5 h6 h7 h8 h9 h10 h11 h12)
  | readCstringInt hc h1 h2 h3 h4 h5 h6 h7 h8 h9 h10 h11 =>
    exact G rfl rfl (by rw [← putQ_flat]; exact C41_read_integer_partial h (readyQ hc) ⟨h1, h2⟩ h3 h4 h5 h6 h7 h8 h9 h10 h11)
  | readCdecimal hc h1 h2 h3 h4 h5 h6 h7 h8 h9 =>
    exact G rfl rfl (by rw [← putQ_flat]; exact C41_read_decimal_partial h (readyQ hc) ⟨h1, h2⟩ h3 h4 h5 h6 h7 h8 h9)
  | readCdecimalInt hc h1 h2 h3 h4 h5 h6 h7 h8 h9 =>
    exact G rfl rfl (by rw [← putQ_flat]; exact C41_read_decimal_int_partial h (readyQ hc) ⟨h1, h2⟩ h3 h4 h5 h6 h7 h8 h9)
  | readCdecimalPoint hc h1 h2 h3 h4 h5 h6 h7 =>
    exact G rfl rfl (by rw [← putQ_flat]; exact C41_read_decimal_point_partial h (readyQ hc) ⟨h1, h2⟩ h3 h4 h5 h6 h7)
  | toInts ha h1 h2 =>
    exact G (r0 := (MP_OK, some _, some _)) rfl rfl ((C26_to_ints_partial h (hasQ ha) (by unfold Small at h1; omega)).mono fun _ _ hh =>
      ⟨by rw [hh.1, if_pos (by unfold Small at h1; omega), if_pos h2], hh.2⟩)
  | toIntsDen ha h1 h2 =>
    exact G (r0 := (MP_RANGE, some _, none)) rfl rfl ((C26_to_ints_partial h (hasQ ha) (by unfold Small at h1; omega)).mono fun _ _ hh =>
      ⟨by rw [hh.1, if_pos (by unfold Small at h1; omega), if_neg (by omega)], hh.2⟩)
  | toIntsNum ha h1 =>
    exact G (r0 := (MP_RANGE, none, none)) rfl rfl ((C26_to_ints_partial h (hasQ ha) (by omega)).mono fun _ _ hh =>
      ⟨by rw [hh.1, if_neg (by omega)], hh.2⟩)
  | readString hc h1 h2 h0 e1 e2 =>
    exact D rfl rfl (by have := C58_read_fraction_string (env := env) h (readyQ hc) ⟨h1, h2⟩ h0; rw [e1, e2] at this; rw [← putQ_flat]; exact this)
  | readDecimal hc h1 h2 h0 e1 e2 =>
    exact D rfl rfl (by have := C58_read_decimal_string (env := env) h (readyQ hc) ⟨h1, h2⟩ h0; rw [e1, e2] at this; rw [← putQ_flat]; exact this)
  | readUstring hc h1 h0 e1 e2 =>
    exact G rfl rfl (by have := C58_read_text (env := env) h (readyQ hc) h1 h0; rw [e1, e2] at this; rw [← putQ_flat]; exact this)
  | int _ _ => exact absurd hi id
  | stringLen => exact absurd hi id
  | decimalLen => exact absurd hi id

/-- What a call does is determined by the values of the variables and the rounding of `double`s. -/
theorem qstep_det (hs : QStep κ ι c out κ' ι') :
    ∃ P : (Rat → Rat) → List Int → (Nat → Option ℚ) → (Nat → Option Int) → Prop,
      (∀ fl o o' κ₁ ι₁ κ₂ ι₂, P fl o κ₁ ι₁ → P fl o' κ₂ ι₂ → o = o' ∧ κ₁ = κ₂ ∧ ι₁ = ι₂) ∧
      (∀ fl o κ₁ ι₁, P fl o κ₁ ι₁ → QStep κ ι c o κ₁ ι₁) ∧
      ∀ env m, State m (flat κ ι) → Runs env c.exec m fun o m' => ∃ κ₁ ι₁, P env.fl o κ₁ ι₁ ∧ State m' (flat κ₁ ι₁) := by
  by_cases hi : c.Fixed
  · refine ⟨fun _ o κ₁ ι₁ => o = out ∧ κ₁ = κ' ∧ ι₁ = ι', ?_, ?_, ?_⟩
    · rintro _ o o' κ₁ ι₁ κ₂ ι₂ ⟨rfl, rfl, rfl⟩ ⟨rfl, rfl, rfl⟩; exact ⟨rfl, rfl, rfl⟩
    · rintro _ o κ₁ ι₁ ⟨rfl, rfl, rfl⟩; exact hs
    · intro env m h
      exact Runs.mono (qstep_exact hs hi h) fun _ _ hh => ⟨_, _, ⟨hh.1, rfl, rfl⟩, hh.2⟩
  · cases hs with
    | int hs ho =>
      obtain ⟨P, hfun, hstep, hrun⟩ := step_det hs
      refine ⟨fun fl o κ₁ ι₁ => κ₁ = κ ∧ ∃ ρ₁, P fl o ρ₁ ∧ ι₁ = fun k => ρ₁ (3 * k + 2), ?_, ?_, ?_⟩
      · rintro fl o o' κ₁ ι₁ κ₂ ι₂ ⟨rfl, ρ₁, h1, rfl⟩ ⟨rfl, ρ₂, h2, rfl⟩
        obtain ⟨rfl, rfl⟩ := hfun _ _ _ _ _ h1 h2
        exact ⟨rfl, rfl, rfl⟩
      · rintro fl o κ₁ ι₁ ⟨rfl, ρ₁, h1, rfl⟩
        exact .int (hstep _ _ _ h1) ho
      · intro env m h
        refine (hrun env m h).mono fun o m' ⟨ρ₁, h1, h'⟩ => ⟨κ, _, ⟨rfl, ρ₁, h1, rfl⟩, ?_⟩
        rw [← int_flat (hstep _ _ _ h1) ho]; exact h'
    | @stringLen a r p n ha hr1 hr2 hs h1 h2 =>
      refine ⟨fun fl o κ₁ ι₁ => o = [ratStrLen fl r p] ∧
        ((numeral r p.num).length : Int) + (if p = 0 then 0 else (numeral r p.den).length) ≤ ratStrLen fl r p ∧
        ratStrLen fl r p ≤ Nat.size p.num.natAbs + Nat.size p.den + 4 ∧ κ₁ = κ ∧ ι₁ = ι, ?_, ?_, ?_⟩
      · rintro _ o o' κ₁ ι₁ κ₂ ι₂ ⟨rfl, -, -, rfl, rfl⟩ ⟨rfl, -, -, rfl, rfl⟩; exact ⟨rfl, rfl, rfl⟩
      · rintro fl o κ₁ ι₁ ⟨rfl, h3, h4, rfl, rfl⟩; exact .stringLen ha hr1 hr2 hs h3 h4
      · intro env m h
        exact (Runs.of_wp (mp_rat_string_len_exact (Q := fun n m' => n = ratStrLen env.fl r p ∧
          ((numeral r p.num).length : Int) + (if p = 0 then 0 else (numeral r p.den).length) ≤ n ∧
          n ≤ Nat.size p.num.natAbs + Nat.size p.den + 4 ∧ m' = m) ⟨hr1, hr2⟩ h.r2 (hasQ ha).l hs fun h3 h4 => ⟨rfl, h3, h4, rfl⟩)).list
          fun n m' ⟨e, h3, h4, e2⟩ => by subst e e2; exact ⟨κ, ι, ⟨rfl, h3, h4, rfl, rfl⟩, h⟩
    | @decimalLen a r prec p n ha hr1 hr2 hs h1 h2 =>
      refine ⟨fun fl o κ₁ ι₁ => o = [ratDecLen fl r prec p] ∧
        ((numeral r p.num).length : Int) + (if prec = 0 then 1 else (prec : Int) + 2) ≤ ratDecLen fl r prec p ∧
        ratDecLen fl r prec p ≤ Nat.size p.num.natAbs + prec + 5 ∧ κ₁ = κ ∧ ι₁ = ι, ?_, ?_, ?_⟩
      · rintro _ o o' κ₁ ι₁ κ₂ ι₂ ⟨rfl, -, -, rfl, rfl⟩ ⟨rfl, -, -, rfl, rfl⟩; exact ⟨rfl, rfl, rfl⟩
      · rintro fl o κ₁ ι₁ ⟨rfl, h3, h4, rfl, rfl⟩; exact .decimalLen ha hr1 hr2 hs h3 h4
      · intro env m h
        exact (Runs.of_wp (mp_rat_decimal_len_exact (Q := fun n m' => n = ratDecLen env.fl r prec p ∧
          ((numeral r p.num).length : Int) + (if prec = 0 then 1 else (prec : Int) + 2) ≤ n ∧
          n ≤ Nat.size p.num.natAbs + prec + 5 ∧ m' = m) ⟨hr1, hr2⟩ h.r2 (hasQ ha).l hs fun h3 h4 => ⟨rfl, h3, h4, rfl⟩)).list
          fun n m' ⟨e, h3, h4, e2⟩ => by subst e e2; exact ⟨κ, ι, ⟨rfl, h3, h4, rfl, rfl⟩, h⟩
    | _ => exact absurd trivial hi

theorem qstep_sound (hs : QStep κ ι c out κ' ι') (h : State m (flat κ ι)) :
    Runs env c.exec m fun o m' => ∃ κ' ι', QStep κ ι c o κ' ι' ∧ State m' (flat κ' ι') := by
  obtain ⟨P, -, hstep, hrun⟩ := qstep_det hs
  exact (hrun env m h).mono fun o m' ⟨κ₁, ι₁, h1, h'⟩ => ⟨κ₁, ι₁, hstep _ _ _ _ h1, h'⟩

theorem qprog_sound {p : QProg} (hp : QAdmissible κ ι p) : ∀ {m : Mem}, State m (flat κ ι) →
    Runs env p.exec m fun outs m' => ∃ κ' ι', QLeads κ ι p outs κ' ι' ∧ State m' (flat κ' ι') := by
  induction hp with
  | done => intro m h; exact ⟨_, _, .done, h⟩
  | @call κ ι c k hex _ ih =>
    intro m h
    obtain ⟨o, κ1, ι1, hs⟩ := hex
    refine Runs.seq (qstep_sound hs h) fun o m1 ⟨κ1, ι1, hs1, h1⟩ => ?_
    exact (ih o κ1 ι1 hs1 h1).list fun outs m' ⟨κ', ι', hl, h'⟩ => ⟨κ', ι', .call hs1 hl, h'⟩

theorem qprog_det {env env' : Env} (hfl : env.fl = env'.fl) {p : QProg} (hp : QAdmissible κ ι p) :
    ∀ {m₁ m₂ m₁' m₂' : Mem} {o₁ o₂ : List (List Int)}, State m₁ (flat κ ι) → State m₂ (flat κ ι) →
      p.exec env m₁ = .ok o₁ m₁' → p.exec env' m₂ = .ok o₂ m₂' →
      o₁ = o₂ ∧ ∃ κ' ι', QLeads κ ι p o₁ κ' ι' ∧ State m₁' (flat κ' ι') ∧ State m₂' (flat κ' ι') := by
  induction hp with
  | done =>
    intro m₁ m₂ m₁' m₂' o₁ o₂ h1 h2 r1 r2
    cases r1; cases r2
    exact ⟨rfl, _, _, .done, h1, h2⟩
  | @call κ ι c k hex _ ih =>
    intro m₁ m₂ m₁' m₂' o₁ o₂ h1 h2 r1 r2
    obtain ⟨o, κ1, ι1, hs⟩ := hex
    obtain ⟨P, hfun, hstep, hrun⟩ := qstep_det hs
    obtain ⟨a1, n1, e1, r1⟩ := bind_ok r1
    obtain ⟨a2, n2, e2, r2⟩ := bind_ok r2
    obtain ⟨b1, k1, f1, r1⟩ := bind_ok r1
    obtain ⟨b2, k2, f2, r2⟩ := bind_ok r2
    cases r1; cases r2
    have s1 := hrun env m₁ h1
    have s2 := hrun env' m₂ h2
    unfold Runs at s1 s2
    rw [e1] at s1
    rw [e2] at s2
    obtain ⟨κ₁, ι₁, p1, s1⟩ := s1
    obtain ⟨κ₂, ι₂, p2, s2⟩ := s2
    rw [← hfl] at p2
    obtain ⟨rfl, rfl, rfl⟩ := hfun _ _ _ _ _ _ _ p1 p2
    obtain ⟨rfl, κ', ι', hl, t1, t2⟩ := ih a1 κ₁ ι₁ (hstep _ _ _ _ p1) s1 s2 f1 f2
    exact ⟨rfl, κ', ι', .call (hstep _ _ _ _ p1) hl, t1, t2⟩

end Imath
