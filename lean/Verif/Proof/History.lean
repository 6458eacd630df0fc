import Verif.SpecHistory
import Verif.Props.Conv
import Verif.Props.Gcd
import Verif.Props.Exptmod
import Verif.Props.Quirks
import Mathlib.RingTheory.Coprime.Lemmas

/-!
# Every admissible call does what `Step` says
-/

namespace Imath

variable {env : Env} {m : Mem} {ρ ρ' : Nat → Option Int} {c : Call} {out : List Int}

theorem putOpt_eq : putOpt = putO := by
  funext ρ q v; cases q <;> rfl

theorem HasOpt.o {q : Option Nat} (h : HasOpt ρ q) : HasO ρ q := h

theorem cmp3_eq : cmp3 = cmpZ := rfl

theorem Runs.seq {α β : Type} {f : M α} {g : α → M β} {P : α → Mem → Prop} {Q : β → Mem → Prop} (h : Runs env f m P)
    (hq : ∀ r m', P r m' → Runs env (g r) m' Q) : Runs env (f >>= g) m Q := by
  unfold Runs at h
  cases hf : f env m with
  | ok a m' =>
    rw [hf] at h
    have e : (f >>= g) env m = g a env m' := by
      show (match f env m with | .ok a m' => g a env m' | .fault e => .fault e) = _
      rw [hf]
    have := hq _ _ h
    unfold Runs at this ⊢
    rw [e]; exact this
  | fault e =>
    rw [hf] at h
    have e' : (f >>= g) env m = .fault e := by
      show (match f env m with | .ok a m' => g a env m' | .fault e => .fault e) = _
      rw [hf]
    unfold Runs
    rw [e']
    cases e <;> exact h

/-- Performing `f` and turning its result into something else. -/
theorem Runs.list {α β : Type} {f : M α} {g : α → β} {P : α → Mem → Prop} {Q : β → Mem → Prop} (h : Runs env f m P)
    (hq : ∀ r m', P r m' → Q (g r) m') : Runs env (f >>= fun r => pure (g r)) m Q :=
  h.seq fun r m' hh => hq r m' hh

theorem Runs.and {α : Type} {f : M α} {P Q : α → Mem → Prop} (h : Runs env f m P) (h' : Runs env f m Q) :
    Runs env f m fun r m' => P r m' ∧ Q r m' := by
  unfold Runs at h h' ⊢
  cases hf : f env m with
  | ok a m' => rw [hf] at h h'; exact ⟨h, h'⟩
  | fault e => rw [hf] at h; cases e <;> exact h

/-- A result code that is known. -/
theorem one {f : M Int} {r0 : Int} (h : Runs env f m fun r m' => r = r0 ∧ State m' ρ') :
    Runs env (f >>= fun r => pure [r]) m fun o m' => o = [r0] ∧ State m' ρ' :=
  h.list fun _ _ hh => ⟨by rw [hh.1], hh.2⟩

/-- The same, when memory does not change. -/
theorem oneS {f : M Int} {r0 : Int} (hs : State m ρ) (h : Runs env f m fun r m' => r = r0 ∧ m' = m) :
    Runs env (f >>= fun r => pure [r]) m fun o m' => o = [r0] ∧ State m' ρ :=
  h.list fun _ _ hh => ⟨by rw [hh.1], by rw [hh.2]; exact hs⟩

theorem none' {f : M Unit} (h : Runs env f m fun _ m' => State m' ρ') :
    Runs env (f >>= fun _ => pure ([] : List Int)) m fun o m' => o = [] ∧ State m' ρ' :=
  h.list fun _ _ hh => ⟨rfl, hh⟩

theorem tmod_of {x y Q R : Int} (hx : x = Q * y + R) (hQ : Q = x.tdiv y) : R = x.tmod y := by
  have h1 := Int.tmod_add_tdiv_mul x y
  rw [← hQ] at h1
  omega

theorem twosVal_inj {X Y : Bytes} (hX : ∀ b ∈ X, b < 256) (hY : ∀ b ∈ Y, b < 256) (hl : X.length = Y.length)
    (h : twosVal X = twosVal Y) : X = Y := by
  refine beVal_inj hX hY hl ?_
  have h1 := beVal_lt hX
  have h2 := beVal_lt hY
  rw [hl] at h1
  unfold twosVal at h
  rw [hl] at h
  have e1 : ((beVal X : Nat) : Int) < 256 ^ Y.length := by exact_mod_cast h1
  have e2 : ((beVal Y : Nat) : Int) < 256 ^ Y.length := by exact_mod_cast h2
  generalize (256 : Int) ^ Y.length = N at *
  split at h <;> split at h <;> omega

theorem root_unique {k r s n : Nat} (hr : r ^ k ≤ n) (hr' : n < (r + 1) ^ k) (hs : s ^ k ≤ n) (hs' : n < (s + 1) ^ k) : r = s := by
  have h1 : r < s + 1 := lt_of_pow_lt_pow_left₀ k (Nat.zero_le _) (lt_of_le_of_lt hr hs')
  have h2 : s < r + 1 := lt_of_pow_lt_pow_left₀ k (Nat.zero_le _) (lt_of_le_of_lt hs hr')
  omega

theorem inv_unique {x y i j : Int} (hi0 : 0 ≤ i) (hi : i < y) (hi1 : y ∣ x * i - 1) (hj0 : 0 ≤ j) (hj : j < y) (hj1 : y ∣ x * j - 1) : i = j := by
  have hd : y ∣ x * (i - j) := by
    have := Int.dvd_sub hi1 hj1
    rwa [show x * i - 1 - (x * j - 1) = x * (i - j) by ring] at this
  have hco : IsCoprime y x := by
    obtain ⟨t, ht⟩ := hi1
    exact ⟨-t, i, by linarith⟩
  have h2 : y ∣ i - j := hco.dvd_of_dvd_mul_left hd
  obtain ⟨t, ht⟩ := h2
  have : t = 0 := by
    by_contra hne
    rcases lt_or_gt_of_ne hne with h | h
    · have : y * t ≤ -y := by nlinarith
      omega
    · have : y ≤ y * t := by nlinarith
      omega
  rw [this] at ht; omega

theorem inv_gcd {x y i : Int} (h : y ∣ x * i - 1) : Int.gcd x y = 1 := by
  have hco : IsCoprime x y := by
    obtain ⟨t, ht⟩ := h
    exact ⟨i, -t, by linarith⟩
  exact Int.isCoprime_iff_gcd_eq_one.mp hco

theorem bits_unique {n k : Nat} {x : Int} (h1 : 2 ^ n ≤ x) (h2 : x < 2 ^ (n + 1)) (h3 : 2 ^ k ≤ x) (h4 : x < 2 ^ (k + 1)) : n = k := by
  have a1 : (2 : Int) ^ n < 2 ^ (k + 1) := lt_of_le_of_lt h1 h4
  have a2 : (2 : Int) ^ k < 2 ^ (n + 1) := lt_of_le_of_lt h3 h2
  have b1 := (pow_lt_pow_iff_right₀ (by norm_num : (1 : Int) < 2)).mp a1
  have b2 := (pow_lt_pow_iff_right₀ (by norm_num : (1 : Int) < 2)).mp a2
  omega

theorem State.default_precision (h : State m ρ) {n : Nat} (h1 : 0 < n) (h2 : n < 2 ^ 32 - 1) :
    Runs env (mp_int_default_precision n) m fun _ m' => State m' ρ := by
  have : mp_int_default_precision n env m = .ok () { m with defPrec := n } := by
    unfold mp_int_default_precision
    rw [decide_eq_true (show n > 0 from h1)]; rfl
  unfold Runs
  rw [this]
  exact ⟨h.holds, h.place, h.sep, h.noleak, h.decl, h.fresh, ⟨h1, h2⟩, h.thr⟩

theorem State.multiply_threshold (h : State m ρ) {n : Nat} (h1 : 8 ≤ n) :
    Runs env (mp_int_multiply_threshold n) m fun _ m' => State m' ρ := by
  have : mp_int_multiply_threshold n env m = .ok () { m with mulThr := n } := by
    unfold mp_int_multiply_threshold
    rw [decide_eq_true (show n ≥ 8 from h1)]; rfl
  unfold Runs
  rw [this]
  exact ⟨h.holds, h.place, h.sep, h.noleak, h.decl, h.fresh, h.prec, h1⟩

theorem dstep_sound (hd : DStep ρ c out ρ') (h : State m ρ) :
    Runs env c.exec m fun o m' => o = out ∧ State m' ρ' := by
  cases hd with
  | init hc => exact one (C11_init h hc)
  | initSize hc hp => exact one (C11_init_size h hc hp)
  | initCopy hc ha => exact one (C11_init_copy h hc ha)
  | initValue hc hv => exact one (C11_init_value h hc hv)
  | initUvalue hc hv => exact one (C11_init_uvalue h hc hv)
  | clear hc => exact none' (C11_clear h hc)
  | copy ha hc => exact one (C11_copy h ha hc)
  | neg ha hc => exact one (C11_neg h ha hc)
  | abs ha hc => exact one (C11_abs h ha hc)
  | zero hc => exact none' (C11_zero h hc)
  | swap ha hc => exact none' (C11_swap h ha hc)
  | setValue hc hv => exact one (C11_set_value h hc hv)
  | setUvalue hc hv => exact one (C11_set_uvalue h hc hv)
  | add ha hb hc => exact one (C01_add h ha hb hc)
  | addValue ha hc hv => exact one (C01_add_value h ha hc hv)
  | sub ha hb hc => exact one (C02_sub h ha hb hc)
  | subValue ha hc hv => exact one (C02_sub_value h ha hc hv)
  | mul ha hb hc => exact one (C03_mul h ha hb hc)
  | mulValue ha hc hv => exact one (C03_mul_value h ha hc hv)
  | mulPow2 ha hc hp => exact one (C09_mul_pow2_partial h ha hc hp)
  | sqr ha hc => exact one (C04_sqr h ha hc)
  | div ha hb hy hq hr hqr =>
    refine one ((C05_div h ha hb hy hq hr hqr).mono fun r m' hh => ?_)
    obtain ⟨e, Q, R, hx, -, -, hQ, hs⟩ := hh
    have hR := tmod_of hx hQ
    subst hR hQ
    exact ⟨e, by rw [putOpt_eq]; exact hs⟩
  | divZero ha hb hq hr hqr => exact oneS h (C05_div_zero h ha hb hq hr hqr)
  | divValue ha h0 hv hq =>
    refine (C07_div_value h ha hq hv h0).list fun r m' hh => ?_
    obtain ⟨Q, R, e, hx, -, hQ, hs⟩ := hh
    have hR := tmod_of hx hQ
    subst hR hQ
    exact ⟨by rw [e]; rfl, by rw [putOpt_eq]; exact hs⟩
  | divValueZero ha hq =>
    exact (C07_div_value_zero h ha hq).list fun r m' hh => ⟨by rw [hh.1]; rfl, hh.2⟩
  | divPow2 ha hp hq hr hqr hal hnz =>
    refine one ((C09_div_pow2_partial h ha hp hq hr hqr hal hnz).mono fun r m' hh => ?_)
    obtain ⟨e, Q, R, hx, -, hQ, hs⟩ := hh
    have hR := tmod_of hx hQ
    subst hR hQ
    exact ⟨e, by rw [putOpt_eq]; exact hs⟩
  | @mod a b c x y w ha hb hc hy =>
    refine one ((C08_mod h ha hb hc hy).mono fun r m' hh => ?_)
    obtain ⟨e, R, h1, h2, h3, hs⟩ := hh
    have hR : R = x % y := by
      rw [← Int.emod_emod_of_dvd x (dvd_refl y), Int.emod_eq_emod_iff_emod_sub_eq_zero.mpr (Int.emod_eq_zero_of_dvd h3),
        Int.emod_eq_of_lt h1 h2, Int.emod_eq_of_lt h1 h2]
    subst hR
    exact ⟨e, hs⟩
  | modZero ha hb hc => exact one (C08_mod_zero h ha hb hc)
  | @divisible a v x ha hv =>
    refine (C07_divisible_value h ha hv).list fun r m' hh => ⟨?_, hh.2⟩
    by_cases hd : v ≠ 0 ∧ v ∣ x
    · rw [if_pos hd, hh.1.mpr hd]; rfl
    · rw [if_neg hd, show r = false from Bool.eq_false_iff.mpr fun hr => hd (hh.1.mp hr)]; rfl
  | expt ha hc hk => exact one (C17_expt_partial h ha hc hk)
  | exptNeg ha hc hk => exact oneS h (C17_expt_negative h ha hc hk)
  | exptValue hv hc hk => exact one (C17_expt_value_partial h hv hc hk)
  | exptValueNeg hc hk => exact oneS h (C17_expt_value_negative_any hk)
  | exptFull ha hb hc hcb hy => exact one (C18_expt_full_partial h ha hb hc hcb hy)
  | exptFullNeg hb hy => exact oneS h (C18_expt_full_negative h hb hy)
  | exptmod ha hb hd hc hv hy h1 => exact one (C19_exptmod_partial h ha hb hd hc hv hy h1)
  | exptmodZero hd => exact oneS h (C19_exptmod_undef h hd)
  | exptmodNeg hb hd hv hy => exact oneS h (C19_exptmod_negative h hb hd hv hy)
  | exptmodE hr ha hd hc hv hy h1 =>
    exact one ((C19_evalue_partial h hr ha hd hc hv.le h1).mono fun _ _ hh => hh.2.2 hv.ne' hy)
  | exptmodB hr hb hd hc hv hy h1 =>
    exact one ((C19_bvalue_partial h hr hb hd hc hv.le h1).mono fun _ _ hh => hh.2.2 hv.ne' hy)
  | exptmodEZero hr ha hd hc =>
    exact one ((C19_evalue_partial h hr ha hd hc le_rfl (.inr (by norm_num))).mono fun _ _ hh => hh.1 rfl)
  | @exptmodENeg _ y _ _ _ v _ hr ha hd hc hv hy =>
    exact one ((C19_evalue_partial h hr ha hd hc hv.le (.inl hy.ne)).mono fun _ _ hh => hh.2.1 hv.ne' hy)
  | exptmodBZero hr hb hd hc =>
    exact one ((C19_bvalue_partial h hr hb hd hc le_rfl (.inr (by norm_num))).mono fun _ _ hh => hh.1 rfl)
  | exptmodBNeg hr hb hd hc hv hy =>
    exact one ((C19_bvalue_partial h hr hb hd hc hv.le (.inl hy.ne)).mono fun _ _ hh => hh.2.1 hv.ne' hy)
  | exptmodKnownZero hd => exact oneS h (C20_known_undef h hd)
  | exptmodKnownNeg hb hd hv hy => exact oneS h (C20_known_negative h hb hd hv hy)
  | exptmodKnown ha hb hd hu hc hcu hy h0 hk h1 h2 => 
    exact one (C20_exptmod_known_partial h ha hb hd hu (abs_of_nonneg (Int.ediv_nonneg (by positivity) (le_trans (by positivity) h1))) hc hcu hy h0 hk h1 h2)
  | reduxConst hd hc hw hcd hk h1 h2 => exact one (C20_redux_const_partial h hd hc hw hcd hk h1 h2)
  | @gcd a b c x y w ha hb hc h0 =>
    refine one ((C21_gcd h ha hb hc h0).mono fun r m' hh => ?_)
    obtain ⟨e, g, -, g1, g2, g3, hs⟩ := hh
    have : g = Int.gcd x y := Nat.dvd_antisymm (Int.natCast_dvd_natCast.mp (Int.dvd_coe_gcd g1 g2))
      (Int.natCast_dvd_natCast.mp (g3 _ (Int.gcd_dvd_left ..) (Int.gcd_dvd_right ..)))
    subst this
    exact ⟨e, hs⟩
  | gcdZero ha hb hc => exact oneS h (C21_gcd_zero h ha hb hc)
  | egcdZero ha hb hXY => exact oneS h (C22_zero h ha hb hXY)
  | @lcm a b c x y w ha hb hc h0 =>
    refine one (.of_wp (mp_int_lcm_spec (ref_refused env) h.r2 ha hb hc rfl (fun e1 e2 => ?_) fun _ m' h' => ⟨rfl, ?_⟩))
    · rcases h0 with h0 | h0
      · exact absurd e1 h0
      · exact absurd e2 h0
    · rw [upd_lift] at h'; exact h'.state
  | lcmZero ha hb hc => exact one (C23_lcm_zero h ha hb hc)
  | invmod ha hb hc hx h1 i0 i1 i2 =>
    refine one ((C24_invmod_partial h ha hb hc hx (by omega) (inv_gcd i2) h1).mono fun r m' hh => ?_)
    obtain ⟨e, j, j0, j1, j2, hs⟩ := hh
    rw [inv_unique i0 i1 i2 j0 j1 j2]
    exact ⟨e, hs⟩
  | invmodRange ha hb hc h0 => exact oneS h (C24_invmod_range h ha hb hc h0)
  | invmodUndef ha hb hc hx hy hg => exact one (C24_invmod_undef h ha hb hc hx hy hg)
  | root ha hc hk hk2 h0 r1 r2 =>
    refine one ((C25_root_partial h ha hc hk hk2 h0).mono fun r m' hh => ?_)
    obtain ⟨e, s, s1, s2, hs⟩ := hh
    rw [root_unique r1 r2 s1 s2]
    exact ⟨e, hs⟩
  | rootUndef ha hc hk hk2 h0 h1 => exact oneS h (C25_root_undef h ha hc hk hk2 h0 h1)
  | compare ha hb => exact oneS h (.of_wp (mp_int_compare_spec h.r2 ha hb ⟨rfl, rfl⟩))
  | compareUnsigned ha hb => exact oneS h (.of_wp (mp_int_compare_unsigned_spec h.r2 ha hb ⟨rfl, rfl⟩))
  | compareZero ha =>
    refine oneS h (.of_wp (mp_int_compare_zero_spec h.r2 ha ⟨?_, rfl⟩))
    unfold cmp3
    split
    · exact Int.sign_eq_neg_one_of_neg ‹_›
    · split
      · rename_i hx; rw [hx]; rfl
      · exact Int.sign_eq_one_of_pos (by omega)
  | compareValue ha hv1 hv2 =>
    exact one (.of_wp (mp_int_compare_value_spec hv1 (by omega) h.r2 ha fun m' h' => ⟨rfl, h'.state⟩))
  | compareUvalue ha hv =>
    exact one (.of_wp (mp_int_compare_uvalue_spec hv h.r2 ha fun m' h' => ⟨rfl, h'.state⟩))
  | @isPow2 a k ha =>
    refine oneS h ((C27_is_pow2_partial h ha (by positivity)).mono fun r m' hh => ⟨?_, hh.2⟩)
    rcases hh.1 with ⟨j, hj, e⟩ | ⟨hn, -⟩
    · rw [e, Int.pow_right_injective (a := 2) (by norm_num) hj]
    · exact absurd rfl (hn k)
  | isPow2No ha hx hn =>
    refine oneS h ((C27_is_pow2_partial h ha hx).mono fun r m' hh => ⟨?_, hh.2⟩)
    rcases hh.1 with ⟨j, hj, e⟩ | ⟨-, e⟩
    · exact absurd hj (hn j)
    · exact e
  | @countBits a x n ha h1 h2 =>
    refine oneS h ((C27_count_bits h ha).mono fun r m' hh => ⟨?_, hh.2.2⟩)
    have hx : x ≠ 0 := by
      rintro rfl
      have : (0 : Int) < 2 ^ n := by positivity
      simp at h1; omega
    obtain ⟨k, e, k1, k2⟩ := hh.2.1 hx
    rw [e, bits_unique h1 h2 k1 k2]
  | countBitsZero ha =>
    exact oneS h ((C27_count_bits h ha).mono fun r m' hh => ⟨hh.1 rfl, hh.2.2⟩)
  | @isOdd a x ha =>
    refine (C27_is_odd h ha).list fun r m' hh => ⟨?_, by rw [hh.2]; exact h⟩
    by_cases hd : 2 ∣ x
    · rw [if_pos hd, show r = false from Bool.eq_false_iff.mpr fun hr => hh.1.mp hr hd]; rfl
    · rw [if_neg hd, hh.1.mpr hd]; rfl
  | @isEven a x ha =>
    refine (C27_is_even h ha).list fun r m' hh => ⟨?_, by rw [hh.2]; exact h⟩
    by_cases hd : 2 ∣ x
    · rw [if_pos hd, hh.1.mpr hd]; rfl
    · rw [if_neg hd, show r = false from Bool.eq_false_iff.mpr fun hr => hd (hh.1.mp hr)]; rfl
  | toInt ha hx =>
    refine (C26_to_int_partial h ha hx.1.ne').list fun r m' hh => ⟨?_, hh.2⟩
    rw [hh.1, if_pos ⟨hx.1.le, hx.2⟩]; rfl
  | toIntRange ha hx =>
    refine (C26_to_int_partial h ha (by omega)).list fun r m' hh => ⟨?_, hh.2⟩
    rw [hh.1, if_neg (by omega)]; rfl
  | toUint ha h0 hx =>
    refine (C26_to_uint h ha).list fun r m' hh => ⟨?_, hh.2⟩
    rw [hh.1, if_pos ⟨h0, hx⟩]
    simp [outU, h0]
  | toUintRange ha hx =>
    refine (C26_to_uint h ha).list fun r m' hh => ⟨?_, hh.2⟩
    rw [hh.1, if_neg (by omega)]; rfl
  | toString ha hr1 hr2 hlim hfit hbuf =>
    exact (C28_to_string h ha ⟨hr1, hr2⟩ hlim hfit hbuf).list fun r m' hh => ⟨by rw [hh.1], hh.2⟩
  | toStringTrunc ha hr1 hr2 hlim hfit hbuf =>
    exact (C29_to_string_truncated h ha ⟨hr1, hr2⟩ hlim hfit hbuf).list fun r m' hh => ⟨by rw [hh.1], hh.2⟩
  | readCstring hc hr1 hr2 hsp hsg hds hch hhead hnul =>
    exact (C31_read_cstring_partial h hc ⟨hr1, hr2⟩ hsp hsg hds hch hhead hnul).list fun r m' hh => ⟨by rw [hh.1], hh.2⟩
  | toBinary ha hlim hbuf hX hB hv =>
    refine (C33_to_binary h ha hlim hbuf).list fun r m' hh => ?_
    obtain ⟨e, Y, hY, hl, hb, hy⟩ := hh
    rw [hY, twosVal_inj hb hB (hl.trans hX.symm) (hy.trans hv.symm), e]
    exact ⟨rfl, h⟩
  | toBinaryTrunc ha hlim hfit hbuf hX hB hv =>
    refine (C35_to_binary h ha hlim hbuf).list fun r m' hh => ?_
    obtain ⟨e, -, -, -, em, hx⟩ := hh
    obtain ⟨Y, hY, hl, hb, hy⟩ := hx hfit
    obtain ⟨r1, r2⟩ := r
    cases show r1 = MP_TRUNC from e.mpr hfit
    cases show r2 = _ from hY
    rw [beVal_inj hb hB (by omega) (Int.ofNat.inj (hy.trans hv.symm)), em]
    exact ⟨rfl, h⟩
  | readBinary hc hX h1 h2 =>
    exact (C33_read_binary_partial h hc hX h1 h2).list fun r m' hh => ⟨by rw [hh.1], hh.2⟩
  | toUnsigned ha hlim hbuf hX hB hv =>
    refine (C34_to_unsigned h ha hlim hbuf).list fun r m' hh => ?_
    obtain ⟨e, Y, hY, hl, hb, hy⟩ := hh
    rw [hY, beVal_inj hb hB (hl.trans hX.symm) (Int.ofNat.inj (hy.trans hv.symm)), e]
    exact ⟨rfl, h⟩
  | toUnsignedTrunc ha hlim hfit hbuf hX hB hv =>
    refine (C35_to_unsigned h ha hlim hbuf).list fun r m' hh => ?_
    obtain ⟨e, -, -, -, em, hx⟩ := hh
    obtain ⟨Y, hY, hl, hb, hy⟩ := hx hfit
    obtain ⟨r1, r2⟩ := r
    cases show r1 = MP_TRUNC from e.mpr hfit
    cases show r2 = _ from hY
    rw [beVal_inj hb hB (by omega) (Int.ofNat.inj (hy.trans hv.symm)), em]
    exact ⟨rfl, h⟩
  | readUnsigned hc hX h1 h2 => exact one (C34_read_unsigned_partial h hc hX h1 h2)
  | binaryLen ha => exact oneS h (C33_binary_len h ha)
  | unsignedLen ha => exact oneS h (C34_unsigned_len h ha)
  | defaultPrecision h1 h2 => exact none' (h.default_precision h1 h2)
  | multiplyThreshold h1 => exact none' (h.multiply_threshold h1)

theorem ustep_sound (hu : UStep ρ c out ρ') (h : State m ρ) :
    Runs env c.exec m fun o m' => o = out ∧ State m' ρ' := by
  cases hu with
  | mulPow2 ha hc => exact one (C09_mul_pow2_truncates h ha hc)
  | divPow2 ha hq hr hqr hal hnz =>
    rw [putOpt_eq]
    exact one (C09_div_pow2_truncates h ha hq hr hqr hal hnz)
  | divPow2Alias ha hr har hnz => exact one (C09_div_pow2_alias_truncates h ha hr har hnz)
  | mod ha hb hc hy => exact one (C08_mod_negative h ha hb hc hy)
  | expt ha hc => exact one (C17_expt_truncates h ha hc)
  | exptValue hv hc => exact one (C17_expt_value_truncates h hv hc)
  | exptFull ha hb hy hx => exact one (C18_alias_small h ha hb hy hx)
  | exptmod ha hb hd hc => exact one (C19_exptmod_one h ha hb hd hc)
  | exptmodE ha hd hc => exact one (C19_evalue_one h ha hd hc)
  | exptmodB hx hb hd hc => exact one (C19_bvalue_one h hx hb hd hc)
  | exptmodKnown ha hb hd hu hU hc hcu => exact one (C20_known_one h ha hb hd hu hU hc hcu)
  | exptmodMod ha hb hd hc hv hy => exact one (C19_exptmod_negmod h ha hb hd hc hv hy)
  | exptmodEMod hr ha hd hc hv hy => exact one (C19_evalue_negmod h hr ha hd hc hv hy)
  | exptmodENeg hr ha hd hc hv hy => exact one (C19_evalue_negative h hr ha hd hc hv.ne hy)
  | exptmodBMod hr hb hd hc hv hy => exact one (C19_bvalue_negmod h hr hb hd hc hv hy)
  | exptmodBNeg hr hb hd hc hv hy => exact one (C19_bvalue_negative h hr hb hd hc hv.ne hy)
  | exptmodKnownMod ha hb hd hu hU hc hcu hy hv hk h1 h2 => exact one (C20_known_negmod h ha hb hd hu hU hc hcu hy hv hk h1 h2)
  | exptmodKnownSign ha hb hd hu hU hc hcu hy h0 hk h1 h2 => exact one (C20_exptmod_known_partial h ha hb hd hu hU hc hcu hy h0 hk h1 h2)
  | reduxConst hd hc hcd hk h1 h2 => exact one (C20_redux_const_sign h hd hc hcd hk h1 h2)
  | reduxConstZero hd hc hcd => exact one (C20_redux_const_undef h hd hc hcd)
  | egcdLeft ha hb hc hy hX hY => exact one (C22_left_zero_any h ha hb hc hy hX hY)
  | egcdRight ha hb hc hx hX hY => exact one (C22_right_zero_any h ha hb hc hx hX hY)
  | invmod ha hb hc hx => exact one (C24_invmod_one h ha hb hc hx)
  | root ha hc hk hk2 h0 r1 r2 =>
    refine one ((C25_root_any h ha hc hk hk2 h0).mono fun r m' hh => ?_)
    obtain ⟨e, s, s1, s2, hs⟩ := hh
    rw [root_unique r1 r2 s1 s2]
    exact ⟨e, hs⟩
  | rootMultiple ha hc hk hk2 hk3 h0 => exact one (C25_root_multiple h ha hc hk hk2 hk3 h0)
  | rootMultipleZero ha hc hk hk2 hk3 => exact one (C25_root_multiple_zero h ha hc hk hk2 hk3)
  | isPow2Zero ha => exact oneS h (C27_is_pow2_zero h ha)
  | @isPow2 a k ha =>
    refine oneS h ((C27_is_pow2_negative h ha (by simp)).mono fun r m' hh => ⟨?_, hh.2⟩)
    rcases hh.1 with ⟨j, hj, e⟩ | ⟨hn, -⟩
    · rw [e, Int.pow_right_injective (a := 2) (by norm_num) (neg_inj.mp hj)]
    · exact absurd rfl (hn k)
  | isPow2No ha hx hn =>
    refine oneS h ((C27_is_pow2_negative h ha hx).mono fun r m' hh => ⟨?_, hh.2⟩)
    rcases hh.1 with ⟨j, hj, e⟩ | ⟨-, e⟩
    · exact absurd hj (hn j)
    · exact e

theorem nstep_sound (hn : NStep ρ c out ρ') (h : State m ρ) :
    Runs env c.exec m fun o m' => ∃ ρ', NStep ρ c o ρ' ∧ State m' ρ' := by
  cases hn with
  | @egcd a b c x y w X Y P R ha hb hc hx hy hX hY hXY hPR =>
    refine (C22_egcd_abs h ha hb hc hx hy hX hY hXY).list fun r m' hh => ?_
    obtain ⟨e, g, P', R', ⟨-, g1, g2, g3⟩, hb', hs⟩ := hh
    have : g = Int.gcd x y := Nat.dvd_antisymm (Int.natCast_dvd_natCast.mp (Int.dvd_coe_gcd g1 g2))
      (Int.natCast_dvd_natCast.mp (g3 _ (Int.gcd_dvd_left ..) (Int.gcd_dvd_right ..)))
    subst this
    rw [e]
    exact ⟨_, .egcd ha hb hc hx hy hX hY hXY hb', by rw [putOpt_eq]; exact hs⟩
  | stringLen ha hr1 hr2 hn =>
    refine (C30_string_len_plus_one h ha ⟨hr1, hr2⟩).list fun r m' hh => ⟨ρ, ?_, by rw [hh.2]; exact h⟩
    exact .stringLen ha hr1 hr2 (by omega)

theorem step_sound (hs : Step ρ c out ρ') (h : State m ρ) :
    Runs env c.exec m fun o m' => ∃ ρ', Step ρ c o ρ' ∧ State m' ρ' := by
  rcases hs with hs | hs | hs
  · exact (dstep_sound hs h).mono fun _ _ hh => ⟨_, .inl (by rw [hh.1]; exact hs), hh.2⟩
  · exact (ustep_sound hs h).mono fun _ _ hh => ⟨_, .inr (.inl (by rw [hh.1]; exact hs)), hh.2⟩
  · exact (nstep_sound hs h).mono fun _ _ ⟨_, h1, h2⟩ => ⟨_, .inr (.inr h1), h2⟩

/-! ### Determinism -/

theorem EgcdRuns {a b d : Nat} {x y w : Int} {X Y : Option Nat} (h : State m ρ) (ha : ρ a = some x) (hb : ρ b = some y)
    (hd : ρ d = some w) (hx : x ≠ 0) (hy : y ≠ 0) (hX : HasO ρ X) (hY : HasO ρ Y) (hXY : X ≠ none ∨ Y ≠ none) :
    Runs env (mp_int_egcd (.var a) (.var b) (.var d) (ids X) (ids Y)) m fun res m' =>
      res = MP_OK ∧ ∃ P R : Int, (Int.gcd x y : Int) = |x| * P + |y| * R ∧ EgcdOut x y P R ∧
        State m' (put (putO (putO ρ X P) Y R) d (Int.gcd x y)) := by
  refine .of_wp (mp_int_egcd_nz (ref_refused env) h.r2 ha hb hx hy (by cases X <;> cases Y <;> simp_all [ids]) hX.ok hY.ok hd rfl
    fun P R hPR ho m' h' => ⟨rfl, P, R, by rw [hPR]; ring, ho, ?_⟩)
  rw [egcdPut_lift] at h'; exact h'.state

/-- What `mp_int_string_len` returns, given how `double` arithmetic rounds. -/
def strLen (fl : Rat → Rat) (r : Nat) (v : Int) : Int := outLen fl r v + 1 + if v < 0 then 1 else 0

/-- Of every admissible call it is determined what it returns and which values it leaves, given how
`double` arithmetic rounds. -/
theorem step_det (hs : Step ρ c out ρ') : ∃ P : (Rat → Rat) → List Int → (Nat → Option Int) → Prop,
    (∀ fl o o' ρ₁ ρ₂, P fl o ρ₁ → P fl o' ρ₂ → o = o' ∧ ρ₁ = ρ₂) ∧ (∀ fl o ρ₁, P fl o ρ₁ → Step ρ c o ρ₁) ∧
    ∀ env m, State m ρ → Runs env c.exec m fun o m' => ∃ ρ₁, P env.fl o ρ₁ ∧ State m' ρ₁ := by
  rcases hs with hs | hs | hs
  · refine ⟨fun _ o ρ₁ => o = out ∧ ρ₁ = ρ', fun _ o o' ρ₁ ρ₂ h1 h2 => ⟨h1.1.trans h2.1.symm, h1.2.trans h2.2.symm⟩, ?_, ?_⟩
    · rintro _ o ρ₁ ⟨rfl, rfl⟩; exact .inl hs
    · intro env m h
      exact (dstep_sound hs h).mono fun _ _ hh => ⟨_, ⟨hh.1, rfl⟩, hh.2⟩
  · refine ⟨fun _ o ρ₁ => o = out ∧ ρ₁ = ρ', fun _ o o' ρ₁ ρ₂ h1 h2 => ⟨h1.1.trans h2.1.symm, h1.2.trans h2.2.symm⟩, ?_, ?_⟩
    · rintro _ o ρ₁ ⟨rfl, rfl⟩; exact .inr (.inl hs)
    · intro env m h
      exact (ustep_sound hs h).mono fun _ _ hh => ⟨_, ⟨hh.1, rfl⟩, hh.2⟩
  · cases hs with
    | @egcd a b c x y w X Y P R ha hb hc hx hy hX hY hXY hPR =>
      refine ⟨fun _ o ρ₁ => o = [MP_OK] ∧ ∃ P R : Int, (Int.gcd x y : Int) = |x| * P + |y| * R ∧ EgcdOut x y P R ∧
        ρ₁ = put (putOpt (putOpt ρ X P) Y R) c (Int.gcd x y), ?_, ?_, ?_⟩
      · rintro _ o o' ρ₁ ρ₂ ⟨rfl, P, R, -, h1, rfl⟩ ⟨rfl, P', R', -, h2, rfl⟩
        obtain ⟨rfl, rfl⟩ := h1.det h2
        exact ⟨rfl, rfl⟩
      · rintro _ o ρ₁ ⟨rfl, P, R, h1, -, rfl⟩
        exact .inr (.inr (.egcd ha hb hc hx hy hX hY hXY h1))
      · intro env m h
        refine (EgcdRuns h ha hb hc hx hy hX hY hXY).list fun r m' hh => ?_
        obtain ⟨e, P, R, h1, h2, h3⟩ := hh
        exact ⟨_, ⟨by rw [e], P, R, h1, h2, rfl⟩, by rw [putOpt_eq]; exact h3⟩
    | @stringLen a r x n ha hr1 hr2 hn =>
      refine ⟨fun fl o ρ₁ => o = [strLen fl r x] ∧ ((numeral r x).length : Int) ≤ strLen fl r x ∧ ρ₁ = ρ, ?_, ?_, ?_⟩
      · rintro _ o o' ρ₁ ρ₂ ⟨rfl, -, rfl⟩ ⟨rfl, -, rfl⟩
        exact ⟨rfl, rfl⟩
      · rintro _ o ρ₁ ⟨rfl, h1, rfl⟩
        exact .inr (.inr (.stringLen ha hr1 hr2 h1))
      · intro env m h
        refine ((C30_string_len_plus_one h ha ⟨hr1, hr2⟩).and (.of_wp (mp_int_string_len_exact hr1 hr2 h.r2 ha (Q := fun o _ => o = strLen env.fl r x) rfl))).list fun r m' hh => ?_
        obtain ⟨⟨h1, h2⟩, h3⟩ := hh
        subst h3 h2
        exact ⟨ρ, ⟨rfl, by omega, rfl⟩, h⟩

theorem bind_ok {α β : Type} {f : M α} {g : α → M β} {b : β} {m' : Mem} (h : (f >>= g) env m = .ok b m') :
    ∃ a m₁, f env m = .ok a m₁ ∧ g a env m₁ = .ok b m' := by
  have e : (f >>= g) env m = match f env m with | .ok a m' => g a env m' | .fault e => .fault e := rfl
  rw [e] at h
  cases hf : f env m with
  | ok a m₁ => rw [hf] at h; exact ⟨a, m₁, rfl, h⟩
  | fault e => rw [hf] at h; cases h

theorem prog_det {env env' : Env} {p : Prog} (hfl : env.fl = env'.fl) (hp : Admissible ρ p) : ∀ {m₁ m₂ m₁' m₂' : Mem} {o₁ o₂ : List (List Int)},
    State m₁ ρ → State m₂ ρ → p.exec env m₁ = .ok o₁ m₁' → p.exec env' m₂ = .ok o₂ m₂' →
    o₁ = o₂ ∧ ∃ ρ', Leads ρ p o₁ ρ' ∧ State m₁' ρ' ∧ State m₂' ρ' := by
  induction hp with
  | done =>
    intro m₁ m₂ m₁' m₂' o₁ o₂ h1 h2 r1 r2
    cases r1; cases r2
    exact ⟨rfl, _, .done, h1, h2⟩
  | @call ρ c k hex _ ih =>
    intro m₁ m₂ m₁' m₂' o₁ o₂ h1 h2 r1 r2
    obtain ⟨o, ρ1, hs⟩ := hex
    obtain ⟨P, hfun, hstep, hrun⟩ := step_det hs
    obtain ⟨a1, n1, e1, r1⟩ := bind_ok r1
    obtain ⟨a2, n2, e2, r2⟩ := bind_ok r2
    obtain ⟨b1, k1, f1, r1⟩ := bind_ok r1
    obtain ⟨b2, k2, f2, r2⟩ := bind_ok r2
    cases r1; cases r2
    have s1 := hrun env m₁ h1
    have s2 := hrun env' m₂ h2
    unfold Runs at s1 s2
    rw [e1] at s1
    rw [e2] at s2
    obtain ⟨ρ₁, p1, s1⟩ := s1
    obtain ⟨ρ₂, p2, s2⟩ := s2
    rw [← hfl] at p2
    obtain ⟨rfl, rfl⟩ := hfun _ _ _ _ _ p1 p2
    obtain ⟨rfl, ρ', hl, t1, t2⟩ := ih a1 ρ₁ (hstep _ _ _ p1) s1 s2 f1 f2
    exact ⟨rfl, ρ', .call (hstep _ _ _ p1) hl, t1, t2⟩

theorem prog_sound {p : Prog} (hp : Admissible ρ p) : ∀ {m : Mem}, State m ρ →
    Runs env p.exec m fun outs m' => ∃ ρ', Leads ρ p outs ρ' ∧ State m' ρ' := by
  induction hp with
  | done => intro m h; exact ⟨_, .done, h⟩
  | @call ρ c k hex _ ih =>
    intro m h
    obtain ⟨o, ρ1, hs⟩ := hex
    refine (step_sound hs h).seq fun o m1 ⟨ρ1, hs1, h1⟩ => ?_
    exact (ih o ρ1 hs1 h1).list fun outs m' ⟨ρ', hl, h'⟩ => ⟨ρ', .call hs1 hl, h'⟩

theorem dprog_sound {p : Prog} {outs : List (List Int)} (hp : DLeads ρ p outs ρ') : ∀ {m : Mem}, State m ρ →
    Runs env p.exec m fun o m' => o = outs ∧ State m' ρ' := by
  induction hp with
  | done => intro m h; exact ⟨rfl, h⟩
  | call hs _ ih =>
    intro m h
    refine (dstep_sound hs h).seq fun o m1 ⟨e, h1⟩ => ?_
    subst e
    exact (ih h1).list fun outs m' ⟨e, h'⟩ => ⟨by rw [e], h'⟩

end Imath
