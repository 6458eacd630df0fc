import Verif.Props.Gcd
import Verif.Proof.ExptmodNeg
import Verif.Props.Exptmod
import Verif.Props.Div
import Verif.Props.Expt

/-!
# What the library does where the properties fail

Several properties (C08, C09, C17 - C20, C22, C24, C27) are false for some arguments, as witnesses beside
them show.  The theorems here say for all such arguments what the functions do instead: the calls are
defined, leave all variables in order and have a determined, if unexpected, result.
-/

namespace Imath

variable {env : Env} {E : Fault → Prop} {m : Mem} {σ : Id → Option Int} {ρ : Nat → Option Int} {a b c d u : Nat} {x y v w : Int}

/-! ### C08, C09 -/

/-- The result of `mp_int_mod` for a negative modulus: the truncated remainder, moved *down* once if negative.  It is
in the range of a remainder only if it was not negative. -/
theorem C08_mod_negative (h : State m ρ) (ha : ρ a = some x) (hb : ρ b = some y) (hc : ρ c = some w) (hy : y < 0) :
    Runs env (mp_int_mod (.var a) (.var b) (.var c)) m fun res m' =>
      res = MP_OK ∧ State m' (put ρ c (if x.tmod y < 0 then x.tmod y + y else x.tmod y)) := by
  refine .of_wp (mp_int_mod_spec (ref_refused env) h.r2 ha hb hc rfl (fun h0 => by omega) fun _ m' h' => ⟨rfl, ?_⟩)
  rw [upd_lift] at h'; exact h'.state

/-- Only the low 32 bits of the exponent count. -/
theorem C09_div_pow2_truncates {p : Nat} {q r : Option Nat} (h : State m ρ) (ha : ρ a = some x)
    (hq : HasO ρ q) (hr : HasO ρ r) (hqr : q ≠ r) (hal : q = some a → r = none)
    (hnz : r ≠ none → x < 0 → ¬ 2 ^ (p % 2 ^ 32) ∣ x) :
    Runs env (mp_int_div_pow2 (.var a) p (ids q) (ids r)) m fun res m' =>
      res = MP_OK ∧ State m' (putO (putO ρ q (x.tdiv (2 ^ (p % 2 ^ 32)))) r (x.tmod (2 ^ (p % 2 ^ 32)))) := by
  have e : mp_int_div_pow2 (.var a) p (ids q) (ids r) = mp_int_div_pow2 (.var a) ((p % 2 ^ 32 : Nat) : Int) (ids q) (ids r) := by
    have h1 : intU32 ((p % 2 ^ 32 : Nat) : Int) = intU32 p := by unfold intU32; omega
    have h2 : decide ((p : Int) ≥ 0) = decide (((p % 2 ^ 32 : Nat) : Int) ≥ 0) := by
      rw [decide_eq_true (show (p : Int) ≥ 0 by omega), decide_eq_true (by omega)]
    unfold mp_int_div_pow2
    rw [h1, h2]
  rw [e]
  refine (C09_div_pow2_partial h ha (Nat.mod_lt _ (by norm_num)) hq hr hqr hal hnz).mono fun res m' hh => ?_
  obtain ⟨e, Q, R, hx, -, hQ, hs⟩ := hh
  have hR : R = x.tmod (2 ^ (p % 2 ^ 32)) := by
    have h1 := Int.tmod_add_tdiv_mul x (2 ^ (p % 2 ^ 32))
    rw [← hQ] at h1
    omega
  subst hR hQ
  exact ⟨e, hs⟩

theorem mp_int_div_pow2_alias {Q : Int → Mem → Prop} {a r : Id} {p2 : Nat} (hE : Ref env E) (h : R2 m σ)
    (ha : σ a = some x) (har : a ≠ r) (hp : p2 < 4294967296) (oa : a.own = true) (hr : σ r = some w) (or : r.own = true)
    (hnz : x.tdiv (2 ^ p2) < 0 → (x.tdiv (2 ^ p2)).tmod (2 ^ p2) ≠ 0)
    (hQ : ∀ m', R2 m' (upd (upd σ a (some (x.tdiv (2 ^ p2)))) r (some ((x.tdiv (2 ^ p2)).tmod (2 ^ p2)))) → Q MP_OK m') :
    wp env E (mp_int_div_pow2 a p2 (some a) (some r)) Q m := by
  unfold mp_int_div_pow2
  refine wp_bind (wp_cassert (by simp) ?_)
  refine wp_bind (wp_cassert (by simpa using har) ?_)
  rw [intU32_of_nat hp]
  refine wp_bind (wp_bind (mp_int_copy_spec hE h ha ha oa fun m1 h1 => ?_))
  refine wp_bind (wp_cwhen (fun _ => ?_) (fun hne => absurd rfl hne))
  refine s_qdiv_spec h1 (upd_self _ _ _) fun m2 h2 => ?_
  rw [upd_upd, sval_tdiv_pow] at h2
  refine wp_pure (wp_if_pos rfl ?_)
  refine wp_bind (mp_int_copy_spec hE h2 (upd_self _ _ _) (by rw [upd_ne _ _ (Ne.symm har)]; exact hr) or fun m3 h3 => ?_)
  refine wp_bind (wp_cwhen (fun _ => ?_) (fun hne => absurd rfl hne))
  refine s_qmod_spec h3 (upd_self _ _ _) hp hnz fun m4 h4 => ?_
  rw [upd_upd] at h4
  exact wp_pure (hQ m4 h4)

/-- If the quotient is stored in the variable of the dividend, the remainder is that of the quotient. -/
theorem C09_div_pow2_alias {p r : Nat} (h : State m ρ) (ha : ρ a = some x) (hp : p < 2 ^ 32) (hr : ρ r = some w) (har : a ≠ r)
    (hnz : x.tdiv (2 ^ p) < 0 → ¬ 2 ^ p ∣ x.tdiv (2 ^ p)) :
    Runs env (mp_int_div_pow2 (.var a) p (some (.var a)) (some (.var r))) m fun res m' =>
      res = MP_OK ∧ State m' (put (put ρ a (x.tdiv (2 ^ p))) r ((x.tdiv (2 ^ p)).tmod (2 ^ p))) := by
  refine .of_wp (mp_int_div_pow2_alias (ref_refused env) h.r2 ha (by simpa using har) hp rfl hr rfl
    (fun h1 h2 => hnz h1 (Int.dvd_iff_tmod_eq_zero.2 h2)) fun m' h' => ⟨rfl, ?_⟩)
  rw [upd_lift, upd_lift] at h'; exact h'.state

/-- The same for every exponent, of which only the low 32 bits count. -/
theorem C09_div_pow2_alias_truncates {p r : Nat} (h : State m ρ) (ha : ρ a = some x) (hr : ρ r = some w) (har : a ≠ r)
    (hnz : x.tdiv (2 ^ (p % 2 ^ 32)) < 0 → ¬ 2 ^ (p % 2 ^ 32) ∣ x.tdiv (2 ^ (p % 2 ^ 32))) :
    Runs env (mp_int_div_pow2 (.var a) p (some (.var a)) (some (.var r))) m fun res m' =>
      res = MP_OK ∧ State m' (put (put ρ a (x.tdiv (2 ^ (p % 2 ^ 32)))) r ((x.tdiv (2 ^ (p % 2 ^ 32))).tmod (2 ^ (p % 2 ^ 32)))) := by
  have e : mp_int_div_pow2 (.var a) p (some (.var a)) (some (.var r)) =
      mp_int_div_pow2 (.var a) ((p % 2 ^ 32 : Nat) : Int) (some (.var a)) (some (.var r)) := by
    have h1 : intU32 ((p % 2 ^ 32 : Nat) : Int) = intU32 p := by unfold intU32; omega
    have h2 : decide ((p : Int) ≥ 0) = decide (((p % 2 ^ 32 : Nat) : Int) ≥ 0) := by
      rw [decide_eq_true (show (p : Int) ≥ 0 by omega), decide_eq_true (by omega)]
    unfold mp_int_div_pow2
    rw [h1, h2]
  rw [e]
  exact C09_div_pow2_alias h ha (Nat.mod_lt _ (by norm_num)) hr har hnz

/-! ### C17, C18 -/

/-- A negative exponent is refused before the base is looked at. -/
theorem C17_expt_value_negative_any {k : Int} (hk : k < 0) :
    Runs env (mp_int_expt_value v k (.var c)) m fun res m' => res = MP_RANGE ∧ m' = m := by
  unfold mp_int_expt_value
  rw [if_pos hk]
  exact ⟨rfl, rfl⟩

example : Runs env (mp_int_expt_value (-2 ^ 63) (-1) (.var 0)) (memOf [5]) fun res m' => res = MP_RANGE ∧ m' = memOf [5] :=
  C17_expt_value_negative_any (by norm_num)

/-- Only the low 32 bits of the exponent count. -/
theorem C17_expt_value_truncates {k : Nat} (h : State m ρ) (hv : -2 ^ 63 < v ∧ v < 2 ^ 63) (hc : ρ c = some w) :
    Runs env (mp_int_expt_value v k (.var c)) m fun res m' => res = MP_OK ∧ State m' (put ρ c (v ^ (k % 2 ^ 32))) := by
  refine .of_wp (mp_int_expt_value_spec (ref_refused env) h.r2 (by omega) (by omega) hc rfl (fun h0 => by omega) fun _ m' h' => ⟨rfl, ?_⟩)
  rw [upd_lift, show Int.toNat ((k : Int) % 2 ^ 32) = k % 2 ^ 32 by omega] at h'; exact h'.state

theorem ndig_small {x : Int} (h : |x| < 2 ^ 32) : ndig x = 1 :=
  ndig_of (u := 1) (by norm_num) (by rw [Int.abs_eq_natAbs] at h; omega) (by omega)

theorem mp_int_expt_full_alias {Q : Int → Mem → Prop} {a b : Id} (hE : Ref env E) (h : R2 m σ)
    (ha : σ a = some x) (hb : σ b = some y) (ho : b.own = true) (hy : 0 ≤ y) (hx : |x| < 2 ^ 32)
    (hQ : ∀ m', R2 m' (upd σ b (some x)) → Q MP_OK m') :
    wp env E (mp_int_expt_full a b b) Q m := by
  unfold mp_int_expt_full
  refine wp_bind (MP_SIGN_spec h hb ?_)
  refine wp_if_neg (by simpa using hy) ?_
  refine withTemp_spec h fun t m1 ht ot h1 => ?_
  have hta := ne_of_none ht ha
  have htb := ne_of_none ht hb
  refine wp_require (mp_int_copy_spec hE h1 (by rw [upd_ne _ _ hta.symm]; exact ha) (upd_self _ _ _) ot fun m2 h2 => ⟨rfl, ?_⟩)
  rw [upd_upd] at h2
  refine wp_bind (mp_int_set_value_spec hE (by norm_num) (by norm_num) h2 (by rw [upd_ne _ _ htb.symm]; exact hb) ho fun m3 h3 => ?_)
  have e1 : ndig 1 = 1 := ndig_small (by norm_num)
  refine wp_bind (MP_USED_val h3 (upd_self _ _ _) fun _ => ?_)
  rw [e1]
  unfold exptFullOuter
  refine wp_bind (MP_USED_val h3 (upd_self _ _ _) fun _ => ?_)
  refine wp_if_pos (by rw [e1]; norm_num) ?_
  refine wp_bind (wp_mono (digit_spec (i := 0) (Q := fun d m' => d = 1 ∧ m' = m3) h3 (upd_self _ _ _) (by rw [e1]; norm_num) ⟨by norm_num, rfl⟩) fun p m' hp => ?_)
  refine wp_bind (wp_mono hp ?_)
  rintro d m' ⟨rfl, rfl⟩
  unfold exptFullInner
  refine wp_if_pos (by decide) ?_
  refine wp_require (mp_int_mul_spec hE h3 (upd_self _ _ _) (by rw [upd_ne _ _ htb]; exact upd_self _ _ _) (upd_self _ _ _) ho fun m4 h4 => ⟨rfl, ?_⟩)
  rw [upd_upd, one_mul] at h4
  refine wp_bind (MP_USED_val h4 (upd_self _ _ _) fun _ => ?_)
  refine wp_if_pos ⟨by decide, by rw [ndig_small hx]⟩ ?_
  unfold exptFullOuter
  refine wp_bind (MP_USED_val h4 (upd_self _ _ _) fun _ => ?_)
  refine wp_if_neg (by rw [ndig_small hx]; norm_num) (wp_pure ?_)
  refine tmp_done h4 (v := x) (by rw [upd_ne _ _ htb]; exact upd_self _ _ _) ?_ hQ
  upd_tac

/-- Squaring over and over, imath.c:962-970 with no bits left but a digit to come. -/
theorem exptFullInner_zero {Q : Int → Mem → Prop} {t b c : Id} {k : M Int} {ix : Nat} (hE : Ref env E) (ot : t.own = true)
    (hb : σ b = some y) (htb : t ≠ b) (hix : ix + 1 ≠ ndig y) (n : Nat) {X : Int} (h : R2 m (upd σ t (some X)))
    (hk : ∀ m', R2 m' (upd σ t (some (X ^ 2 ^ n))) → wp env E k Q m') :
    wp env E (exptFullInner b t c ix k n 0) Q m := by
  induction n generalizing m X with
  | zero => exact hk m (by simpa using h)
  | succ n ih =>
    unfold exptFullInner
    refine wp_if_neg (by decide) ?_
    refine wp_bind (MP_USED_val h (by rw [upd_ne _ _ htb.symm]; exact hb) fun _ => ?_)
    refine wp_if_neg (fun hh => hix hh.2) ?_
    refine wp_require (mp_int_sqr_spec hE h (upd_self _ _ _) (upd_self _ _ _) ot fun m1 h1 => ⟨rfl, ?_⟩)
    rw [upd_upd] at h1
    refine ih h1 fun m' h' => hk m' ?_
    rw [show (X * X) ^ 2 ^ n = X ^ 2 ^ (n + 1) by rw [← pow_two, ← pow_mul, pow_succ 2 n, mul_comm]] at h'
    exact h'

/-- A value held in memory has no more digits than fit in a block. -/
theorem R2.ndig_le (h : R2 m σ) (hz : σ z = some v) : ndig v ≤ MAXD := by
  obtain ⟨s, hr, hg⟩ := h
  obtain ⟨C, hC, gC⟩ := hg.get hz
  have h1 : C.used ≤ MAXD := Nat.le_trans gC.norm.le (hr.okl hC).2
  have h2 := ndig_of (n := v.natAbs) gC.norm.pos (by rw [gC.natAbs]; exact mag_lt (hr.okd hC) gC.norm.le)
    (by rw [gC.natAbs]; exact gC.norm.mag_ge)
  unfold ndig
  omega

/-- No memory can hold such a power. -/
theorem pow_too_big {X : Int} {n N : Nat} (hX : 2 ^ 32 ≤ |X|) (hn : N < n) (hN : ndig (X ^ n) ≤ N) : False := by
  have h1 := lt_pow_ndig (X ^ n)
  have h2 : 𝔹 ^ n ≤ (X ^ n).natAbs := by
    rw [Int.natAbs_pow]
    exact Nat.pow_le_pow_left (by rw [Int.abs_eq_natAbs] at hX; omega) n
  have h3 : 𝔹 ^ ndig (X ^ n) < 𝔹 ^ n := Nat.pow_lt_pow_right (by norm_num) (by omega)
  omega

theorem mp_int_expt_full_alias_large {Q : Int → Mem → Prop} {a b : Id} (hE : Ref env E) (h : R2 m σ)
    (ha : σ a = some x) (hb : σ b = some y) (ho : b.own = true) (hy : 0 ≤ y) (hx : 2 ^ 32 ≤ |x|) :
    wp env E (mp_int_expt_full a b b) Q m := by
  unfold mp_int_expt_full
  refine wp_bind (MP_SIGN_spec h hb ?_)
  refine wp_if_neg (by simpa using hy) ?_
  refine withTemp_spec h fun t m1 ht ot h1 => ?_
  have hta := ne_of_none ht ha
  have htb := ne_of_none ht hb
  refine wp_require (mp_int_copy_spec hE h1 (by rw [upd_ne _ _ hta.symm]; exact ha) (upd_self _ _ _) ot fun m2 h2 => ⟨rfl, ?_⟩)
  rw [upd_upd] at h2
  refine wp_bind (mp_int_set_value_spec hE (by norm_num) (by norm_num) h2 (by rw [upd_ne _ _ htb.symm]; exact hb) ho fun m3 h3 => ?_)
  have e1 : ndig 1 = 1 := ndig_small (by norm_num)
  refine wp_bind (MP_USED_val h3 (upd_self _ _ _) fun _ => ?_)
  rw [e1]
  unfold exptFullOuter
  refine wp_bind (MP_USED_val h3 (upd_self _ _ _) fun _ => ?_)
  refine wp_if_pos (by rw [e1]; norm_num) ?_
  refine wp_bind (wp_mono (digit_spec (i := 0) (Q := fun d m' => d = 1 ∧ m' = m3) h3 (upd_self _ _ _) (by rw [e1]; norm_num) ⟨by norm_num, rfl⟩) fun p m' hp => ?_)
  refine wp_bind (wp_mono hp ?_)
  rintro d m' ⟨rfl, rfl⟩
  unfold exptFullInner
  refine wp_if_pos (by decide) ?_
  refine wp_require (mp_int_mul_spec hE h3 (upd_self _ _ _) (by rw [upd_ne _ _ htb]; exact upd_self _ _ _) (upd_self _ _ _) ho fun m4 h4 => ⟨rfl, ?_⟩)
  rw [upd_upd, one_mul] at h4
  have hn : ndig x ≠ 1 := by
    intro e
    have := lt_pow_ndig x
    rw [e] at this
    rw [Int.abs_eq_natAbs] at hx
    omega
  refine wp_bind (MP_USED_val h4 (upd_self _ _ _) fun _ => ?_)
  refine wp_if_neg (fun hh => hn (by omega)) ?_
  refine wp_require (mp_int_sqr_spec hE h4 (by rw [upd_ne _ _ htb]; exact upd_self _ _ _) (by rw [upd_ne _ _ htb]; exact upd_self _ _ _) ot
    fun m5 h5 => ⟨rfl, ?_⟩)
  refine exptFullInner_zero hE ot (y := x) (upd_self _ _ _) htb (by omega) 31 h5 fun m6 h6 => ?_
  exfalso
  refine pow_too_big (X := x * x) ?_ (by norm_num : MAXD < 2 ^ 31) (R2.ndig_le h6 (upd_self _ _ _))
  rw [abs_mul]
  nlinarith [abs_nonneg x]

/-- If the result is stored in the variable of the exponent, a base of one digit is the result, whatever the exponent.
(For a base of more digits see `C18_alias_large`.) -/
theorem C18_alias_small (h : State m ρ) (ha : ρ a = some x) (hb : ρ b = some y) (hy : 0 ≤ y) (hx : |x| < 2 ^ 32) :
    Runs env (mp_int_expt_full (.var a) (.var b) (.var b)) m fun res m' => res = MP_OK ∧ State m' (put ρ b x) := by
  refine .of_wp (mp_int_expt_full_alias (ref_refused env) h.r2 ha hb rfl hy hx fun m' h' => ⟨rfl, ?_⟩)
  rw [upd_lift] at h'; exact h'.state

/-- A base of more digits is then squared over and over until there is no memory left: the call never returns. -/
theorem C18_alias_large (h : State m ρ) (ha : ρ a = some x) (hb : ρ b = some y) (hy : 0 ≤ y) (hx : 2 ^ 32 ≤ |x|) :
    Runs env (mp_int_expt_full (.var a) (.var b) (.var b)) m fun _ _ => False :=
  .of_wp (mp_int_expt_full_alias_large (ref_refused env) h.r2 ha hb rfl hy hx)

/-! ### C19, C20 -/

/-- Everything to the power of 0 is 1, even modulo 1. -/
theorem C19_exptmod_one (h : State m ρ) (ha : ρ a = some x) (hb : ρ b = some 0) (hd : ρ d = some 1) (hc : ρ c = some w) :
    Runs env (mp_int_exptmod (.var a) (.var b) (.var d) (.var c)) m fun res m' => res = MP_OK ∧ State m' (put ρ c 1) := by
  refine .of_wp (mp_int_exptmod_spec (ref_refused env) h.r2 ha hb hd hc rfl (by norm_num) (fun _ => by omega) fun _ m' h' => ⟨rfl, ?_⟩)
  rw [upd_lift, if_pos ⟨rfl, rfl⟩] at h'; exact h'.state

theorem C19_evalue_one (h : State m ρ) (ha : ρ a = some x) (hd : ρ d = some 1) (hc : ρ c = some w) :
    Runs env (mp_int_exptmod_evalue (.var a) 0 (.var d) (.var c)) m fun res m' => res = MP_OK ∧ State m' (put ρ c 1) := by
  refine .of_wp (mp_int_exptmod_evalue_spec (ref_refused env) h.r2 (by norm_num) (by norm_num) ha hd hc rfl (by norm_num)
    (fun h0 => absurd h0 (by norm_num)) (fun _ h0 => absurd h0 (by norm_num)) fun _ _ m' h' => ⟨rfl, ?_⟩)
  rw [upd_lift, if_pos ⟨rfl, rfl⟩] at h'; exact h'.state

theorem C19_bvalue_one (h : State m ρ) (hr : -2 ^ 63 < x ∧ x < 2 ^ 63) (hb : ρ b = some 0) (hd : ρ d = some 1) (hc : ρ c = some w) :
    Runs env (mp_int_exptmod_bvalue x (.var b) (.var d) (.var c)) m fun res m' => res = MP_OK ∧ State m' (put ρ c 1) := by
  refine .of_wp (mp_int_exptmod_bvalue_spec (ref_refused env) h.r2 (by omega) (by omega) hb hd hc rfl (by norm_num)
    (fun h0 => absurd h0 (by norm_num)) (fun _ h0 => absurd h0 (by norm_num)) fun _ _ m' h' => ⟨rfl, ?_⟩)
  rw [upd_lift, if_pos ⟨rfl, rfl⟩] at h'; exact h'.state

/-- A negative exponent is reported whatever the modulus. -/
theorem C19_exptmod_negative (h : State m ρ) (hb : ρ b = some y) (hd : ρ d = some v) (hv : v ≠ 0) (hy : y < 0) :
    Runs env (mp_int_exptmod (.var a) (.var b) (.var d) (.var c)) m fun res m' => res = MP_RANGE ∧ m' = m := by
  refine .of_wp ?_
  unfold mp_int_exptmod
  refine wp_bind (CMPZ_spec h.r2 hd (wp_if_neg (by rw [Int.sign_eq_zero_iff_zero]; exact hv) ?_))
  exact wp_bind (CMPZ_spec h.r2 hb (wp_if_pos (by rw [Int.sign_eq_neg_one_of_neg hy]; norm_num) (wp_pure ⟨rfl, rfl⟩)))

theorem C19_evalue_negative (h : State m ρ) (hr : -2 ^ 63 < y ∧ y < 2 ^ 63) (ha : ρ a = some x) (hd : ρ d = some v) (hc : ρ c = some w)
    (hv : v ≠ 0) (hy : y < 0) :
    Runs env (mp_int_exptmod_evalue (.var a) y (.var d) (.var c)) m fun res m' => res = MP_RANGE ∧ State m' ρ := by
  refine .of_wp (withFake_spec (by omega) (by omega) h.r2 fun t m1 ht hto h1 => ?_)
  unfold mp_int_exptmod
  have hd' : upd (lift ρ) t (some y) (.var d) = some v := by rw [upd_ne _ _ (Ne.symm (ne_of_none ht (show lift ρ (.var d) = some v from hd)))]; exact hd
  refine wp_bind (CMPZ_spec h1 hd' (wp_if_neg (by rw [Int.sign_eq_zero_iff_zero]; exact hv) ?_))
  refine wp_bind (CMPZ_spec h1 (upd_self ..) (wp_if_pos (by rw [Int.sign_eq_neg_one_of_neg hy]; norm_num) (wp_pure ?_)))
  exact ⟨_, y, h1, upd_self .., fun m3 h3 => ⟨rfl, by rw [upd_upd, upd_same _ ht] at h3; exact h3.state⟩⟩

theorem C19_bvalue_negative (h : State m ρ) (hr : -2 ^ 63 < x ∧ x < 2 ^ 63) (hb : ρ b = some y) (hd : ρ d = some v) (hc : ρ c = some w)
    (hv : v ≠ 0) (hy : y < 0) :
    Runs env (mp_int_exptmod_bvalue x (.var b) (.var d) (.var c)) m fun res m' => res = MP_RANGE ∧ State m' ρ := by
  refine .of_wp (withFake_spec (by omega) (by omega) h.r2 fun t m1 ht hto h1 => ?_)
  unfold mp_int_exptmod
  have hd' : upd (lift ρ) t (some x) (.var d) = some v := by rw [upd_ne _ _ (Ne.symm (ne_of_none ht (show lift ρ (.var d) = some v from hd)))]; exact hd
  have hb' : upd (lift ρ) t (some x) (.var b) = some y := by rw [upd_ne _ _ (Ne.symm (ne_of_none ht (show lift ρ (.var b) = some y from hb)))]; exact hb
  refine wp_bind (CMPZ_spec h1 hd' (wp_if_neg (by rw [Int.sign_eq_zero_iff_zero]; exact hv) ?_))
  refine wp_bind (CMPZ_spec h1 hb' (wp_if_pos (by rw [Int.sign_eq_neg_one_of_neg hy]; norm_num) (wp_pure ?_)))
  exact ⟨_, x, h1, upd_self .., fun m3 h3 => ⟨rfl, by rw [upd_upd, upd_same _ ht] at h3; exact h3.state⟩⟩

theorem C20_known_negative (h : State m ρ) (hb : ρ b = some y) (hd : ρ d = some v) (hv : v ≠ 0) (hy : y < 0) :
    Runs env (mp_int_exptmod_known (.var a) (.var b) (.var d) (.var u) (.var c)) m fun res m' => res = MP_RANGE ∧ m' = m := by
  refine .of_wp ?_
  unfold mp_int_exptmod_known
  refine wp_bind (CMPZ_spec h.r2 hd (wp_if_neg (by rw [Int.sign_eq_zero_iff_zero]; exact hv) ?_))
  exact wp_bind (CMPZ_spec h.r2 hb (wp_if_pos (by rw [Int.sign_eq_neg_one_of_neg hy]; norm_num) (wp_pure ⟨rfl, rfl⟩)))

theorem C20_known_one {U : Int} (h : State m ρ) (ha : ρ a = some x) (hb : ρ b = some 0) (hd : ρ d = some 1) (hu : ρ u = some U)
    (hU : |U| = 2 ^ 64) (hc : ρ c = some w) (hcu : c ≠ u) :
    Runs env (mp_int_exptmod_known (.var a) (.var b) (.var d) (.var u) (.var c)) m fun res m' => res = MP_OK ∧ State m' (put ρ c 1) := by
  refine .of_wp (mp_int_exptmod_known_spec (k := 1) (ref_refused env) h.r2 ha hb hd hu (by rw [Int.abs_eq_natAbs] at hU; norm_num; omega) hc rfl
    (by norm_num) ⟨by norm_num, by norm_num, by norm_num⟩ (by simpa using hcu) (fun _ => by omega) fun _ m' h' => ⟨rfl, ?_⟩)
  rw [upd_lift, if_pos ⟨rfl, rfl⟩] at h'; exact h'.state

theorem ndig_eq {k : Nat} (hk : 1 ≤ k) (h1 : 2 ^ (32 * (k - 1)) ≤ |v|) (h2 : |v| < 2 ^ (32 * k)) : ndig v = k := by
  rw [Int.abs_eq_natAbs] at h1 h2
  refine ndig_of hk ?_ fun _ => ?_
  · rw [show (4294967296 : Nat) = 2 ^ 32 by norm_num, ← pow_mul]; exact_mod_cast h2
  · rw [show (4294967296 : Nat) = 2 ^ 32 by norm_num, ← pow_mul]; exact_mod_cast h1

/-- The constant for any modulus of `k` digits: it has the sign the result variable had before. -/
theorem C20_redux_const_sign {k : Nat} (h : State m ρ) (hd : ρ d = some v) (hc : ρ c = some w) (hcd : c ≠ d)
    (hk : 1 ≤ k) (h1 : 2 ^ (32 * (k - 1)) ≤ |v|) (h2 : |v| < 2 ^ (32 * k)) :
    Runs env (mp_int_redux_const (.var d) (.var c)) m fun res m' =>
      res = MP_OK ∧ State m' (put ρ c (((if w < 0 then -1 else 1) * 2 ^ (64 * k)).tdiv v)) := by
  have hv : v ≠ 0 := by
    rintro rfl
    have : (0 : Int) < 2 ^ (32 * (k - 1)) := by positivity
    simp at h1; omega
  refine .of_wp (wp_bind (wp_cassert (decide_eq_true (by simpa using Ne.symm hcd)) (s_brmu_all (ref_refused env) h.r2 hc hd rfl (by simpa using hcd)
    (fun h0 => absurd h0 hv) fun _ m' h' => ⟨rfl, ?_⟩)))
  rw [upd_lift, ndig_eq hk h1 h2] at h'; exact h'.state

theorem ndig_abs {k : Nat} (hk : 1 ≤ k) (h1 : 2 ^ (32 * (k - 1)) ≤ |v|) (h2 : |v| < 2 ^ (32 * k)) : NDig v.natAbs k := by
  rw [Int.abs_eq_natAbs] at h1 h2
  refine ⟨hk, ?_, ?_⟩
  · rw [show (4294967296 : Nat) = 2 ^ 32 by norm_num, ← pow_mul]; exact_mod_cast h1
  · rw [show (4294967296 : Nat) = 2 ^ 32 by norm_num, ← pow_mul]; exact_mod_cast h2

/-- A negative modulus (the documentation excludes zero only): the call succeeds and stores `negResult`. -/
theorem C19_exptmod_negmod (h : State m ρ) (ha : ρ a = some x) (hb : ρ b = some y) (hd : ρ d = some v) (hc : ρ c = some w)
    (hv : v < 0) (hy : 0 ≤ y) :
    Runs env (mp_int_exptmod (.var a) (.var b) (.var d) (.var c)) m fun res m' =>
      res = MP_OK ∧ State m' (put ρ c (negResult x y.toNat v)) :=
  .of_wp (mp_int_exptmod_neg (ref_refused env) h.r2 ha hb hd hc rfl hv hy fun m' h' => ⟨rfl, by rw [upd_lift] at h'; exact h'.state⟩)

theorem C19_evalue_negmod (h : State m ρ) (hr : -2 ^ 63 < y ∧ y < 2 ^ 63) (ha : ρ a = some x) (hd : ρ d = some v) (hc : ρ c = some w)
    (hv : v < 0) (hy : 0 ≤ y) :
    Runs env (mp_int_exptmod_evalue (.var a) y (.var d) (.var c)) m fun res m' =>
      res = MP_OK ∧ State m' (put ρ c (negResult x y.toNat v)) :=
  .of_wp (mp_int_exptmod_evalue_neg (ref_refused env) h.r2 (by omega) (by omega) ha hd hc rfl hv hy
    fun m' h' => ⟨rfl, by rw [upd_lift] at h'; exact h'.state⟩)

theorem C19_bvalue_negmod (h : State m ρ) (hr : -2 ^ 63 < x ∧ x < 2 ^ 63) (hb : ρ b = some y) (hd : ρ d = some v) (hc : ρ c = some w)
    (hv : v < 0) (hy : 0 ≤ y) :
    Runs env (mp_int_exptmod_bvalue x (.var b) (.var d) (.var c)) m fun res m' =>
      res = MP_OK ∧ State m' (put ρ c (negResult x y.toNat v)) :=
  .of_wp (mp_int_exptmod_bvalue_neg (ref_refused env) h.r2 (by omega) (by omega) hb hd hc rfl hv hy
    fun m' h' => ⟨rfl, by rw [upd_lift] at h'; exact h'.state⟩)

/-- What a negative modulus leaves is never a remainder: with a positive exponent it is at least twice the absolute
value of the modulus. -/
theorem C19_negmod_large (h : State m ρ) (ha : ρ a = some x) (hb : ρ b = some y) (hd : ρ d = some v) (hc : ρ c = some w)
    (hv : v < 0) (hy : 0 < y) :
    Runs env (mp_int_exptmod (.var a) (.var b) (.var d) (.var c)) m fun res m' =>
      res = MP_OK ∧ ∃ r : Int, 2 * |v| ≤ r ∧ State m' (put ρ c r) := by
  refine (C19_exptmod_negmod h ha hb hd hc hv hy.le).mono fun res m' hh => ⟨hh.1, _, ?_, hh.2⟩
  have := negResult_ge (x := x) hv (show 0 < y.toNat by omega)
  rw [Int.abs_eq_natAbs]; exact_mod_cast this

/-- `mp_int_exptmod_known` with a negative modulus and the constant `mp_int_redux_const` computes, of either sign. -/
theorem C20_known_negmod {k : Nat} {U : Int} (h : State m ρ) (ha : ρ a = some x) (hb : ρ b = some y) (hd : ρ d = some v)
    (hu : ρ u = some U) (hU : |U| = 2 ^ (64 * k) / |v|) (hc : ρ c = some w) (hcu : c ≠ u) (hy : 0 ≤ y) (hv : v < 0)
    (hk : 1 ≤ k) (h1 : 2 ^ (32 * (k - 1)) ≤ |v|) (h2 : |v| < 2 ^ (32 * k)) :
    Runs env (mp_int_exptmod_known (.var a) (.var b) (.var d) (.var u) (.var c)) m fun res m' =>
      res = MP_OK ∧ State m' (put ρ c (negResult x y.toNat v)) := by
  refine .of_wp (mp_int_exptmod_known_neg (k := k) (ref_refused env) h.r2 ha hb hd hu ?_ (ndig_abs hk h1 h2) (by simpa using hcu) hc rfl hv hy
    fun m' h' => ⟨rfl, by rw [upd_lift] at h'; exact h'.state⟩)
  rw [Int.abs_eq_natAbs, Int.abs_eq_natAbs] at hU
  rw [show (4294967296 : Nat) = 2 ^ 32 by norm_num, ← pow_mul, show 32 * (2 * k) = 64 * k by ring]
  exact_mod_cast hU

/-- The two functions composed, whatever the variable of the constant held before: its sign does not matter. -/
theorem C20_compose_sign {k : Nat} (h : State m ρ) (ha : ρ a = some x) (hb : ρ b = some y) (hd : ρ d = some v)
    (hu : ρ u = some w) (hc : ∃ w', ρ c = some w') (hcu : c ≠ u) (hau : a ≠ u) (hbu : b ≠ u) (hdu : u ≠ d)
    (hy : 0 ≤ y) (h0 : y ≠ 0 ∨ v ≠ 1) (hk : 1 ≤ k) (h1 : 2 ^ (32 * (k - 1)) ≤ v) (h2 : v < 2 ^ (32 * k)) :
    Runs env (mp_int_redux_const (.var d) (.var u)) m fun _ m1 =>
      Runs env (mp_int_exptmod_known (.var a) (.var b) (.var d) (.var u) (.var c)) m1 fun res m' =>
        res = MP_OK ∧ ∃ U : Int, State m' (put (put ρ u U) c (x ^ y.toNat % v)) := by
  have hv : 0 < v := lt_of_lt_of_le (by positivity) h1
  have ea : |v| = v := abs_of_pos hv
  refine Runs.mono (C20_redux_const_sign h hd hu hdu hk (by rw [ea]; exact h1) (by rw [ea]; exact h2)) fun _ m1 ⟨_, hs⟩ => ?_
  obtain ⟨w', hc⟩ := hc
  generalize hU : ((if w < 0 then (-1 : Int) else 1) * 2 ^ (64 * k)).tdiv v = U at hs
  have p : ∀ {i : Nat} {t : Int}, i ≠ u → ρ i = some t → put ρ u U i = some t := fun hi ht => by
    simp only [put, if_neg hi]; exact ht
  have eU : |U| = 2 ^ (64 * k) / v := by
    have hp : (0 : Int) ≤ 2 ^ (64 * k) := by positivity
    rw [← hU]
    by_cases hw : w < 0
    · rw [if_pos hw, neg_one_mul, Int.neg_tdiv, abs_neg, Int.tdiv_eq_ediv_of_nonneg hp, abs_of_nonneg (Int.ediv_nonneg hp hv.le)]
    · rw [if_neg hw, one_mul, Int.tdiv_eq_ediv_of_nonneg hp, abs_of_nonneg (Int.ediv_nonneg hp hv.le)]
  exact (C20_exptmod_known_partial hs (p hau ha) (p hbu hb) (p hdu.symm hd) (by simp [put]) eU (p hcu hc) hcu hy h0 hk h1 h2).mono
    fun _ _ hh => ⟨hh.1, U, hh.2⟩

/-- With zero for the modulus the result variable has changed when the error is returned. -/
theorem C20_redux_const_undef (h : State m ρ) (hd : ρ d = some 0) (hc : ρ c = some w) (hcd : c ≠ d) :
    Runs env (mp_int_redux_const (.var d) (.var c)) m fun res m' =>
      res = MP_UNDEF ∧ State m' (put ρ c ((if w < 0 then -1 else 1) * 2 ^ 64)) := by
  refine .of_wp (wp_bind (wp_cassert (decide_eq_true (by simpa using Ne.symm hcd)) (s_brmu_all (ref_refused env) h.r2 hc hd rfl (by simpa using hcd)
    (fun _ m' h' => ⟨rfl, ?_⟩) fun h0 => absurd rfl h0)))
  rw [upd_lift, ndig_small (by norm_num)] at h'; exact h'.state

/-! ### C22, C24, C27 -/

/-- The extended gcd with zero as the first operand. -/
theorem C22_left_zero {p q : Nat} {wp wq : Int} (h : State m ρ) (ha : ρ a = some 0) (hb : ρ b = some y) (hc : ρ c = some w) (hy : y ≠ 0)
    (hX : ρ p = some wp) (hY : ρ q = some wq) (hpq : p ≠ q) (hcp : c ≠ p) (hcq : c ≠ q) :
    Runs env (mp_int_egcd (.var a) (.var b) (.var c) (some (.var p)) (some (.var q))) m fun res m' =>
      res = MP_OK ∧ State m' (put (put (put ρ p 0) q 1) c |y|) :=
  .of_wp (mp_int_egcd_left0 (X := .var p) (Y := .var q) (ref_refused env) h.r2 ha hb hy hX hY rfl hc rfl (by simpa using hcp)
    (by simpa using hcq) (by simpa using hpq) fun m' h' =>
      ⟨rfl, (egcdPut_lift ρ (some p) (some q) c _ _ _ ▸ h' : R2 m' _).state⟩)

/-- The extended gcd with zero as the second operand. -/
theorem C22_right_zero {p q : Nat} {wp wq : Int} (h : State m ρ) (ha : ρ a = some x) (hb : ρ b = some 0) (hc : ρ c = some w) (hx : x ≠ 0)
    (hX : ρ p = some wp) (hY : ρ q = some wq) (hpq : p ≠ q) (hcp : c ≠ p) (hcq : c ≠ q) :
    Runs env (mp_int_egcd (.var a) (.var b) (.var c) (some (.var p)) (some (.var q))) m fun res m' =>
      res = MP_OK ∧ State m' (put (put (put ρ p 1) q 0) c |x|) :=
  .of_wp (mp_int_egcd_right0 (X := .var p) (Y := .var q) (ref_refused env) h.r2 ha hb hx hX hY rfl hc rfl (by simpa using hcp)
    (by simpa using hcq) (by simpa using hpq) fun m' h' =>
      ⟨rfl, (egcdPut_lift ρ (some p) (some q) c _ _ _ ▸ h' : R2 m' _).state⟩)

theorem upd_some {σ : Id → Option Int} {z z' : Id} {v u : Int} (h : σ z' = some u) : ∃ u', upd σ z (some v) z' = some u' := by
  by_cases e : z' = z
  · exact ⟨v, by rw [e]; exact upd_self ..⟩
  · exact ⟨u, by rw [upd_ne _ _ e]; exact h⟩

/-- The same whatever output variables coincide: first the gcd is stored, then the first coefficient, then the second one. -/
theorem C22_left_zero_any {p q : Nat} {wp wq : Int} (h : State m ρ) (ha : ρ a = some 0) (hb : ρ b = some y) (hc : ρ c = some w) (hy : y ≠ 0)
    (hX : ρ p = some wp) (hY : ρ q = some wq) :
    Runs env (mp_int_egcd (.var a) (.var b) (.var c) (some (.var p)) (some (.var q))) m fun res m' =>
      res = MP_OK ∧ State m' (put (put (put ρ c |y|) p 0) q 1) := by
  refine .of_wp ?_
  have hE := ref_refused env
  have h := h.r2
  unfold mp_int_egcd
  refine wp_bind (wp_cassert (by simp) ?_)
  refine wp_bind (CMPZ_spec h ha ?_)
  refine wp_bind (CMPZ_spec h hb ?_)
  have sy : ¬ y.sign = 0 := by rw [Int.sign_eq_zero_iff_zero]; exact hy
  refine wp_if_neg (fun h0 => sy h0.2) (wp_if_pos rfl ?_)
  refine wp_bind (mp_int_abs_spec hE h hb hc rfl fun m1 r1 => wp_if_neg (by simp) ?_)
  obtain ⟨_, hX1⟩ := upd_some (σ := lift ρ) (z := .var c) (z' := .var p) (v := |y|) hX
  obtain ⟨_, hY1⟩ := upd_some (σ := lift ρ) (z := .var c) (z' := .var q) (v := |y|) hY
  obtain ⟨_, hY2⟩ := upd_some (z := .var p) (z' := .var q) (v := 0) hY1
  refine wp_bind (mp_int_zero_spec r1 hX1 fun m2 r2 => ?_)
  refine wp_bind (mp_int_set_value_spec hE (by decide) (by decide) r2 hY2 rfl fun m3 r3 => wp_pure ⟨rfl, ?_⟩)
  rw [upd_lift, upd_lift, upd_lift] at r3
  exact r3.state

theorem C22_right_zero_any {p q : Nat} {wp wq : Int} (h : State m ρ) (ha : ρ a = some x) (hb : ρ b = some 0) (hc : ρ c = some w) (hx : x ≠ 0)
    (hX : ρ p = some wp) (hY : ρ q = some wq) :
    Runs env (mp_int_egcd (.var a) (.var b) (.var c) (some (.var p)) (some (.var q))) m fun res m' =>
      res = MP_OK ∧ State m' (put (put (put ρ c |x|) p 1) q 0) := by
  refine .of_wp ?_
  have hE := ref_refused env
  have h := h.r2
  unfold mp_int_egcd
  refine wp_bind (wp_cassert (by simp) ?_)
  refine wp_bind (CMPZ_spec h ha ?_)
  refine wp_bind (CMPZ_spec h hb ?_)
  have sx : ¬ x.sign = 0 := by rw [Int.sign_eq_zero_iff_zero]; exact hx
  refine wp_if_neg (fun h0 => sx h0.1) (wp_if_neg sx (wp_if_pos rfl ?_))
  refine wp_bind (mp_int_abs_spec hE h ha hc rfl fun m1 r1 => wp_if_neg (by simp) ?_)
  obtain ⟨_, hX1⟩ := upd_some (σ := lift ρ) (z := .var c) (z' := .var p) (v := |x|) hX
  obtain ⟨_, hY1⟩ := upd_some (σ := lift ρ) (z := .var c) (z' := .var q) (v := |x|) hY
  obtain ⟨_, hY2⟩ := upd_some (z := .var p) (z' := .var q) (v := 1) hY1
  refine wp_bind (mp_int_set_value_spec hE (by decide) (by decide) r1 hX1 rfl fun m2 r2 => ?_)
  refine wp_bind (mp_int_zero_spec r2 hY2 fun m3 r3 => wp_pure ⟨rfl, ?_⟩)
  rw [upd_lift, upd_lift, upd_lift] at r3
  exact r3.state

/-- The inverse of a negative number modulo 1 is 1, which is out of range. -/
theorem C24_invmod_one (h : State m ρ) (ha : ρ a = some x) (hb : ρ b = some 1) (hc : ρ c = some w) (hx : x < 0) :
    Runs env (mp_int_invmod (.var a) (.var b) (.var c)) m fun res m' => res = MP_OK ∧ State m' (put ρ c 1) := by
  refine .of_wp (mp_int_invmod_spec (ref_refused env) h.r2 ha hb hc rfl (fun h0 => by omega) (fun _ _ h1 => absurd (by simp) h1)
    fun P R _ _ _ _ m' h' => ⟨rfl, ?_⟩)
  rw [upd_lift, if_pos hx, Int.emod_one, Int.sub_zero] at h'; exact h'.state

/-- Zero counts as 2^0. -/
theorem C27_is_pow2_zero (h : State m ρ) (ha : ρ a = some 0) :
    Runs env (mp_int_is_pow2 (.var a)) m fun res m' => res = 0 ∧ m' = m := by
  refine .of_wp ?_
  unfold mp_int_is_pow2 s_isp2
  refine wp_bind (MP_USED_val h.r2 ha fun _ => ?_)
  have e : ndig 0 = 1 := ndig_small (by norm_num)
  refine wp_bind (wp_mono (digit_spec (i := 0) (Q := fun d m' => d = 0 ∧ m' = m) h.r2 ha (by rw [e]; norm_num) ⟨by norm_num, rfl⟩) fun p m' hp => ?_)
  rw [e]
  refine wp_bind (wp_pure ?_)
  refine wp_bind (wp_mono hp ?_)
  rintro _ _ ⟨rfl, rfl⟩
  exact wp_pure ⟨rfl, rfl⟩

/-- The sign does not matter. -/
theorem C27_is_pow2_negative (h : State m ρ) (ha : ρ a = some x) (hx : x < 0) :
    Runs env (mp_int_is_pow2 (.var a)) m fun res m' =>
      ((∃ k : Nat, x = -2 ^ k ∧ res = k) ∨ (∀ k : Nat, x ≠ -2 ^ k) ∧ res = -1) ∧ m' = m := by
  refine .of_wp (mp_int_is_pow2_spec h.r2 ha (by omega) (fun k hk => ⟨.inl ⟨k, ?_, rfl⟩, rfl⟩) fun hk => ⟨.inr ⟨fun k hh => ?_, rfl⟩, rfl⟩)
  · have : (x.natAbs : Int) = ((2 ^ k : Nat) : Int) := by rw [hk]
    push_cast at this
    rw [← this, abs_of_neg hx]; ring
  · refine hk k ?_
    have h1 : ((x.natAbs : Nat) : Int) = ((2 ^ k : Nat) : Int) := by push_cast; rw [abs_of_neg hx, hh]; ring
    exact_mod_cast h1

/-! ### Non-vacuity -/

example : ∃ m, State m (vars [7, -3, -5]) ∧
    (Runs env (mp_int_exptmod_evalue (.var 0) (-3) (.var 2) (.var 2)) m fun res m' => res = MP_RANGE ∧ State m' (vars [7, -3, -5])) ∧
    (Runs env (mp_int_exptmod_bvalue 7 (.var 1) (.var 2) (.var 0)) m fun res m' => res = MP_RANGE ∧ State m' (vars [7, -3, -5])) :=
  let ⟨m, h⟩ := vars_state (l := [7, -3, -5]) (by simp)
  ⟨m, h, C19_evalue_negative h (by norm_num) rfl rfl rfl (by norm_num) (by norm_num),
    C19_bvalue_negative h (by norm_num) rfl rfl rfl (by norm_num) (by norm_num)⟩

/-- The function of the specification on the numbers of `C19_negative_modulus` and `C19_negative_modulus_wrong`. -/
example : negResult 2 3 (-5) = 13 ∧ negResult 3 64 (-4294901761) = 15545955142 := by decide +kernel

example : ∃ m, State m (vars [2 ^ 70, 3, -5, -(2 ^ 64 / 5), 9]) ∧
    (Runs env (mp_int_exptmod (.var 0) (.var 1) (.var 2) (.var 2)) m fun res m' =>
      res = MP_OK ∧ State m' (put (vars [2 ^ 70, 3, -5, -(2 ^ 64 / 5), 9]) 2 (negResult (2 ^ 70) (3 : Int).toNat (-5)))) ∧
    (Runs env (mp_int_exptmod (.var 0) (.var 1) (.var 2) (.var 4)) m fun res m' =>
      res = MP_OK ∧ ∃ r : Int, 2 * |(-5 : Int)| ≤ r ∧ State m' (put (vars [2 ^ 70, 3, -5, -(2 ^ 64 / 5), 9]) 4 r)) ∧
    (Runs env (mp_int_exptmod_evalue (.var 0) 0 (.var 2) (.var 0)) m fun res m' =>
      res = MP_OK ∧ State m' (put (vars [2 ^ 70, 3, -5, -(2 ^ 64 / 5), 9]) 0 (negResult (2 ^ 70) (0 : Int).toNat (-5)))) ∧
    (Runs env (mp_int_exptmod_bvalue (-4) (.var 1) (.var 2) (.var 1)) m fun res m' =>
      res = MP_OK ∧ State m' (put (vars [2 ^ 70, 3, -5, -(2 ^ 64 / 5), 9]) 1 (negResult (-4) (3 : Int).toNat (-5)))) :=
  let ⟨m, h⟩ := vars_state (l := [2 ^ 70, 3, -5, -(2 ^ 64 / 5), 9]) (by simp)
  ⟨m, h, C19_exptmod_negmod h rfl rfl rfl rfl (by norm_num) (by norm_num), C19_negmod_large h rfl rfl rfl rfl (by norm_num) (by norm_num),
    C19_evalue_negmod h (by norm_num) rfl rfl rfl (by norm_num) (by norm_num),
    C19_bvalue_negmod h (by norm_num) rfl rfl rfl (by norm_num) (by norm_num)⟩

example : ∃ m, State m (vars [2 ^ 70, 3, -5, -(2 ^ 64 / 5), 9]) ∧
    (Runs env (mp_int_exptmod_known (.var 0) (.var 1) (.var 2) (.var 3) (.var 4)) m fun res m' =>
      res = MP_OK ∧ State m' (put (vars [2 ^ 70, 3, -5, -(2 ^ 64 / 5), 9]) 4 (negResult (2 ^ 70) (3 : Int).toNat (-5)))) :=
  let ⟨m, h⟩ := vars_state (l := [2 ^ 70, 3, -5, -(2 ^ 64 / 5), 9]) (by simp)
  ⟨m, h, C20_known_negmod (k := 1) h rfl rfl rfl rfl (by norm_num) rfl (by norm_num) (by norm_num) (by norm_num) (by norm_num) (by norm_num)
    (by norm_num)⟩

example : ∃ m, State m (vars [2 ^ 70, 3, 5, -1, 9]) ∧
    Runs env (mp_int_redux_const (.var 2) (.var 3)) m fun _ m1 =>
      Runs env (mp_int_exptmod_known (.var 0) (.var 1) (.var 2) (.var 3) (.var 4)) m1 fun res m' =>
        res = MP_OK ∧ ∃ U : Int, State m' (put (put (vars [2 ^ 70, 3, 5, -1, 9]) 3 U) 4 ((2 ^ 70) ^ (3 : Int).toNat % 5)) :=
  let ⟨m, h⟩ := vars_state (l := [2 ^ 70, 3, 5, -1, 9]) (by simp)
  ⟨m, h, C20_compose_sign (k := 1) h rfl rfl rfl rfl ⟨_, rfl⟩ (by norm_num) (by norm_num) (by norm_num) (by norm_num) (by norm_num)
    (.inl (by norm_num)) (by norm_num) (by norm_num) (by norm_num)⟩

example : ∃ m, State m demo ∧ Runs env (mp_int_mod (.var 3) (.var 1) (.var 2)) m fun res m' =>
    res = MP_OK ∧ State m' (put demo 2 (-7 - 2 ^ 70)) := by
  obtain ⟨m, h⟩ := demo_state
  refine ⟨m, h, (C08_mod_negative h (x := -7) (y := -2 ^ 70) rfl rfl rfl (by norm_num)).mono fun _ _ hh => ⟨hh.1, ?_⟩⟩
  have := hh.2
  rw [show (if Int.tmod (-7) (-2 ^ 70) < 0 then Int.tmod (-7) (-2 ^ 70) + -2 ^ 70 else Int.tmod (-7) (-2 ^ 70)) = -7 - 2 ^ 70 by decide] at this
  exact this

example : ∃ m, State m demo ∧ Runs env (mp_int_div_pow2 (.var 0) (2 ^ 32 + 1 : Nat) (ids (some 2)) (ids (some 3))) m fun res m' =>
    res = MP_OK ∧ State m' (putO (putO demo (some 2) ((2 ^ 100 + 1 : Int).tdiv (2 ^ ((2 ^ 32 + 1) % 2 ^ 32)))) (some 3)
      ((2 ^ 100 + 1 : Int).tmod (2 ^ ((2 ^ 32 + 1) % 2 ^ 32)))) :=
  let ⟨m, h⟩ := demo_state
  ⟨m, h, C09_div_pow2_truncates h rfl (by rintro n ⟨⟩; exact ⟨_, rfl⟩) (by rintro n ⟨⟩; exact ⟨_, rfl⟩) (by decide) (by decide)
    (fun _ h0 => absurd h0 (by norm_num))⟩

example : ∃ m, State m demo ∧ Runs env (mp_int_div_pow2 (.var 0) (1 : Nat) (some (.var 0)) (some (.var 2))) m fun res m' =>
    res = MP_OK ∧ State m' (put (put demo 0 ((2 ^ 100 + 1 : Int).tdiv (2 ^ 1))) 2 (((2 ^ 100 + 1 : Int).tdiv (2 ^ 1)).tmod (2 ^ 1))) :=
  let ⟨m, h⟩ := demo_state
  ⟨m, h, C09_div_pow2_alias h rfl (by norm_num) rfl (by decide) (by decide)⟩

example : ∃ m, State m demo ∧ Runs env (mp_int_div_pow2 (.var 0) (2 ^ 32 + 1 : Nat) (some (.var 0)) (some (.var 2))) m fun res m' =>
    res = MP_OK ∧ State m' (put (put demo 0 ((2 ^ 100 + 1 : Int).tdiv (2 ^ ((2 ^ 32 + 1) % 2 ^ 32)))) 2
      (((2 ^ 100 + 1 : Int).tdiv (2 ^ ((2 ^ 32 + 1) % 2 ^ 32))).tmod (2 ^ ((2 ^ 32 + 1) % 2 ^ 32)))) :=
  let ⟨m, h⟩ := demo_state
  ⟨m, h, C09_div_pow2_alias_truncates h rfl rfl (by decide) (by decide)⟩

example : ∃ m, State m demo ∧ Runs env (mp_int_expt_value 5 (2 ^ 32 + 3 : Nat) (.var 2)) m fun res m' =>
    res = MP_OK ∧ State m' (put demo 2 (5 ^ ((2 ^ 32 + 3) % 2 ^ 32))) :=
  let ⟨m, h⟩ := demo_state; ⟨m, h, C17_expt_value_truncates h (by norm_num) rfl⟩

example : ∃ m, State m demo ∧ Runs env (mp_int_expt_full (.var 3) (.var 0) (.var 0)) m fun res m' =>
    res = MP_OK ∧ State m' (put demo 0 (-7)) :=
  let ⟨m, h⟩ := demo_state; ⟨m, h, C18_alias_small h rfl rfl (by norm_num) (by norm_num)⟩

example : ∃ m, State m (vars [-2 ^ 70, 3]) ∧ Runs env (mp_int_expt_full (.var 0) (.var 1) (.var 1)) m fun _ _ => False := by
  obtain ⟨m, h⟩ := vars_state (l := [-2 ^ 70, 3]) (by simp)
  exact ⟨m, h, C18_alias_large h rfl rfl (by norm_num) (by norm_num)⟩

example : ∃ m, State m (vars [5, 0, 1, 2 ^ 64, 9]) ∧
    (Runs env (mp_int_exptmod (.var 0) (.var 1) (.var 2) (.var 4)) m fun res m' => res = MP_OK ∧ State m' (put (vars [5, 0, 1, 2 ^ 64, 9]) 4 1)) ∧
    (Runs env (mp_int_exptmod_evalue (.var 0) 0 (.var 2) (.var 4)) m fun res m' => res = MP_OK ∧ State m' (put (vars [5, 0, 1, 2 ^ 64, 9]) 4 1)) ∧
    (Runs env (mp_int_exptmod_bvalue 8 (.var 1) (.var 2) (.var 4)) m fun res m' => res = MP_OK ∧ State m' (put (vars [5, 0, 1, 2 ^ 64, 9]) 4 1)) ∧
    (Runs env (mp_int_exptmod_known (.var 0) (.var 1) (.var 2) (.var 3) (.var 4)) m fun res m' =>
      res = MP_OK ∧ State m' (put (vars [5, 0, 1, 2 ^ 64, 9]) 4 1)) := by
  obtain ⟨m, h⟩ := vars_state (l := [5, 0, 1, 2 ^ 64, 9]) (by simp)
  exact ⟨m, h, C19_exptmod_one h rfl rfl rfl rfl, C19_evalue_one h rfl rfl rfl, C19_bvalue_one h (by norm_num) rfl rfl rfl,
    C20_known_one h rfl rfl rfl rfl (by norm_num) rfl (by decide)⟩

example : ∃ m, State m demo ∧
    (Runs env (mp_int_exptmod (.var 0) (.var 3) (.var 1) (.var 2)) m fun res m' => res = MP_RANGE ∧ m' = m) ∧
    (Runs env (mp_int_exptmod_known (.var 0) (.var 3) (.var 1) (.var 2) (.var 2)) m fun res m' => res = MP_RANGE ∧ m' = m) :=
  let ⟨m, h⟩ := demo_state
  ⟨m, h, C19_exptmod_negative h rfl rfl (by norm_num) (by norm_num), C20_known_negative h rfl rfl (by norm_num) (by norm_num)⟩

example : ∃ m, State m demo ∧
    (Runs env (mp_int_redux_const (.var 0) (.var 3)) m fun res m' =>
      res = MP_OK ∧ State m' (put demo 3 ((-1 * 2 ^ (64 * 4) : Int).tdiv (2 ^ 100 + 1)))) ∧
    (Runs env (mp_int_redux_const (.var 2) (.var 3)) m fun res m' => res = MP_UNDEF ∧ State m' (put demo 3 (-1 * 2 ^ 64))) :=
  let ⟨m, h⟩ := demo_state
  ⟨m, h, C20_redux_const_sign (w := -7) h rfl rfl (by decide) (by norm_num) (by norm_num) (by norm_num),
    C20_redux_const_undef (w := -7) h rfl rfl (by decide)⟩

example : ∃ m, State m (vars [0, -5, 1, 2, 3]) ∧
    (Runs env (mp_int_egcd (.var 0) (.var 1) (.var 2) (some (.var 3)) (some (.var 4))) m fun res m' =>
      res = MP_OK ∧ State m' (put (put (put (vars [0, -5, 1, 2, 3]) 3 0) 4 1) 2 |-5|)) ∧
    (Runs env (mp_int_egcd (.var 1) (.var 0) (.var 2) (some (.var 3)) (some (.var 4))) m fun res m' =>
      res = MP_OK ∧ State m' (put (put (put (vars [0, -5, 1, 2, 3]) 3 1) 4 0) 2 |-5|)) ∧
    (Runs env (mp_int_invmod (.var 1) (.var 2) (.var 3)) m fun res m' => res = MP_OK ∧ State m' (put (vars [0, -5, 1, 2, 3]) 3 1)) ∧
    (Runs env (mp_int_is_pow2 (.var 0)) m fun res m' => res = 0 ∧ m' = m) ∧
    (Runs env (mp_int_is_pow2 (.var 1)) m fun res m' =>
      ((∃ k : Nat, -5 = -2 ^ k ∧ res = k) ∨ (∀ k : Nat, (-5 : Int) ≠ -2 ^ k) ∧ res = -1) ∧ m' = m) := by
  obtain ⟨m, h⟩ := vars_state (l := [0, -5, 1, 2, 3]) (by simp)
  exact ⟨m, h, C22_left_zero h rfl rfl rfl (by norm_num) rfl rfl (by decide) (by decide) (by decide),
    C22_right_zero h rfl rfl rfl (by norm_num) rfl rfl (by decide) (by decide) (by decide), C24_invmod_one h rfl rfl rfl (by norm_num),
    C27_is_pow2_zero h rfl, C27_is_pow2_negative h rfl (by norm_num)⟩

example : ∃ m, State m (vars [0, -5, 1]) ∧
    (Runs env (mp_int_egcd (.var 0) (.var 1) (.var 2) (some (.var 2)) (some (.var 1))) m fun res m' =>
      res = MP_OK ∧ State m' (put (put (put (vars [0, -5, 1]) 2 |-5|) 2 0) 1 1)) ∧
    (Runs env (mp_int_egcd (.var 1) (.var 0) (.var 2) (some (.var 2)) (some (.var 2))) m fun res m' =>
      res = MP_OK ∧ State m' (put (put (put (vars [0, -5, 1]) 2 |-5|) 2 1) 2 0)) := by
  obtain ⟨m, h⟩ := vars_state (l := [0, -5, 1]) (by simp)
  exact ⟨m, h, C22_left_zero_any h rfl rfl rfl (by norm_num) rfl rfl, C22_right_zero_any h rfl rfl rfl (by norm_num) rfl rfl⟩

end Imath
