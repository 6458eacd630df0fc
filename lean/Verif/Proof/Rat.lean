import Verif.Proof.Gcd
import Verif.Proof.Conv
import Verif.Model.Rat
import Mathlib.Data.Rat.Lemmas
import Mathlib.Tactic.FieldSimp

/-! # Arithmetic on rationals -/

namespace Imath

variable {env : Env} {E : Fault → Prop} {m : Mem} {s : Id → Option Cell} {σ σ' : Id → Option Int}
  {z : Id} {a b c : MpQ} {x y w v : Int} {p q o : ℚ}

/-! ### Local variables -/

theorem withLocal_spec {α : Type} {ini : Id → M Int} {err : Int → α} {k : Id → M α} {Q : α → Mem → Prop}
    {n : Nat} {T : Nat → Id} {V : Nat → Int} (h : R2 m σ') (g : Tmps σ n T V σ')
    (hi : ∀ t m1 {P : Int → Mem → Prop}, R2 m1 σ' → Decl m1 t → σ' t = none → t.own = true →
      (∀ m', R2 m' (upd σ' t (some v)) → P MP_OK m') → wp env E (ini t) P m1)
    (hk : ∀ t m1, Tmps σ (n + 1) (nset T n t) (nset V n v) (upd σ' t (some v)) → R2 m1 (upd σ' t (some v)) →
      wp env E (k t) (fun r m'' => TDone (n + 1) (nset T n t) Q r m'') m1) :
    wp env E (withLocal ini err k) (fun r m'' => TDone n T Q r m'') m := by
  obtain ⟨s, hr, hs⟩ := h
  refine withLocal_rep hr fun t m1 hst ho hd h1 => ?_
  have ht : σ' t = none := hs.none_iff.1 hst
  refine hi t m1 ⟨s, h1, hs⟩ hd ht ho fun m2 h2 => ⟨rfl, ?_⟩
  refine wp_mono (hk t m2 (g.push ht ho v) h2) ?_
  rintro r m3 ⟨σF, σ'', V', g', ⟨s', h3, hs'⟩, hQ⟩
  have e : nset T n t n = t := by simp
  obtain ⟨D, hD, -⟩ := hs'.get (z := t) (v := V' n) (by have := g'.get n (by omega); rwa [e] at this)
  refine ⟨s', D, h3, hD, fun m4 h4 => ?_⟩
  have h5 : R2 m4 (upd σ'' t none) := ⟨_, h4, hs'.upd_none⟩
  rw [← e] at h5
  exact ⟨σF, _, V', g'.pop.congr (fun j hj => by simp; omega) (fun _ _ => rfl), h5, hQ⟩

theorem TDone.elim {α : Type} {Q : α → Mem → Prop} {r : α} {T : Nat → Id} (h : TDone 0 T Q r m) : Q r m := by
  obtain ⟨σF, σ'', V, g, h', hQ⟩ := h
  have : σ'' = σF := by funext z; exact g.frame z fun _ h => by omega
  rw [this] at h'
  exact hQ m h'

section
variable {α : Type} {err : Int → α} {k : Id → M α} {k2 : Id → Id → M α} {Q : α → Mem → Prop} {d e : Id}

theorem withInit_spec (h : R2 m σ)
    (hk : ∀ T σ' m', Tmps σ 1 T (L [0]) σ' → R2 m' σ' → wp env E (k (T 0)) (fun r m'' => TDone 1 T Q r m'') m') :
    wp env E (withLocal mp_int_init err k) Q m := by
  refine wp_mono (withLocal_spec (Q := Q) (v := 0) h (Tmps.nil σ (fun _ => .tmp 0) fun _ => 0)
    (fun t m1 P h1 hd hn ho hP => mp_int_init_spec h1 hd hn hP) fun t m1 g h1 => ?_) fun _ _ => TDone.elim
  refine hk _ _ m1 (g.congr (fun _ _ => rfl) fun i hi => ?_) h1
  rw [show i = 0 by omega]; rfl

theorem withCopy_spec (hE : Ref env E) (h : R2 m σ) (hd : σ d = some x)
    (hk : ∀ T σ' m', Tmps σ 1 T (L [x]) σ' → R2 m' σ' → wp env E (k (T 0)) (fun r m'' => TDone 1 T Q r m'') m') :
    wp env E (withLocal (fun t => mp_int_init_copy t d) err k) Q m := by
  refine wp_mono (withLocal_spec (Q := Q) (v := x) h (Tmps.nil σ (fun _ => .tmp 0) fun _ => 0)
    (fun t m1 P h1 hd' hn ho hP => mp_int_init_copy_spec hE h1 hd' hn hd hP) fun t m1 g h1 => ?_) fun _ _ => TDone.elim
  refine hk _ _ m1 (g.congr (fun _ _ => rfl) fun i hi => ?_) h1
  rw [show i = 0 by omega]; rfl

theorem withInit2_spec (h : R2 m σ)
    (hk : ∀ T σ' m', Tmps σ 2 T (L [0, 0]) σ' → R2 m' σ' →
      wp env E (k2 (T 0) (T 1)) (fun r m'' => TDone 2 T Q r m'') m') :
    wp env E (withLocal mp_int_init err fun t0 => withLocal mp_int_init err fun t1 => k2 t0 t1) Q m := by
  refine wp_mono (withLocal_spec (Q := Q) (v := 0) h (Tmps.nil σ (fun _ => .tmp 0) fun _ => 0)
    (fun t m1 P h1 hd' hn ho hP => mp_int_init_spec h1 hd' hn hP) fun t m1 g h1 => ?_) fun _ _ => TDone.elim
  refine withLocal_spec (v := 0) h1 g (fun t m1 P h1 hd' hn ho hP => mp_int_init_spec h1 hd' hn hP) fun t' m2 g2 h2 => ?_
  refine hk (nset (nset (fun _ => .tmp 0) 0 t) 1 t') _ m2 (g2.congr (fun _ _ => rfl) fun i hi => ?_) h2
  rcases show i = 0 ∨ i = 1 by omega with rfl | rfl <;> rfl

theorem withCopy2_spec (hE : Ref env E) (h : R2 m σ) (hd : σ d = some x) (he : σ e = some y)
    (hk : ∀ T σ' m', Tmps σ 2 T (L [x, y]) σ' → R2 m' σ' →
      wp env E (k2 (T 0) (T 1)) (fun r m'' => TDone 2 T Q r m'') m') :
    wp env E (withLocal (fun t => mp_int_init_copy t d) err fun t0 =>
      withLocal (fun t => mp_int_init_copy t e) err fun t1 => k2 t0 t1) Q m := by
  refine wp_mono (withLocal_spec (Q := Q) (v := x) h (Tmps.nil σ (fun _ => .tmp 0) fun _ => 0)
    (fun t m1 P h1 hd' hn ho hP => mp_int_init_copy_spec hE h1 hd' hn hd hP) fun t m1 g h1 => ?_) fun _ _ => TDone.elim
  refine withLocal_spec (v := y) h1 g
    (fun t m1 P h1 hd' hn ho hP => mp_int_init_copy_spec hE h1 hd' hn (g.out he) hP) fun t' m2 g2 h2 => ?_
  refine hk (nset (nset (fun _ => .tmp 0) 0 t) 1 t') _ m2 (g2.congr (fun _ _ => rfl) fun i hi => ?_) h2
  rcases show i = 0 ∨ i = 1 by omega with rfl | rfl <;> rfl

end

/-! ### Rational variables -/

/-- `a` has the value `q`, in lowest terms. -/
def HasQ2 (σ : Id → Option Int) (a : MpQ) (q : ℚ) : Prop := σ a.num = some q.num ∧ σ a.den = some (q.den : Int)

/-- `σ` after the assignment of `q` to `c` -/
def updQ (σ : Id → Option Int) (c : MpQ) (q : ℚ) : Id → Option Int :=
  upd (upd σ c.num (some q.num)) c.den (some (q.den : Int))

/-- `c` is a variable to which a value may be assigned. -/
structure OutQ (σ : Id → Option Int) (c : MpQ) : Prop where
  ne : c.num ≠ c.den
  num : ∃ w, σ c.num = some w
  den : ∃ w, σ c.den = some w
  onum : c.num.own = true
  oden : c.den.own = true

/-- Two variables are the same or do not overlap. -/
def SepQ (a c : MpQ) : Prop := a = c ∨ (a.num ≠ c.num ∧ a.num ≠ c.den ∧ a.den ≠ c.num ∧ a.den ≠ c.den)

theorem OutQ.upd (h : OutQ σ c) (z : Id) (v : Int) : OutQ (upd σ z (some v)) c := by
  refine ⟨h.ne, ?_, ?_, h.onum, h.oden⟩
  · by_cases e : c.num = z
    · rw [e, upd_self]; exact ⟨_, rfl⟩
    · rw [upd_ne _ _ e]; exact h.num
  · by_cases e : c.den = z
    · rw [e, upd_self]; exact ⟨_, rfl⟩
    · rw [upd_ne _ _ e]; exact h.den

theorem updQ_updn (hne : c.num ≠ c.den) (v : Option Int) : updQ (upd σ c.num v) c q = updQ σ c q := by
  unfold updQ; rw [upd_upd]

theorem updQ_updd (hne : c.num ≠ c.den) (v : Option Int) : updQ (upd σ c.den v) c q = updQ σ c q := by
  unfold updQ; rw [upd_comm _ _ _ hne.symm, upd_upd]

theorem OutQ.out {n : Nat} {T : Nat → Id} {V : Nat → Int} (h : OutQ σ c) (g : Tmps σ n T V σ') : OutQ σ' c := by
  obtain ⟨x, hx⟩ := h.num
  obtain ⟨y, hy⟩ := h.den
  exact ⟨h.ne, ⟨x, g.out hx⟩, ⟨y, g.out hy⟩, h.onum, h.oden⟩

theorem Tmps.updQ {n : Nat} {T : Nat → Id} {V : Nat → Int} (g : Tmps σ n T V σ') (hc : OutQ σ c) :
    Tmps (updQ σ c q) n T V (Imath.updQ σ' c q) := by
  obtain ⟨x, hx⟩ := hc.num
  obtain ⟨y, hy⟩ := hc.den
  exact (g.upd_out hx _).upd_out (by rw [upd_ne _ _ hc.ne.symm]; exact hy) _

/-! ### Reduction to lowest terms -/

theorem divInt_num_den (hy : y ≠ 0) :
    (Rat.divInt x y).num = sval (decide (x < 0) != decide (y < 0)) (x.natAbs / Int.gcd x y) ∧
    (((Rat.divInt x y).den : Nat) : Int) = (y.natAbs / Int.gcd x y : Nat) := by
  have hdvd : (Int.gcd x y : Int) ∣ x := Int.gcd_dvd_left ..
  obtain ⟨k, hk⟩ := hdvd
  have hg : (0 : Int) < Int.gcd x y := by
    have : Int.gcd x y ≠ 0 := fun h => hy (Int.gcd_eq_zero_iff.1 h).2
    omega
  have hab : x.natAbs / Int.gcd x y = k.natAbs := by
    have : x.natAbs = Int.gcd x y * k.natAbs := by
      conv_lhs => rw [hk, Int.natAbs_mul, Int.natAbs_natCast]
    rw [this, Nat.mul_div_cancel_left _ (by omega)]
  refine ⟨?_, ?_⟩
  · rw [Rat.num_divInt, hab, show y.sign * x / (Int.gcd y x : Int) = y.sign * k by
      rw [Int.gcd_comm]; nth_rewrite 1 [hk]; rw [mul_left_comm]; exact Int.mul_ediv_cancel_left _ hg.ne']
    have hx : x < 0 ↔ k < 0 := by
      rw [hk]; constructor
      · intro h; by_contra h'; nlinarith
      · intro h; nlinarith
    unfold sval
    rcases lt_or_gt_of_ne hy with h | h
    · rw [Int.sign_eq_neg_one_of_neg h]
      by_cases h' : x < 0
      · have := hx.1 h'
        simp [h, h', abs_of_neg this]
      · have := mt hx.2 h'
        simp [h, h', abs_of_nonneg (not_lt.1 this)]
    · rw [Int.sign_eq_one_of_pos h]
      by_cases h' : x < 0
      · have := hx.1 h'
        simp [h', show ¬ y < 0 by omega, abs_of_neg this]
      · have := mt hx.2 h'
        simp [h', show ¬ y < 0 by omega, abs_of_nonneg (not_lt.1 this)]
  · rw [Rat.den_divInt, if_neg hy, Int.gcd_comm]

theorem natAbs_tdiv_nat (x : Int) (g : Nat) : (x.tdiv g).natAbs = x.natAbs / g := by
  rw [Int.natAbs_tdiv, Int.natAbs_natCast]; rfl

theorem tdiv_neg_iff {g : Nat} (hd : (g : Int) ∣ x) (hx : x ≠ 0) : x.tdiv g < 0 ↔ x < 0 := by
  obtain ⟨k, rfl⟩ := hd
  have hg : (g : Int) ≠ 0 := by rintro h; simp [h] at hx
  rw [Int.mul_tdiv_cancel_left _ hg]
  have : (0 : Int) < g := by omega
  constructor <;> intro h
  · nlinarith
  · by_contra h'; nlinarith

theorem ratSigns_spec {Q : Unit → Mem → Prop} (h : R2 m σ)
    (hn : σ c.num = some x) (hd : σ c.den = some y) (hne : c.num ≠ c.den) (hx : x ≠ 0)
    (hQ : ∀ m', R2 m' (upd (upd σ c.num (some (sval (decide (x < 0) != decide (y < 0)) x.natAbs)))
      c.den (some (y.natAbs : Int))) → Q () m') :
    wp env E (ratSigns c) Q m := by
  unfold ratSigns MP_NUMER_SIGN MP_DENOM_SIGN
  refine wp_bind (MP_SIGN_spec h hn (wp_bind (MP_SIGN_spec h hd ?_)))
  by_cases e : decide (x < 0) = decide (y < 0)
  · refine wp_if_pos e (wp_bind (setSign_spec h hd (by simp) fun m1 h1 => ?_))
    refine setSign_spec h1 (by rw [upd_ne _ _ hne]; exact hn) (by simp) fun m2 h2 => hQ m2 ?_
    rw [e, bne_self_eq_false, upd_comm _ _ _ hne]
    exact h2
  · refine wp_if_neg e (wp_bind (setSign_spec h hn (fun _ => hx) fun m1 h1 => ?_))
    refine setSign_spec h1 (by rw [upd_ne _ _ hne.symm]; exact hd) (by simp) fun m2 h2 => hQ m2 ?_
    rw [show (decide (x < 0) != decide (y < 0)) = true by simpa using e]
    exact h2

theorem cmpZ_eq_zero : cmpZ x y = 0 ↔ x = y := by
  unfold cmpZ; constructor <;> intro h <;> split_ifs at * <;> omega

theorem ratDivGcd_spec {Q : Int → Mem → Prop} {g : Nat} (hE : Ref env E) (h : R2 m σ)
    (hn : σ c.num = some x) (hd : σ c.den = some y) (hz : σ z = some (g : Int)) (hg : g ≠ 0)
    (hne : c.num ≠ c.den) (hzn : z ≠ c.num) (on : c.num.own = true) (od : c.den.own = true)
    (hQ : ∀ m', R2 m' (upd (upd σ c.num (some (x.tdiv g))) c.den (some (y.tdiv g))) → Q MP_OK m') :
    wp env E (ratDivGcd c z) Q m := by
  unfold ratDivGcd
  refine wp_bind (mp_int_compare_value_spec (by decide) (by decide) h hz fun m1 h1 => ?_)
  by_cases e : g = 1
  · subst e
    refine wp_if_neg (by simp [cmpZ]) (wp_pure (hQ m1 ?_))
    rw [Nat.cast_one, Int.tdiv_one, Int.tdiv_one, upd_same _ hn, upd_same _ hd]
    exact h1
  refine wp_if_pos (fun h0 => e (by have := cmpZ_eq_zero.1 h0; omega)) ?_
  unfold REQUIRE
  refine wp_bind (mp_int_div_spec hE h1 hn hz (by simp) (fun t ht => ?_) (by simp) (fun h0 => absurd h0 (by omega)) fun _ m2 h2 => ?_)
  · cases ht; exact ⟨⟨_, hn⟩, on⟩
  refine wp_if_neg (by simp) ?_
  simp only [updO] at h2
  refine mp_int_div_spec hE h2 (by rw [upd_ne _ _ hne.symm]; exact hd) (by rw [upd_ne _ _ hzn]; exact hz) (by simp) (fun t ht => ?_) (by simp)
    (fun h0 => absurd h0 (by omega)) fun _ m3 h3 => hQ m3 h3
  cases ht; exact ⟨⟨_, by rw [upd_ne _ _ hne.symm]; exact hd⟩, od⟩

theorem s_rat_reduce_spec {Q : Int → Mem → Prop} (hE : Ref env E) (h : R2 m σ)
    (hn : σ c.num = some x) (hd : σ c.den = some y) (hy : x ≠ 0 → y ≠ 0) (hc : OutQ σ c)
    (hQ : ∀ m', R2 m' (updQ σ c (Rat.divInt x y)) → Q MP_OK m') :
    wp env E (s_rat_reduce c) Q m := by
  unfold s_rat_reduce
  refine wp_bind (mp_int_compare_zero_spec h hn ?_)
  by_cases hx : x = 0
  · subst hx
    refine wp_if_pos (by simp) (wp_bind (mp_int_set_value_spec hE (by decide) (by decide) h hd hc.oden fun m1 h1 => wp_pure (hQ m1 ?_)))
    rw [Rat.zero_divInt]
    unfold updQ
    rw [show (0 : ℚ).num = 0 from rfl, upd_same _ hn]
    exact h1
  refine wp_if_neg (by simpa [Int.sign_eq_zero_iff_zero] using hx) ?_
  refine withInit_spec h fun T σ1 m1 g1 r1 => ?_
  have hg : Int.gcd x y ≠ 0 := fun h => hx (Int.gcd_eq_zero_iff.1 h).1
  unfold REQUIRE
  refine wp_bind (mp_int_gcd_spec hE r1 (g1.out hn) (g1.out hd) (g1.get 0) (g1.ow 0) (fun h1 _ => absurd h1 hx) fun _ m2 r2 => ?_)
  refine wp_if_neg (by simp) ?_
  obtain ⟨σ2, r2, g2⟩ := g1.up 0 r2
  tsimp at g2
  refine wp_bind (ratDivGcd_spec hE r2 (g2.out hn) (g2.out hd) (g2.get 0) hg hc.ne (g2.ne hn 0 (by decide)) hc.onum hc.oden fun m3 r3 => ?_)
  refine wp_if_neg (by simp) ?_
  obtain ⟨σ3, r3, g3⟩ : ∃ σ3, R2 m3 σ3 ∧ Tmps (upd (upd σ c.num (some (x.tdiv (Int.gcd x y)))) c.den (some (y.tdiv (Int.gcd x y)))) 1 T (L [(Int.gcd x y : Int)]) σ3 :=
    ⟨_, r3, (g2.upd_out hn _).upd_out (by rw [upd_ne _ _ hc.ne.symm]; exact hd) _⟩
  have hn3 : (upd (upd σ c.num (some (x.tdiv (Int.gcd x y)))) c.den (some (y.tdiv (Int.gcd x y)))) c.num = some (x.tdiv (Int.gcd x y)) := by
    rw [upd_ne _ _ hc.ne, upd_self]
  have hd3 : (upd (upd σ c.num (some (x.tdiv (Int.gcd x y)))) c.den (some (y.tdiv (Int.gcd x y)))) c.den = some (y.tdiv (Int.gcd x y)) := upd_self ..
  have hdx : (Int.gcd x y : Int) ∣ x := Int.gcd_dvd_left ..
  have hdy : (Int.gcd x y : Int) ∣ y := Int.gcd_dvd_right ..
  have hx0 : x.tdiv (Int.gcd x y) ≠ 0 := by
    rintro h0
    have := Int.tdiv_mul_cancel hdx
    rw [h0, zero_mul] at this
    exact hx this.symm
  refine wp_bind (ratSigns_spec r3 (g3.out hn3) (g3.out hd3) hc.ne hx0 fun m4 r4 => wp_pure ?_)
  have g4 := (g3.upd_out hn3 (sval (decide (x.tdiv (Int.gcd x y) < 0) != decide (y.tdiv (Int.gcd x y) < 0)) (x.tdiv (Int.gcd x y)).natAbs)).upd_out
    (c := c.den) (by rw [upd_ne _ _ hc.ne.symm]; exact hd3) ((y.tdiv (Int.gcd x y)).natAbs : Int)
  refine .mk g4 r4 fun m5 h5 => hQ m5 ?_
  obtain ⟨e1, e2⟩ := divInt_num_den (x := x) (hy hx)
  unfold updQ
  rw [e1, e2]
  rw [natAbs_tdiv_nat, natAbs_tdiv_nat, upd_comm _ _ _ hc.ne.symm, upd_upd, upd_upd] at h5
  simpa only [tdiv_neg_iff hdx hx, tdiv_neg_iff hdy (hy hx)] using h5

end Imath
