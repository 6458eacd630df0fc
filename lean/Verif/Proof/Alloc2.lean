import Verif.Proof.Alloc
import Verif.Proof.Bridge
import Verif.Proof.RatOps

/-! # Variables made with `mp_int_alloc` and `mp_rat_alloc` -/

namespace Imath

variable {env : Env} {E : Fault → Prop} {m : Mem} {σ : Id → Option Int}

theorem R2.holds {z : Id} {v : Int} (h : R2 m σ) (hz : σ z = some v) : Holds m z v := by
  obtain ⟨s, hr, hg⟩ := h
  obtain ⟨C, hC, gC⟩ := hg.get hz
  refine ⟨C.mpz, C.ptr, C.buf, hr.int hC, rfl, rfl, hr.dig hC, rfl, (hr.okl hC).2, ?_, gC.norm.pos, gC.norm.le, gC.norm.top, ?_, ?_⟩
  · have := hr.okd hC
    norm_num
    exact this
  · rw [← val_eq_ofDigits]
    exact gC.val.trans (sval_eq _ _)
  · intro hn
    have := gC.neg_iff.1 hn
    omega

theorem wp_and {α : Type} {x : M α} {P Q : α → Mem → Prop} (h1 : wp env E x P m) (h2 : wp env E x Q m) :
    wp env E x (fun r m' => P r m' ∧ Q r m') m := by
  unfold wp at *
  cases h : x env m with
  | ok a m' => rw [h] at h1 h2; exact ⟨h1, h2⟩
  | fault f => rw [h] at h1; exact h1

theorem declInt_keeps : wp env E (declInt .tmp) (fun t m' => ∀ y, Decl m y → Decl m' y ∧ y ≠ t) m := by
  intro y hy
  have hne : y ≠ .tmp m.next := hy.old _ le_rfl
  obtain ⟨Z, hZ⟩ := hy.int
  obtain ⟨d, hd⟩ := hy.sng
  refine ⟨⟨⟨Z, ?_⟩, ⟨d, ?_⟩, hy.own, fun n hn => hy.old n ?_⟩, hne⟩
  · simp [Mem.setInt, Mem.setDig, hne, hZ]
  · simp [Mem.setInt, Mem.setDig, hne, hd]
  · have : m.next + 1 ≤ n := hn
    omega

/-- Two new variables, made into a rational number -/
theorem ratTmp_spec {α : Type} {k : MpQ → Int → M α} {Q : α → Mem → Prop} (hE : Ref env E) (h : R2 m σ)
    (hk : ∀ num den m', σ num = none → σ den = none → num ≠ den → num.own = true → den.own = true → (∀ n, num ≠ .var n) →
      (∀ n, den ≠ .var n) → R2 m' (upd (upd σ num (some 0)) den (some 1)) → wp env E (k ⟨num, den⟩ MP_OK) Q m') :
    wp env E (do
      let num ← declInt .tmp
      let den ← declInt .tmp
      let res ← mp_rat_init ⟨num, den⟩
      k ⟨num, den⟩ res) Q m := by
  obtain ⟨s, r, g⟩ := h
  refine wp_bind (declInt_tmp_rep r fun num m1 fn on dn r1 vn => ?_)
  refine wp_bind (wp_mono (wp_and (declInt_tmp_rep (Q := fun t m' => s t = none ∧ t.own = true ∧ Decl m' t ∧ Rep m' s ∧ ∀ n, t ≠ .var n) r1
    fun t m' h1 h2 h3 h4 h5 => ⟨h1, h2, h3, h4, h5⟩) declInt_keeps) ?_)
  rintro den m2 ⟨⟨fd, od, dd, r2, vd⟩, keep⟩
  obtain ⟨dn2, hne⟩ := keep num dn
  refine wp_bind ?_
  unfold mp_rat_init
  have hi : wp env E (mp_int_init num) (fun r m' => r = MP_OK ∧ R2 m' (upd σ num (some 0)) ∧ Decl m' den) m2 := by
    refine wp_mono (wp_and (mp_int_init_spec (Q := fun r m' => r = MP_OK ∧ R2 m' (upd σ num (some 0))) ⟨s, r2, g⟩ dn2 (g.none_iff.1 fn)
      fun m' h' => ⟨rfl, h'⟩) (Q := fun _ m' => Decl m' den) ?_) fun _ _ h => ⟨h.1.1, h.1.2, h.2⟩
    obtain ⟨Z, hZ⟩ := dn2.int
    obtain ⟨d, hd⟩ := dn2.sng
    refine mp_int_init_raw hZ hd ?_
    obtain ⟨Z', hZ'⟩ := dd.int
    obtain ⟨d', hd'⟩ := dd.sng
    refine ⟨⟨Z', ?_⟩, ⟨d', ?_⟩, od, dd.old⟩
    · simp [Mem.setInt, Mem.setDig, Ne.symm hne, hZ']
    · simp [Mem.setInt, Mem.setDig, Ne.symm hne, hd']
  refine wp_bind (wp_mono hi ?_)
  rintro _ m3 ⟨rfl, h3, d3⟩
  refine wp_if_neg (by simp) ?_
  refine wp_bind (mp_int_init_spec h3 d3 (by rw [upd_ne _ _ (Ne.symm hne)]; exact g.none_iff.1 fd) fun m4 h4 => wp_if_neg (by simp) ?_)
  refine mp_int_set_value_spec hE (by decide) (by decide) h4 (upd_self _ _ _) od fun m5 h5 => ?_
  rw [upd_upd] at h5
  exact hk num den m5 (g.none_iff.1 fn) (g.none_iff.1 fd) hne on od vn vd h5

theorem dropInt_spare {t : Id} {Q : Unit → Mem → Prop} (h : R2 m σ) (hz : σ t = none) (hv : ∀ n, t ≠ .var n)
    (hQ : ∀ m', R2 m' σ → m'.int t = none → (∀ y, y ≠ t → m'.int y = m.int y) → Q () m') : wp env E (dropInt t) Q m := by
  obtain ⟨s, r, g⟩ := h
  have hs : s t = none := g.none_iff.2 hz
  have ne : ∀ {z C}, s z = some C → z ≠ t := fun h e => by rw [e, hs] at h; cases h
  have nb : ∀ {z C}, s z = some C → C.base ≠ .single t := fun h e => by
    have := r.kind h
    rw [e] at this
    exact ne h (okBase_single this).symm
  refine wp_dropInt (hQ _ ⟨s, ⟨?_, ?_, r.kind, r.inj, ?_, ?_, ?_, ?_, r.freshI, ?_, r.okd, r.okl, r.prec, r.thr⟩, g⟩ ?_ ?_)
  · intro z C h; simp [Mem.setInt, Mem.setDig, ne h, r.int h]
  · intro z C h; simp [Mem.setInt, Mem.setDig, nb h, r.dig h]
  · intro z C h
    obtain ⟨d, hd⟩ := r.sng h
    exact ⟨d, by simp [Mem.setInt, Mem.setDig, ne h, hd]⟩
  · intro n
    obtain ⟨⟨Z, hZ⟩, d, hd⟩ := r.decl n
    exact ⟨⟨Z, by simp [Mem.setInt, Mem.setDig, Ne.symm (hv n), hZ]⟩, d, by simp [Mem.setInt, Mem.setDig, Ne.symm (hv n), hd]⟩
  · intro k l h
    exact r.owned (k := k) (l := l) (by simpa [Mem.setInt, Mem.setDig] using h)
  · intro k hk
    simpa [Mem.setInt, Mem.setDig] using r.freshH k hk
  · intro k hk
    simpa [Mem.setInt, Mem.setDig] using r.freshS k hk
  · simp [Mem.setInt, Mem.setDig]
  · intro y hy; simp [Mem.setInt, Mem.setDig, hy]

theorem mp_rat_alloc_spec {Q : Option MpQ → Mem → Prop} (hE : Ref env E) (h : R2 m σ)
    (hQ : ∀ num den m', σ num = none → σ den = none → num ≠ den → num.own = true → den.own = true → (∀ n, num ≠ .var n) →
      (∀ n, den ≠ .var n) → R2 m' (upd (upd σ num (some 0)) den (some 1)) → Q (some ⟨num, den⟩) m') :
    wp env E mp_rat_alloc Q m := by
  unfold mp_rat_alloc
  refine wp_bind (request_spec hE h fun m1 h1 => ?_)
  exact ratTmp_spec (k := fun q res => if res ≠ MP_OK then do
    dropInt q.num
    dropInt q.den
    pure none
  else pure (some q)) hE h1 fun num den m' a b c d e f g i => wp_if_neg (by simp) (wp_pure (hQ num den m' a b c d e f g i))

theorem mp_rat_free_spec {Q : Unit → Mem → Prop} {num den : Id} {x y : Int} (h : R2 m σ) (hx : σ num = some x) (hy : σ den = some y)
    (hne : num ≠ den) (on : num.own = true) (od : den.own = true) (vn : ∀ n, num ≠ .var n) (vd : ∀ n, den ≠ .var n)
    (hQ : ∀ m', R2 m' (upd (upd σ num none) den none) → m'.int num = none → m'.int den = none → Q () m') :
    wp env E (mp_rat_free ⟨num, den⟩) Q m := by
  unfold mp_rat_free
  obtain ⟨s, r, g⟩ := h
  obtain ⟨C, hC, gC⟩ := g.get hx
  refine wp_bind (wp_getI (r.int hC) ?_)
  refine wp_bind (wp_cwhen (fun _ => ?_) fun hk => absurd (by simp [Cell.mpz]) hk)
  unfold mp_rat_clear
  refine wp_bind (mp_int_clear_tmp ⟨s, r, g⟩ hx on vn fun m1 h1 => ?_)
  refine mp_int_clear_tmp h1 (by rw [upd_ne _ _ (Ne.symm hne)]; exact hy) od vd fun m2 h2 => ?_
  refine wp_bind (dropInt_spare h2 (by rw [upd_ne _ _ hne, upd_self]) vn fun m3 h3 i3 _ => ?_)
  refine dropInt_spare h3 (upd_self _ _ _) vd fun m4 h4 i4 k4 => hQ m4 h4 ?_ i4
  rw [k4 num hne]; exact i3

end Imath
