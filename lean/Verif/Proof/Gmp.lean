import Verif.Proof.Rat
import Verif.Proof.RatOps
import Verif.Proof.Expt
import Verif.Model.Gmp
import Verif.SpecGmp
import Mathlib.Data.Rat.Floor

/-! # The GMP-compatible interface: arithmetic -/

namespace Imath

variable {env : Env} {E : Fault → Prop} {m : Mem} {s : Id → Option Cell} {σ σ' : Id → Option Int}
  {z a b c d : Id} {x y w v : Int} {u : Nat}

theorem CHECK_spec {f : M Int} {Q : Unit → Mem → Prop} (h : wp env E f (fun r m' => r = MP_OK ∧ Q () m') m) :
    wp env E (CHECK f) Q m := by
  unfold CHECK
  refine wp_bind (wp_mono h ?_)
  intro r m' hr
  exact wp_cassert (by simp [hr.1]) hr.2

/-- As `fake_frame_rep`, with the declared variables. -/
theorem fake_frame_decl {α : Type} {k : Id → M α} {Q : α → Mem → Prop} {v : Int} {pack : Id → Ptr → M Unit}
    (hr : Rep m s)
    (hpack : ∀ (z : Id) (p : Ptr) (m1 : Mem) (Z : Mpz) (d0 d1 : Nat) (Q' : Unit → Mem → Prop),
      m1.int z = some Z → At m1 p [d0, d1] → d1 < 𝔹 →
      (∀ n sg xs, xs.length = 2 → Dig xs → Good ⟨p.base, xs, n, sg⟩ v →
        Q' () ((m1.splice p xs).setInt z (some ⟨some p, 2, n, sg⟩))) →
      wp env E (pack z p) Q' m1)
    (hk : ∀ t m' C, s t = none → t.own = false → Rep m' (Imath.upd s t (some C)) → Good C v →
      (∀ y, Decl m y → Decl m' y) →
      wp env E (k t) (fun r m'' => ∃ s'' D, Rep m'' s'' ∧ s'' t = some D ∧
        (∀ m3, Rep m3 (Imath.upd s'' t none) → Q r m3)) m') :
    wp env E (do
      let z ← declInt .fake
      let vbuf ← declArr 2
      pack z vbuf
      let r ← k z
      dropArr vbuf
      dropInt z
      pure r) Q m := by
  refine wp_bind (wp_declInt fun Z d hd => ?_)
  refine wp_bind (wp_declArr fun l hl hdl => ?_)
  obtain ⟨d0, d1, rfl⟩ : ∃ d0 d1, l = [d0, d1] := by
    match l, hl with
    | [d0, d1], _ => exact ⟨d0, d1, rfl⟩
  have hst := (hr.freshI m.next (Nat.le_refl _)).2
  have hn1 : ∀ m' : Mem, (m'.bump (m.next + 1)).next = m.next + 1 := fun _ => rfl
  simp only [hn1]
  have hfs := hr.freshS (m.next + 1) (by omega)
  refine wp_bind (hpack _ _ _ Z d0 d1 _ ?_ ?_ ?_ ?_)
  · simp [Mem.setInt, Mem.setDig, Mem.bump]
  · exact At_alloc _ _ _ _
  · simp at hdl; exact hdl.2
  · intro n sg xs hlx hdx hgood
    refine wp_bind (wp_mono (hk _ _ _ hst rfl
      (hr.insert (C := ⟨.stack (m.next + 1), xs, n, sg⟩) hst ?_ ?_ ?_ ?_ ?_ ?_ ?_ ?_ ?_ ?_ rfl rfl)
        hgood ?_) ?_)
    · intro y
      simp only [Mem.setInt, Mem.splice, Mem.setDig, Mem.bump, Cell.mpz, hlx]
      split <;> simp_all
    · simp [Mem.setInt, Mem.splice, Mem.setDig, Mem.bump, spliceL_self, hlx]
    · exact ⟨d, by simp [Mem.setInt, Mem.splice, Mem.setDig, Mem.bump]⟩
    · simp [okBase]
    · intro b h1 h2
      simp [Mem.setInt, Mem.splice, Mem.setDig, Mem.bump, h1, h2]
    · exact .inr hfs
    · simp [Mem.setInt, Mem.splice, Mem.bump]; omega
    · intro j hj
      have : m.next + 1 + 1 ≤ j := hj
      refine ⟨by simp, ?_, ?_, by simp⟩ <;> simp <;> omega
    · exact hdx
    · simp [hlx]
    · intro y hy
      obtain ⟨⟨Z1, hZ1⟩, ⟨d2, hd2⟩, ho, hold⟩ := hy
      have hyf : y ≠ .fake m.next := Id.own_ne_fake ho
      refine ⟨⟨Z1, ?_⟩, ⟨d2, ?_⟩, ho, fun n hn => hold n ?_⟩
      · simp [Mem.setInt, Mem.splice, Mem.setDig, Mem.bump, hyf, hZ1]
      · simp [Mem.setInt, Mem.splice, Mem.setDig, Mem.bump, hyf, hd2]
      · have : m.next + 1 + 1 ≤ n := hn
        omega
    · rintro r m'' ⟨s'', D, hr'', hD, h5⟩
      have hDb : D.base = .stack (m.next + 1) := hr''.kind hD
      refine wp_bind (x := dropArr _) ?_
      show wp env E (do dropInt _; pure r) Q _
      refine wp_bind (wp_dropInt ?_)
      refine wp_pure (h5 _ (hr''.remove hD ?_ ?_ ?_ ?_ ?_ ?_ rfl rfl))
      · intro y hy; simp [Mem.setInt, Mem.setDig, hy]
      · intro b h1 h2
        rw [hDb] at h1
        simp [Mem.setInt, Mem.setDig, h1, h2]
      · intro k' hb; rw [hDb] at hb; simp at hb
      · intro k' hb; rw [hDb] at hb; simp only [Base.stack.injEq] at hb
        simp [Mem.setInt, Mem.setDig, ← hb]
      · intro n' hn'; simp at hn'
      · exact Nat.le_refl _

theorem mp_int_init_uvalue_tmp {Q : Int → Mem → Prop} {t : Id} {uv : Nat} (hE : Ref env E)
    (huv : uv < 18446744073709551616) (h : R2 m σ) (hd : Decl m t) (hz : σ t = none)
    (hQ : ∀ m', R2 m' (upd σ t (some (uv : Int))) → Q MP_OK m') :
    wp env E (mp_int_init_uvalue t uv) Q m := by
  obtain ⟨s, hr, hg⟩ := h
  unfold mp_int_init_uvalue withUFake
  refine fake_frame_decl (pack := fun z p => s_ufake z uv p) (v := (uv : Int)) hr ?_ ?_
  · intro z p m1 Z d0 d1 Q' h1 h2 h3 h4
    refine s_ufake_spec huv h1 h2 h3 fun n xs g1 g2 g3 g4 g5 g6 => ?_
    refine h4 n false xs g1 g2 ⟨⟨g3, by simp; omega, g6⟩, by simp, ?_⟩
    simp [Cell.mag, sval, g5]
  · intro f m1 C hf hfo h1 gC hdecl
    have hft : f ≠ t := by intro he; rw [he, hd.own] at hfo; simp at hfo
    have hr1 : R2 m1 (upd σ f (some (uv : Int))) := ⟨_, h1, hg.upd gC⟩
    refine mp_int_init_copy_spec hE hr1 (hdecl t hd) (by rw [upd_ne _ _ (Ne.symm hft)]; exact hz) (upd_self _ _ _)
      fun m2 h2 => ?_
    obtain ⟨s2, hr2, hg2⟩ := h2
    obtain ⟨D, hD, -⟩ := hg2.get (z := f) (v := (uv : Int)) (by rw [upd_ne _ _ hft, upd_self])
    refine ⟨s2, D, hr2, hD, fun m3 h3 => hQ m3 ?_⟩
    have h4 : R2 m3 _ := ⟨_, h3, hg2.upd_none⟩
    rwa [upd_tmp _ (hg.none_iff.1 hf) hft] at h4

/-! ### Local variables -/

theorem withChk_rep {α : Type} {ini : Id → M Int} {k : Id → M α} {Q : α → Mem → Prop}
    (h : Rep m s)
    (hi : ∀ t m1, s t = none → t.own = true → Decl m1 t → Rep m1 s →
      wp env E (ini t) (fun r m2 => r = MP_OK ∧
        wp env E (k t) (fun r m'' => ∃ s'' D, Rep m'' s'' ∧ s'' t = some D ∧
          (∀ m3, Rep m3 (upd s'' t none) → Q r m3)) m2) m1) :
    wp env E (withChk ini k) Q m := by
  unfold withChk
  refine wp_bind (declInt_tmp_rep h fun t m1 hst hown hd h1 hv => ?_)
  refine wp_bind (CHECK_spec (wp_mono (hi t m1 hst hown hd h1) ?_))
  rintro r m2 ⟨rfl, hk⟩
  refine ⟨rfl, ?_⟩
  refine wp_bind (wp_mono hk ?_)
  rintro r m3 ⟨s'', D, h3, h4, h5⟩
  exact clear_drop_rep h3 h4 hown hv fun m4 h6 => wp_pure (h5 m4 h6)

theorem withUnchk_rep {α : Type} {ini : Id → M Int} {k : Id → M α} {Q : α → Mem → Prop}
    (h : Rep m s)
    (hi : ∀ t m1, s t = none → t.own = true → Decl m1 t → Rep m1 s →
      wp env E (ini t) (fun r m2 =>
        wp env E (k t) (fun r m'' => ∃ s'' D, Rep m'' s'' ∧ s'' t = some D ∧
          (∀ m3, Rep m3 (upd s'' t none) → Q r m3)) m2) m1) :
    wp env E (withUnchk ini k) Q m := by
  unfold withUnchk
  refine wp_bind (declInt_tmp_rep h fun t m1 hst hown hd h1 hv => ?_)
  refine wp_bind (wp_mono (hi t m1 hst hown hd h1) ?_)
  intro r m2 hk
  refine wp_bind (wp_mono hk ?_)
  rintro r m3 ⟨s'', D, h3, h4, h5⟩
  exact clear_drop_rep h3 h4 hown hv fun m4 h6 => wp_pure (h5 m4 h6)

section
variable {α : Type} {ini : Id → M Int} {k : Id → M α} {Q : α → Mem → Prop} {n : Nat} {T : Nat → Id} {V : Nat → Int}

theorem withChk_spec (h : R2 m σ') (g : Tmps σ n T V σ')
    (hi : ∀ t m1 {P : Int → Mem → Prop}, R2 m1 σ' → Decl m1 t → σ' t = none → t.own = true →
      (∀ m', R2 m' (upd σ' t (some v)) → P MP_OK m') → wp env E (ini t) P m1)
    (hk : ∀ t m1, Tmps σ (n + 1) (nset T n t) (nset V n v) (upd σ' t (some v)) → R2 m1 (upd σ' t (some v)) →
      wp env E (k t) (fun r m'' => TDone (n + 1) (nset T n t) Q r m'') m1) :
    wp env E (withChk ini k) (fun r m'' => TDone n T Q r m'') m := by
  obtain ⟨s, hr, hs⟩ := h
  refine withChk_rep hr fun t m1 hst ho hd h1 => ?_
  have ht : σ' t = none := hs.none_iff.1 hst
  refine hi t m1 ⟨s, h1, hs⟩ hd ht ho fun m2 h2 => ⟨rfl, ?_⟩
  refine wp_mono (hk t m2 (g.push ht ho v) h2) ?_
  rintro r m3 ⟨σF, σ'', V', g', ⟨s', h3, hs'⟩, hQ⟩
  have e : nset T n t n = t := by simp
  obtain ⟨D, hD, -⟩ := hs'.get (z := t) (v := V' n) (by have := g'.get n (by omega); rwa [e] at this)
  refine ⟨s', D, h3, hD, fun m4 h4 => ?_⟩
  have h5 : R2 m4 (upd σ'' t none) := ⟨_, h4, hs'.upd_none⟩
  rw [← e] at h5
  exact ⟨σF, _, V', g'.pop.congr (fun j hj => by simp; omega) (fun _ _ => rfl), h5, hQ⟩

theorem chk1 (h : R2 m σ)
    (hi : ∀ t m1 {P : Int → Mem → Prop}, R2 m1 σ → Decl m1 t → σ t = none → t.own = true →
      (∀ m', R2 m' (upd σ t (some v)) → P MP_OK m') → wp env E (ini t) P m1)
    (hk : ∀ T σ' m', Tmps σ 1 T (L [v]) σ' → R2 m' σ' → wp env E (k (T 0)) (fun r m'' => TDone 1 T Q r m'') m') :
    wp env E (withChk ini k) Q m := by
  refine wp_mono (withChk_spec (Q := Q) (v := v) h (Tmps.nil σ (fun _ => .tmp 0) fun _ => 0) hi fun t m1 g h1 => ?_)
    fun _ _ => TDone.elim
  refine hk _ _ m1 (g.congr (fun _ _ => rfl) fun i hi => ?_) h1
  rw [show i = 0 by omega]; rfl

theorem chkInit (h : R2 m σ)
    (hk : ∀ T σ' m', Tmps σ 1 T (L [0]) σ' → R2 m' σ' → wp env E (k (T 0)) (fun r m'' => TDone 1 T Q r m'') m') :
    wp env E (withChk mp_int_init k) Q m :=
  chk1 h (fun _ _ _ h1 hd hn _ hP => mp_int_init_spec h1 hd hn hP) hk

theorem chkUvalue (hE : Ref env E) (hu : u < 18446744073709551616) (h : R2 m σ)
    (hk : ∀ T σ' m', Tmps σ 1 T (L [(u : Int)]) σ' → R2 m' σ' → wp env E (k (T 0)) (fun r m'' => TDone 1 T Q r m'') m') :
    wp env E (withChk (fun t => mp_int_init_uvalue t u) k) Q m :=
  chk1 h (fun _ _ _ h1 hd hn _ hP => mp_int_init_uvalue_tmp hE hu h1 hd hn hP) hk

theorem withUnchk_spec (h : R2 m σ') (g : Tmps σ n T V σ')
    (hi : ∀ t m1 {P : Int → Mem → Prop}, R2 m1 σ' → Decl m1 t → σ' t = none → t.own = true →
      (∀ m', R2 m' (upd σ' t (some v)) → P MP_OK m') → wp env E (ini t) P m1)
    (hk : ∀ t m1, Tmps σ (n + 1) (nset T n t) (nset V n v) (upd σ' t (some v)) → R2 m1 (upd σ' t (some v)) →
      wp env E (k t) (fun r m'' => TDone (n + 1) (nset T n t) Q r m'') m1) :
    wp env E (withUnchk ini k) (fun r m'' => TDone n T Q r m'') m := by
  obtain ⟨s, hr, hs⟩ := h
  refine withUnchk_rep hr fun t m1 hst ho hd h1 => ?_
  have ht : σ' t = none := hs.none_iff.1 hst
  refine hi t m1 ⟨s, h1, hs⟩ hd ht ho fun m2 h2 => ?_
  refine wp_mono (hk t m2 (g.push ht ho v) h2) ?_
  rintro r m3 ⟨σF, σ'', V', g', ⟨s', h3, hs'⟩, hQ⟩
  have e : nset T n t n = t := by simp
  obtain ⟨D, hD, -⟩ := hs'.get (z := t) (v := V' n) (by have := g'.get n (by omega); rwa [e] at this)
  refine ⟨s', D, h3, hD, fun m4 h4 => ?_⟩
  have h5 : R2 m4 (upd σ'' t none) := ⟨_, h4, hs'.upd_none⟩
  rw [← e] at h5
  exact ⟨σF, _, V', g'.pop.congr (fun j hj => by simp; omega) (fun _ _ => rfl), h5, hQ⟩

theorem unchkInit (h : R2 m σ)
    (hk : ∀ T σ' m', Tmps σ 1 T (L [0]) σ' → R2 m' σ' → wp env E (k (T 0)) (fun r m'' => TDone 1 T Q r m'') m') :
    wp env E (withUnchk mp_int_init k) Q m := by
  refine wp_mono (withUnchk_spec (Q := Q) (v := 0) h (Tmps.nil σ (fun _ => .tmp 0) fun _ => 0)
    (fun _ _ _ h1 hd hn _ hP => mp_int_init_spec h1 hd hn hP) fun t m1 g h1 => ?_) fun _ _ => TDone.elim
  refine hk _ _ m1 (g.congr (fun _ _ => rfl) fun i hi => ?_) h1
  rw [show i = 0 by omega]; rfl

end

/-! ### Rounding -/

theorem tmod_facts (hy : y ≠ 0) :
    x = x.tdiv y * y + x.tmod y ∧ |x.tmod y| < |y| ∧ (0 ≤ x → 0 ≤ x.tmod y) ∧ (x ≤ 0 → x.tmod y ≤ 0) := by
  refine ⟨by have := Int.mul_tdiv_add_tmod x y; linarith [mul_comm y (x.tdiv y)], ?_, fun h => Int.tmod_nonneg _ h, fun h => ?_⟩
  · have := Int.natAbs_tmod x y
    have h2 := Nat.mod_lt x.natAbs (show 0 < y.natAbs by omega)
    rw [Int.abs_eq_natAbs, Int.abs_eq_natAbs]; omega
  · have := Int.tmod_nonneg (a := -x) y (by omega)
    rw [Int.neg_tmod] at this; omega

theorem div_split (hy : y ≠ 0) : (x : ℚ) / y = (x.tmod y : ℚ) / y + (x.tdiv y : ℤ) := by
  have hy' : (y : ℚ) ≠ 0 := by exact_mod_cast hy
  have h := (tmod_facts (x := x) hy).1
  field_simp
  have : (x : ℚ) = ((x.tdiv y * y + x.tmod y : ℤ) : ℚ) := by rw [← h]
  rw [this]; push_cast; ring

/-- The four cases of signs of a proper fraction. -/
theorem frac_cases {r : Int} (h : |r| < |y|) :
    (0 ≤ r ∧ 0 < y ∨ r ≤ 0 ∧ y < 0 → 0 ≤ (r : ℚ) / y ∧ (r : ℚ) / y < 1) ∧
    (r ≤ 0 ∧ 0 < y ∨ 0 ≤ r ∧ y < 0 → -1 < (r : ℚ) / y ∧ (r : ℚ) / y ≤ 0) := by
  have h1 := abs_lt.1 h
  constructor
  · rintro (⟨a, b⟩ | ⟨a, b⟩)
    · have hb : (0 : ℚ) < y := by exact_mod_cast b
      rw [abs_of_pos b] at h1
      exact ⟨div_nonneg (by exact_mod_cast a) hb.le, by rw [div_lt_one hb]; exact_mod_cast h1.2⟩
    · have hb : (y : ℚ) < 0 := by exact_mod_cast b
      rw [abs_of_neg b] at h1
      exact ⟨div_nonneg_of_nonpos (by exact_mod_cast a) hb.le, by rw [div_lt_one_of_neg hb]; exact_mod_cast (by omega : y < r)⟩
  · rintro (⟨a, b⟩ | ⟨a, b⟩)
    · have hb : (0 : ℚ) < y := by exact_mod_cast b
      rw [abs_of_pos b] at h1
      exact ⟨by rw [lt_div_iff₀ hb]; exact_mod_cast (by omega : -1 * y < r),
        div_nonpos_of_nonpos_of_nonneg (by exact_mod_cast a) hb.le⟩
    · have hb : (y : ℚ) < 0 := by exact_mod_cast b
      rw [abs_of_neg b] at h1
      exact ⟨by rw [lt_div_iff_of_neg hb]; exact_mod_cast (by omega : r < -1 * y),
        div_nonpos_of_nonneg_of_nonpos (by exact_mod_cast a) hb.le⟩

theorem floor_tdiv (hy : y ≠ 0) :
    ⌊(x : ℚ) / y⌋ = if x.tmod y ≠ 0 ∧ (x < 0 ∧ 0 < y ∨ 0 < x ∧ y < 0) then x.tdiv y - 1 else x.tdiv y := by
  obtain ⟨h1, h2, h3, h4⟩ := tmod_facts (x := x) hy
  obtain ⟨f1, f2⟩ := frac_cases h2
  rw [div_split hy, Int.floor_add_intCast]
  have hr : (x.tmod y : ℚ) / y = 0 ↔ x.tmod y = 0 := by
    rw [div_eq_zero_iff]; constructor
    · rintro (h | h)
      · exact_mod_cast h
      · exact absurd (by exact_mod_cast h) hy
    · intro h; left; exact_mod_cast h
  split
  next hc =>
    obtain ⟨g1, g2⟩ := f2 (by rcases hc.2 with ⟨a, b⟩ | ⟨a, b⟩ <;> [left; right] <;> omega)
    have hne : (x.tmod y : ℚ) / y ≠ 0 := fun e => hc.1 (hr.1 e)
    have : ⌊(x.tmod y : ℚ) / y⌋ = -1 := by
      rw [Int.floor_eq_iff]; push_cast
      exact ⟨g1.le, by have := lt_of_le_of_ne g2 hne; linarith⟩
    omega
  next hc =>
    have : ⌊(x.tmod y : ℚ) / y⌋ = 0 := by
      by_cases e : x.tmod y = 0
      · rw [hr.2 e]; rfl
      · have hx : x ≠ 0 := by rintro rfl; simp at e
        obtain ⟨g1, g2⟩ := f1 (by
          by_contra hn
          refine hc ⟨e, ?_⟩
          omega)
        rw [Int.floor_eq_iff]; push_cast
        exact ⟨g1, by linarith⟩
    omega

theorem ceil_tdiv (hy : y ≠ 0) :
    ⌈(x : ℚ) / y⌉ = if x.tmod y ≠ 0 ∧ (0 < x ∧ 0 < y ∨ x < 0 ∧ y < 0) then x.tdiv y + 1 else x.tdiv y := by
  have h := floor_tdiv (x := -x) hy
  rw [Int.neg_tmod, Int.neg_tdiv, Int.cast_neg, neg_div, Int.floor_neg] at h
  have e : ⌈(x : ℚ) / y⌉ = - -⌈(x : ℚ) / y⌉ := by ring
  rw [e, h]
  by_cases hc : x.tmod y ≠ 0 ∧ (0 < x ∧ 0 < y ∨ x < 0 ∧ y < 0)
  · rw [if_pos hc, if_pos (by omega)]; ring
  · rw [if_neg hc, if_neg (by omega)]; ring

/-! ### Division -/

/-- The sign of the truncated quotient -/
theorem tdiv_signs (hy : y ≠ 0) : (x.tdiv y < 0 → x < 0 ∧ 0 < y ∨ 0 < x ∧ y < 0) ∧
    (0 < x.tdiv y → ¬ (x < 0 ∧ 0 < y ∨ 0 < x ∧ y < 0)) := by
  have hq1 : x.tdiv y < 0 → x < 0 ∧ 0 < y ∨ 0 < x ∧ y < 0 := by
    intro h0
    rcases lt_trichotomy x 0 with hx | hx | hx <;> rcases lt_or_gt_of_ne hy with hy' | hy'
    · have := Int.tdiv_nonneg_of_nonpos_of_nonpos (a := x) (b := y) (by omega) (by omega); omega
    · left; omega
    · subst hx; simp at h0
    · subst hx; simp at h0
    · right; omega
    · have := Int.tdiv_nonneg (a := x) (b := y) (by omega) (by omega); omega
  have hq2 : 0 < x.tdiv y → ¬ (x < 0 ∧ 0 < y ∨ 0 < x ∧ y < 0) := by
    rintro h0 (⟨a, b⟩ | ⟨a, b⟩)
    · have := Int.tdiv_nonneg (a := -x) (b := y) (by omega) (by omega); rw [Int.neg_tdiv] at this; omega
    · have := Int.tdiv_nonneg (a := x) (b := -y) (by omega) (by omega); rw [Int.tdiv_neg] at this; omega
  exact ⟨hq1, hq2⟩

theorem some_ne {q r : Id} (hqr : q ≠ r) : some q ≠ some r := fun e => hqr (Option.some.inj e)

theorem impz_fdiv_q_spec {Q : Unit → Mem → Prop} (hE : Ref env E) (h : R2 m σ) (ha : σ a = some x) (hb : σ b = some y)
    (hc : σ c = some w) (ho : c.own = true) (hy : y ≠ 0)
    (hQ : ∀ m', R2 m' (upd σ c (some ⌊(x : ℚ) / y⌋)) → Q () m') :
    wp env E (impz_fdiv_q c a b) Q m := by
  unfold impz_fdiv_q
  refine chkInit h fun T σ1 m1 g h1 => ?_
  refine wp_bind (mp_int_compare_zero_spec h1 (g.out ha) ?_)
  refine wp_bind (mp_int_compare_zero_spec h1 (g.out hb) ?_)
  refine wp_bind (CHECK_spec (mp_int_div_spec hE h1 (g.out ha) (g.out hb) (some_ne (g.ne hc 0 (by decide)).symm)
    (by rintro _ ⟨⟩; exact ⟨⟨_, g.out hc⟩, ho⟩) (by rintro _ ⟨⟩; exact ⟨⟨_, g.get 0⟩, g.ow 0⟩)
    (fun h0 => absurd h0 hy) fun _ m2 h2 => ⟨rfl, ?_⟩))
  simp only [updO] at h2
  obtain ⟨σ2, r2, g2⟩ := (g.upd_out hc (x.tdiv y)).up 0 h2
  tsimp at g2
  have hc2 := upd_self σ c (some (x.tdiv y))
  refine wp_bind (mp_int_compare_zero_spec r2 (g2.out hc2) ?_)
  refine wp_bind (mp_int_compare_zero_spec r2 (g2.get 0) ?_)
  have hf := floor_tdiv (x := x) hy
  obtain ⟨e1, e2, e3, e4⟩ := tmod_facts (x := x) hy
  simp only [L_0]
  have hsg : (x.tmod y).sign ≠ 0 ↔ x.tmod y ≠ 0 := not_congr Int.sign_eq_zero_iff_zero
  have done : ∀ {m' σ' v} {V : Nat → Int}, Tmps (upd σ c (some v)) 1 T V σ' → R2 m' σ' → v = ⌊(x : ℚ) / y⌋ →
      TDone 1 T Q () m' := fun g r e => .mk g r fun m3 h3 => hQ m3 (by rw [← e]; exact h3)
  obtain ⟨hq1, hq2⟩ := tdiv_signs (x := x) hy
  refine wp_ite (fun h0 => ?_) fun h0 => ?_
  · have hq := Int.sign_neg_iff.1 h0
    refine wp_cwhen (fun h3 => CHECK_spec (mp_int_sub_value_spec hE (by decide) (by decide) r2 (g2.out hc2) (g2.out hc2) ho
      fun m3 h3' => ⟨rfl, ?_⟩)) fun h3 => ?_
    · obtain ⟨σ3, r3, g3⟩ := g2.up_out hc2 h3'
      rw [upd_upd] at g3
      exact done g3 r3 (by rw [hf, if_pos ⟨hsg.1 h3, hq1 hq⟩])
    · refine done g2 r2 ?_
      rw [hf, if_neg (fun h => h3 (hsg.2 h.1))]
  · have hq : 0 ≤ x.tdiv y := by
      by_contra hn
      exact h0 (Int.sign_neg_iff.2 (by omega))
    refine wp_cwhen (fun h3 => CHECK_spec (mp_int_set_value_spec hE (by decide) (by decide) r2 (g2.out hc2) ho
      fun m3 h3' => ⟨rfl, ?_⟩)) fun h3 => ?_
    · obtain ⟨σ3, r3, g3⟩ := g2.up_out hc2 h3'
      rw [upd_upd] at g3
      refine done g3 r3 ?_
      have hq0 := Int.sign_eq_zero_iff_zero.1 h3.1
      have hs : x < 0 ∧ 0 < y ∨ 0 < x ∧ y < 0 := by
        rcases h3.2.2 with ⟨a, b⟩ | ⟨a, b⟩
        · exact .inl ⟨Int.sign_neg_iff.1 a, Int.sign_pos_iff.1 b⟩
        · exact .inr ⟨Int.sign_pos_iff.1 a, Int.sign_neg_iff.1 b⟩
      rw [hf, if_pos ⟨hsg.1 h3.2.1, hs⟩, hq0]; rfl
    · refine done g2 r2 ?_
      rw [hf, if_neg]
      rintro ⟨k1, k2⟩
      rcases Int.lt_or_eq_of_le hq with hq' | hq'
      · exact hq2 hq' k2
      · refine h3 ⟨Int.sign_eq_zero_iff_zero.2 hq'.symm, hsg.2 k1, ?_⟩
        rcases k2 with ⟨a, b⟩ | ⟨a, b⟩
        · exact .inl ⟨Int.sign_neg_iff.2 a, Int.sign_pos_iff.2 b⟩
        · exact .inr ⟨Int.sign_pos_iff.2 a, Int.sign_neg_iff.2 b⟩

theorem impz_cdiv_q_spec {Q : Unit → Mem → Prop} (hE : Ref env E) (h : R2 m σ) (ha : σ a = some x) (hb : σ b = some y)
    (hc : σ c = some w) (ho : c.own = true) (hy : y ≠ 0)
    (hQ : ∀ m', R2 m' (upd σ c (some ⌈(x : ℚ) / y⌉)) → Q () m') :
    wp env E (impz_cdiv_q c a b) Q m := by
  unfold impz_cdiv_q
  refine chkInit h fun T σ1 m1 g h1 => ?_
  refine wp_bind (mp_int_compare_zero_spec h1 (g.out ha) ?_)
  refine wp_bind (mp_int_compare_zero_spec h1 (g.out hb) ?_)
  refine wp_bind (CHECK_spec (mp_int_div_spec hE h1 (g.out ha) (g.out hb) (some_ne (g.ne hc 0 (by decide)).symm)
    (by rintro _ ⟨⟩; exact ⟨⟨_, g.out hc⟩, ho⟩) (by rintro _ ⟨⟩; exact ⟨⟨_, g.get 0⟩, g.ow 0⟩)
    (fun h0 => absurd h0 hy) fun _ m2 h2 => ⟨rfl, ?_⟩))
  simp only [updO] at h2
  obtain ⟨σ2, r2, g2⟩ := (g.upd_out hc (x.tdiv y)).up 0 h2
  tsimp at g2
  have hc2 := upd_self σ c (some (x.tdiv y))
  refine wp_bind (mp_int_compare_zero_spec r2 (g2.out hc2) ?_)
  refine wp_bind (mp_int_compare_zero_spec r2 (g2.get 0) ?_)
  have hf := ceil_tdiv (x := x) hy
  obtain ⟨e1, e2, e3, e4⟩ := tmod_facts (x := x) hy
  simp only [L_0]
  have hsg : (x.tmod y).sign ≠ 0 ↔ x.tmod y ≠ 0 := not_congr Int.sign_eq_zero_iff_zero
  have hx0 : x.tmod y ≠ 0 → x ≠ 0 := by rintro hx rfl; simp at hx
  have done : ∀ {m' σ' v} {V : Nat → Int}, Tmps (upd σ c (some v)) 1 T V σ' → R2 m' σ' → v = ⌈(x : ℚ) / y⌉ →
      TDone 1 T Q () m' := fun g r e => .mk g r fun m3 h3 => hQ m3 (by rw [← e]; exact h3)
  obtain ⟨hq1, hq2⟩ := tdiv_signs (x := x) hy
  refine wp_ite (fun h0 => ?_) fun h0 => ?_
  · have hq := Int.sign_pos_iff.1 h0
    refine wp_cwhen (fun h3 => CHECK_spec (mp_int_add_value_spec hE (by decide) (by decide) r2 (g2.out hc2) (g2.out hc2) ho
      fun m3 h3' => ⟨rfl, ?_⟩)) fun h3 => ?_
    · obtain ⟨σ3, r3, g3⟩ := g2.up_out hc2 h3'
      rw [upd_upd] at g3
      have := hq2 hq
      have := hx0 (hsg.1 h3)
      exact done g3 r3 (by rw [hf, if_pos ⟨hsg.1 h3, by omega⟩])
    · refine done g2 r2 ?_
      rw [hf, if_neg (fun h => h3 (hsg.2 h.1))]
  · have hq : x.tdiv y ≤ 0 := by
      by_contra hn
      exact h0 (Int.sign_pos_iff.2 (by omega))
    refine wp_cwhen (fun h3 => CHECK_spec (mp_int_set_value_spec hE (by decide) (by decide) r2 (g2.out hc2) ho
      fun m3 h3' => ⟨rfl, ?_⟩)) fun h3 => ?_
    · obtain ⟨σ3, r3, g3⟩ := g2.up_out hc2 h3'
      rw [upd_upd] at g3
      refine done g3 r3 ?_
      have hq0 := Int.sign_eq_zero_iff_zero.1 h3.1
      have hs : 0 < x ∧ 0 < y ∨ x < 0 ∧ y < 0 := by
        rcases h3.2.2 with ⟨a, b⟩ | ⟨a, b⟩
        · exact .inl ⟨Int.sign_pos_iff.1 a, Int.sign_pos_iff.1 b⟩
        · exact .inr ⟨Int.sign_neg_iff.1 a, Int.sign_neg_iff.1 b⟩
      rw [hf, if_pos ⟨hsg.1 h3.2.1, hs⟩, hq0]; rfl
    · refine done g2 r2 ?_
      rw [hf, if_neg]
      rintro ⟨k1, k2⟩
      rcases Int.lt_or_eq_of_le hq with hq' | hq'
      · have := hq1 hq'; omega
      · refine h3 ⟨Int.sign_eq_zero_iff_zero.2 hq', hsg.2 k1, ?_⟩
        rcases k2 with ⟨a, b⟩ | ⟨a, b⟩
        · exact .inl ⟨Int.sign_pos_iff.2 a, Int.sign_pos_iff.2 b⟩
        · exact .inr ⟨Int.sign_neg_iff.2 a, Int.sign_neg_iff.2 b⟩

theorem impz_tdiv_q_spec {Q : Unit → Mem → Prop} (hE : Ref env E) (h : R2 m σ) (ha : σ a = some x) (hb : σ b = some y)
    (hc : σ c = some w) (ho : c.own = true) (hy : y ≠ 0)
    (hQ : ∀ m', R2 m' (upd σ c (some (x.tdiv y))) → Q () m') :
    wp env E (impz_tdiv_q c a b) Q m :=
  CHECK_spec (mp_int_div_spec hE h ha hb (by simp) (by rintro _ ⟨⟩; exact ⟨⟨_, hc⟩, ho⟩) (by simp)
    (fun h0 => absurd h0 hy) fun _ m2 h2 => ⟨rfl, hQ m2 h2⟩)

theorem impz_fdiv_r_spec {Q : Unit → Mem → Prop} (hE : Ref env E) (h : R2 m σ) (ha : σ a = some x) (hb : σ b = some y)
    (hc : σ c = some w) (ho : c.own = true) (hy : y ≠ 0)
    (hQ : ∀ m', R2 m' (upd σ c (some (x - ⌊(x : ℚ) / y⌋ * y))) → Q () m') :
    wp env E (impz_fdiv_r c a b) Q m := by
  unfold impz_fdiv_r
  refine wp_mono (withChk_spec (Q := Q) (v := 0) h (Tmps.nil σ (fun _ => .tmp 0) fun _ => 0)
    (fun t m1 P h1 hd hn ho hP => mp_int_init_spec h1 hd hn hP) fun t0 m1 g1 h1 => ?_) fun _ _ => TDone.elim
  refine withChk_spec (v := 0) h1 g1 (fun t m1 P h1 hd hn ho hP => mp_int_init_spec h1 hd hn hP) fun t1 m2 g2 h2 => ?_
  refine withChk_spec (v := y) h2 g2 (fun t m1 P h1 hd hn ho hP => mp_int_init_copy_spec hE h1 hd hn (g2.out hb) hP) fun t2 m3 g3 h3 => ?_
  refine withChk_spec (v := x) h3 g3 (fun t m1 P h1 hd hn ho hP => mp_int_init_copy_spec hE h1 hd hn (g3.out ha) hP) fun t3 m4 g4 h4 => ?_
  generalize e0 : nset (nset (nset (nset (fun _ => Id.tmp 0) 0 t0) (0 + 1) t1) (0 + 1 + 1) t2) (0 + 1 + 1 + 1) t3 = T at *
  have ht0 : t0 = T 0 := by rw [← e0]; rfl
  have ht1 : t1 = T 1 := by rw [← e0]; rfl
  have ht2 : t2 = T 2 := by rw [← e0]; rfl
  have ht3 : t3 = T 3 := by rw [← e0]; rfl
  have g : Tmps σ 4 T (L [0, 0, y, x]) _ := g4.congr (fun _ _ => rfl) fun i hi => by
    rcases show i = 0 ∨ i = 1 ∨ i = 2 ∨ i = 3 by omega with rfl | rfl | rfl | rfl <;> rfl
  rw [ht0, ht1, ht2, ht3]
  clear g4
  refine wp_bind (impz_fdiv_q_spec hE h4 (g.out ha) (g.out hb) (g.get 0) (g.ow 0) hy fun m5 h5 => ?_)
  obtain ⟨σ5, r5, g5⟩ := g.up 0 h5
  tsimp at g5
  refine wp_bind (mp_int_mul_spec hE r5 (g5.get 0) (g5.get 2) (g5.get 1) (g5.ow 1) fun m6 h6 => ?_)
  obtain ⟨σ6, r6, g6⟩ := g5.up 1 h6
  tsimp at g6
  refine wp_bind (mp_int_sub_spec hE r6 (g6.get 3) (g6.get 1) (g6.out hc) ho fun m7 h7 => wp_pure ?_)
  obtain ⟨σ7, r7, g7⟩ := g6.up_out hc h7
  exact .mk g7 r7 hQ

theorem floor_rem_range (hy : 0 < y) : 0 ≤ x - ⌊(x : ℚ) / y⌋ * y ∧ x - ⌊(x : ℚ) / y⌋ * y < y := by
  have hy' : (0 : ℚ) < y := by exact_mod_cast hy
  have h1 := Int.floor_le ((x : ℚ) / y)
  have h2 := Int.lt_floor_add_one ((x : ℚ) / y)
  rw [le_div_iff₀ hy'] at h1
  rw [div_lt_iff₀ hy'] at h2
  have h1' : ⌊(x : ℚ) / y⌋ * y ≤ x := by exact_mod_cast h1
  have h2' : x < (⌊(x : ℚ) / y⌋ + 1) * y := by exact_mod_cast h2
  constructor
  · omega
  · linarith [add_mul ⌊(x : ℚ) / y⌋ 1 y]

theorem impz_fdiv_q_ui_spec {Q : Nat → Mem → Prop} (hE : Ref env E) (h : R2 m σ) (ha : σ a = some x)
    (hc : σ c = some w) (ho : c.own = true) (hu : u < 18446744073709551616) (hu0 : u ≠ 0)
    (hQ : ∀ m', R2 m' (upd σ c (some ⌊(x : ℚ) / u⌋)) → Q (x - ⌊(x : ℚ) / u⌋ * u).toNat m') :
    wp env E (impz_fdiv_q_ui c a u) Q m := by
  have hu0' : (u : Int) ≠ 0 := by exact_mod_cast hu0
  unfold impz_fdiv_q_ui
  refine wp_mono (withChk_spec (Q := Q) (v := (u : Int)) h (Tmps.nil σ (fun _ => .tmp 0) fun _ => 0)
    (fun t m1 P h1 hd hn ho hP => mp_int_init_uvalue_tmp hE hu h1 hd hn hP) fun t0 m1 g1 h1 => ?_) fun _ _ => TDone.elim
  refine withChk_spec (v := 0) h1 g1 (fun t m1 P h1 hd hn ho hP => mp_int_init_spec h1 hd hn hP) fun t1 m2 g2 h2 => ?_
  refine withChk_spec (v := x) h2 g2 (fun t m1 P h1 hd hn ho hP => mp_int_init_copy_spec hE h1 hd hn (g2.out ha) hP) fun t2 m3 g3 h3 => ?_
  generalize e0 : nset (nset (nset (fun _ => Id.tmp 0) 0 t0) (0 + 1) t1) (0 + 1 + 1) t2 = T at *
  have ht0 : t0 = T 0 := by rw [← e0]; rfl
  have ht1 : t1 = T 1 := by rw [← e0]; rfl
  have ht2 : t2 = T 2 := by rw [← e0]; rfl
  have g : Tmps σ 3 T (L [(u : Int), 0, x]) _ := g3.congr (fun _ _ => rfl) fun i hi => by
    rcases show i = 0 ∨ i = 1 ∨ i = 2 by omega with rfl | rfl | rfl <;> rfl
  rw [ht0, ht1, ht2]
  clear g3
  refine wp_bind (impz_fdiv_q_spec hE h3 (g.out ha) (g.get 0) (g.out hc) ho hu0' fun m5 h5 => ?_)
  obtain ⟨σ5, r5, g5⟩ := g.up_out hc h5
  refine wp_bind (impz_fdiv_r_spec hE r5 (g5.get 2) (g5.get 0) (g5.get 1) (g5.ow 1) hu0' fun m6 h6 => ?_)
  obtain ⟨σ6, r6, g6⟩ := g5.up 1 h6
  tsimp at g6
  obtain ⟨b1, b2⟩ := floor_rem_range (x := x) (y := (u : Int)) (by omega)
  refine wp_bind (mp_int_to_uint_spec r6 (g6.get 1) (fun h0 => ?_) fun _ _ m7 r7 => ?_)
  · tsimp at h0; omega
  · tsimp
    refine wp_bind (CHECK_spec (wp_pure ⟨rfl, wp_pure (.mk g6 r7 fun m8 h8 => ?_)⟩))
    have e : ((u : Int) : ℚ) = (u : ℚ) := by push_cast; rfl
    simp only [e] at h8 b1 ⊢
    have := hQ m8 h8
    show Q (Int.natAbs _) m8
    rwa [show ∀ z : Int, 0 ≤ z → z.natAbs = z.toNat from fun z hz => by omega]
    exact b1

/-! ### Machine integers -/

theorem longBitsLoop_spec {Q : Nat → Mem → Prop} {n o : Nat} {p : Ptr} {xs : List Nat} (hx : At m p xs)
    (hl : n ≤ xs.length) (hd : Dig xs) (hlt : val (xs.take n) + 𝔹 ^ n * o < 18446744073709551616)
    (hQ : Q (val (xs.take n) + 𝔹 ^ n * o) m) : wp env E (longBitsLoop p n o) Q m := by
  induction n generalizing o with
  | zero => simpa [longBitsLoop] using hQ
  | succ n ih =>
    unfold longBitsLoop
    have hn : n < xs.length := by omega
    have hdn : xs[n] < 𝔹 := hd _ (List.getElem_mem hn)
    have e : val (xs.take (n + 1)) + 𝔹 ^ (n + 1) * o = val (xs.take n) + 𝔹 ^ n * (o * 𝔹 + xs[n]) := by
      rw [val_take_succ xs n hn, Nat.pow_succ, Nat.mul_add, Nat.mul_assoc, Nat.mul_comm 𝔹 o]; omega
    rw [e] at hlt hQ
    have hb : o * 𝔹 < 18446744073709551616 := by
      have : 1 * (o * 𝔹 + xs[n]) ≤ 𝔹 ^ n * (o * 𝔹 + xs[n]) := Nat.mul_le_mul_right _ (pow_pos' n)
      omega
    refine wp_bind (wp_rd (hx.get hn) ?_)
    rw [shl16_or (by omega) hdn, Nat.mul_comm 𝔹 o]
    exact ih (by omega) hlt hQ

theorem val_take_mod {xs : List Nat} (hd : Dig xs) (n : Nat) : val (xs.take n) = val xs % 𝔹 ^ n := by
  by_cases hn : n ≤ xs.length
  · have h1 : val xs = val (xs.take n) + 𝔹 ^ n * val (xs.drop n) := by
      conv_lhs => rw [← List.take_append_drop n xs, val_append]
      rw [List.length_take, Nat.min_eq_left hn]
    have h2 : val (xs.take n) < 𝔹 ^ n := by
      have := val_lt (xs := xs.take n) (fun y hy => hd y (List.mem_of_mem_take hy))
      rwa [List.length_take, Nat.min_eq_left hn] at this
    rw [h1, Nat.add_mul_mod_self_left, Nat.mod_eq_of_lt h2]
  · rw [List.take_of_length_le (by omega), Nat.mod_eq_of_lt]
    exact Nat.lt_of_lt_of_le (val_lt hd) (Nat.pow_le_pow_right (by norm_num) (by omega))

theorem get_long_bits_spec {Q : Nat → Mem → Prop} (h : R2 m σ) (hz : σ z = some v)
    (hQ : Q (v.natAbs % 18446744073709551616) m) : wp env E (get_long_bits z) Q m := by
  obtain ⟨s, r, g⟩ := h
  obtain ⟨C, hC, gC⟩ := g.get hz
  have hd := r.okd hC
  have hle := gC.norm.le
  unfold get_long_bits
  refine wp_bind (wp_USED r hC ?_)
  refine wp_bind (wp_DIGITS r hC ?_)
  have e : val (C.buf.take (if 2 > C.used then C.used else 2)) = v.natAbs % 18446744073709551616 := by
    have h1 := val_take_mod (xs := C.buf.take C.used) (fun y hy => hd y (List.mem_of_mem_take hy)) 2
    rw [List.take_take] at h1
    rw [gC.natAbs]
    unfold Cell.mag
    rw [show (18446744073709551616 : Nat) = 𝔹 ^ 2 by norm_num, ← h1]
    congr 2
    split <;> omega
  refine longBitsLoop_spec (r.at hC) (by split <;> omega) hd ?_ ?_
  · rw [e, Nat.mul_zero, Nat.add_zero]; exact Nat.mod_lt _ (by norm_num)
  · rw [e, Nat.mul_zero, Nat.add_zero]; exact hQ

theorem impz_get_ui_spec {Q : Nat → Mem → Prop} (h : R2 m σ) (hz : σ z = some v)
    (hQ : ∀ m', R2 m' σ → Q (v.natAbs % 18446744073709551616) m') : wp env E (impz_get_ui z) Q m := by
  unfold impz_get_ui
  refine wp_bind (mp_int_to_uint_spec h hz (fun _ m1 h1 => ?_) fun h2 h3 m1 h1 => ?_)
  · refine wp_if_neg (by decide) (wp_bind (CHECK_spec (wp_pure ⟨rfl, wp_if_neg (by simp) ?_⟩)))
    exact get_long_bits_spec h1 hz (hQ m1 h1)
  · refine wp_if_pos rfl (wp_pure ?_)
    have := hQ m1 h1
    rwa [Nat.mod_eq_of_lt (by omega)] at this

theorem impz_get_si_spec {Q : Int → Mem → Prop} (h : R2 m σ) (hz : σ z = some v) (hv : v ≠ SMALL_MIN)
    (hQ : ∀ m', R2 m' σ → Q (siOf v) m') : wp env E (impz_get_si z) Q m := by
  unfold impz_get_si
  refine wp_bind (mp_int_to_int_spec h hz hv (fun h0 m1 h1 => ?_) fun h2 h3 m1 h1 => ?_)
  · refine wp_if_neg (by decide) (wp_bind (CHECK_spec (wp_pure ⟨rfl, wp_if_neg (by simp) ?_⟩)))
    refine wp_bind (get_long_bits_spec h1 hz ?_)
    refine wp_bind (MP_SIGN_spec h1 hz (wp_pure ?_))
    have e : v.natAbs % 18446744073709551616 &&& (18446744073709551615 - 1 <<< 63) = v.natAbs % 9223372036854775808 := by
      have h63 := Nat.and_two_pow_sub_one_eq_mod (v.natAbs % 18446744073709551616) 63
      rw [show (18446744073709551615 - 1 <<< 63 : Nat) = 2 ^ 63 - 1 from rfl, h63]
      omega
    rw [e]
    have := hQ m1 h1
    unfold siOf at this
    rw [if_neg (by omega)] at this
    generalize hM : v.natAbs % 9223372036854775808 = M at *
    have hM2 : M < 9223372036854775808 := by rw [← hM]; exact Nat.mod_lt _ (by norm_num)
    by_cases hs : v < 0
    · rw [Int.sign_eq_neg_one_of_neg hs] at this
      simp only [hs, decide_true, if_true]
      have e2 : toInt64 (sub64 0 M) = -1 * (M : Int) := by
        unfold toInt64 sub64 u64
        split <;> omega
      rwa [e2]
    · rw [Int.sign_eq_one_of_pos (by omega)] at this
      simp only [hs, decide_false, Bool.false_eq_true, if_false]
      have e2 : toInt64 M = 1 * (M : Int) := by
        unfold toInt64 u64
        split <;> omega
      rwa [e2]
  · refine wp_if_pos rfl (wp_pure ?_)
    have := hQ m1 h1
    unfold siOf at this
    rwa [if_pos (by omega)] at this

/-! ### Combinations -/

section
variable {Q : Unit → Mem → Prop}

theorem impz_addmul_spec (hE : Ref env E) (h : R2 m σ) (ha : σ a = some x) (hb : σ b = some y)
    (hc : σ c = some w) (ho : c.own = true) (hQ : ∀ m', R2 m' (upd σ c (some (w + x * y))) → Q () m') :
    wp env E (impz_addmul c a b) Q m := by
  unfold impz_addmul
  refine unchkInit h fun T σ1 m1 g h1 => ?_
  refine wp_bind (CHECK_spec (mp_int_mul_spec hE h1 (g.out ha) (g.out hb) (g.get 0) (g.ow 0) fun m2 h2 => ⟨rfl, ?_⟩))
  obtain ⟨σ2, r2, g2⟩ := g.up 0 h2
  tsimp at g2
  refine CHECK_spec (mp_int_add_spec hE r2 (g2.out hc) (g2.get 0) (g2.out hc) ho fun m3 h3 => ⟨rfl, ?_⟩)
  obtain ⟨σ3, r3, g3⟩ := g2.up_out hc h3
  exact .mk g3 r3 hQ

theorem impz_submul_spec (hE : Ref env E) (h : R2 m σ) (ha : σ a = some x) (hb : σ b = some y)
    (hc : σ c = some w) (ho : c.own = true) (hQ : ∀ m', R2 m' (upd σ c (some (w - x * y))) → Q () m') :
    wp env E (impz_submul c a b) Q m := by
  unfold impz_submul
  refine unchkInit h fun T σ1 m1 g h1 => ?_
  refine wp_bind (CHECK_spec (mp_int_mul_spec hE h1 (g.out ha) (g.out hb) (g.get 0) (g.ow 0) fun m2 h2 => ⟨rfl, ?_⟩))
  obtain ⟨σ2, r2, g2⟩ := g.up 0 h2
  tsimp at g2
  refine CHECK_spec (mp_int_sub_spec hE r2 (g2.out hc) (g2.get 0) (g2.out hc) ho fun m3 h3 => ⟨rfl, ?_⟩)
  obtain ⟨σ3, r3, g3⟩ := g2.up_out hc h3
  exact .mk g3 r3 hQ

theorem impz_divisible_p_spec {Q : Int → Mem → Prop} (hE : Ref env E) (h : R2 m σ) (ha : σ a = some x) (hb : σ b = some y)
    (hQ : ∀ m', R2 m' σ → Q (if y ∣ x then 1 else 0) m') : wp env E (impz_divisible_p a b) Q m := by
  unfold impz_divisible_p
  refine wp_bind (mp_int_compare_zero_spec h ha ?_)
  refine wp_bind (mp_int_compare_zero_spec h hb ?_)
  refine wp_ite (fun h0 => wp_pure ?_) fun h0 => ?_
  · have := hQ m h
    rw [Int.sign_eq_zero_iff_zero.1 h0] at this
    simpa [Int.sign_eq_zero_iff_zero, zero_dvd_iff] using this
  · have hy : y ≠ 0 := fun e => h0 (Int.sign_eq_zero_iff_zero.2 e)
    refine chkInit h fun T σ1 m1 g h1 => ?_
    refine wp_bind (CHECK_spec (mp_int_div_spec hE h1 (g.out ha) (g.out hb) (by simp) (by simp)
      (by rintro _ ⟨⟩; exact ⟨⟨_, g.get 0⟩, g.ow 0⟩) (fun h0 => absurd h0 hy) fun _ m2 h2 => ⟨rfl, ?_⟩))
    simp only [updO] at h2
    obtain ⟨σ2, r2, g2⟩ := g.up 0 h2
    tsimp at g2
    refine wp_bind (mp_int_compare_zero_spec r2 (g2.get 0) (wp_pure (.mk g2 r2 fun m3 h3 => ?_)))
    have := hQ m3 h3
    simpa [Int.sign_eq_zero_iff_zero, Int.dvd_iff_tmod_eq_zero, L_0] using this

theorem impz_add_ui_spec (hE : Ref env E) (h : R2 m σ) (ha : σ a = some x) (hu : u < 18446744073709551616)
    (hc : σ c = some w) (ho : c.own = true) (hQ : ∀ m', R2 m' (upd σ c (some (x + u))) → Q () m') :
    wp env E (impz_add_ui c a u) Q m :=
  chkUvalue hE hu h fun T σ1 m1 g h1 =>
    CHECK_spec (mp_int_add_spec hE h1 (g.out ha) (g.get 0) (g.out hc) ho fun m2 h2 => ⟨rfl, by
      obtain ⟨σ2, r2, g2⟩ := g.up_out hc h2
      exact .mk g2 r2 hQ⟩)

theorem impz_sub_ui_spec (hE : Ref env E) (h : R2 m σ) (ha : σ a = some x) (hu : u < 18446744073709551616)
    (hc : σ c = some w) (ho : c.own = true) (hQ : ∀ m', R2 m' (upd σ c (some (x - u))) → Q () m') :
    wp env E (impz_sub_ui c a u) Q m :=
  chkUvalue hE hu h fun T σ1 m1 g h1 =>
    CHECK_spec (mp_int_sub_spec hE h1 (g.out ha) (g.get 0) (g.out hc) ho fun m2 h2 => ⟨rfl, by
      obtain ⟨σ2, r2, g2⟩ := g.up_out hc h2
      exact .mk g2 r2 hQ⟩)

theorem impz_mul_ui_spec (hE : Ref env E) (h : R2 m σ) (ha : σ a = some x) (hu : u < 18446744073709551616)
    (hc : σ c = some w) (ho : c.own = true) (hQ : ∀ m', R2 m' (upd σ c (some (x * u))) → Q () m') :
    wp env E (impz_mul_ui c a u) Q m :=
  chkUvalue hE hu h fun T σ1 m1 g h1 =>
    CHECK_spec (mp_int_mul_spec hE h1 (g.out ha) (g.get 0) (g.out hc) ho fun m2 h2 => ⟨rfl, by
      obtain ⟨σ2, r2, g2⟩ := g.up_out hc h2
      exact .mk g2 r2 hQ⟩)

theorem impz_divexact_ui_spec (hE : Ref env E) (h : R2 m σ) (ha : σ a = some x) (hu : u < 18446744073709551616)
    (hu0 : u ≠ 0) (hc : σ c = some w) (ho : c.own = true)
    (hQ : ∀ m', R2 m' (upd σ c (some (x.tdiv u))) → Q () m') :
    wp env E (impz_divexact_ui c a u) Q m :=
  chkUvalue hE hu h fun T σ1 m1 g h1 =>
    CHECK_spec (mp_int_div_spec hE h1 (g.out ha) (g.get 0) (by simp) (by rintro _ ⟨⟩; exact ⟨⟨_, g.out hc⟩, ho⟩) (by simp)
      (fun h0 => absurd h0 (by tsimp; exact_mod_cast hu0)) fun _ m2 h2 => ⟨rfl, by
        obtain ⟨σ2, r2, g2⟩ := g.up_out hc h2
        exact .mk g2 r2 hQ⟩)

theorem impz_pow_ui_spec (hE : Ref env E) (h : R2 m σ) (ha : σ a = some x) (hu : u < 18446744073709551616)
    (hc : σ c = some w) (ho : c.own = true) (hQ : ∀ m', R2 m' (upd σ c (some (x ^ u))) → Q () m') :
    wp env E (impz_pow_ui c a u) Q m := by
  unfold impz_pow_ui
  have main : wp env E (withChk (fun t => mp_int_init_uvalue t u) fun temp => CHECK (mp_int_expt_full a temp c)) Q m :=
    chkUvalue hE hu h fun T σ1 m1 g h1 =>
      CHECK_spec (mp_int_expt_full_spec hE h1 (g.out ha) (g.get 0) (g.out hc) ho (g.ne hc 0 (by decide)).symm
        (fun h0 => by tsimp at h0; omega) fun _ m2 h2 => ⟨rfl, by
        tsimp at h2
        obtain ⟨σ2, r2, g2⟩ := g.up_out hc h2
        exact .mk g2 r2 hQ⟩)
  refine wp_bind (wp_cif (fun h0 => ?_) fun h0 => wp_pure (wp_if_neg (by decide) main))
  refine mp_int_compare_zero_spec h ha (wp_ite (fun h1 => ?_) fun _ => main)
  refine CHECK_spec (mp_int_set_value_spec hE (by decide) (by decide) h hc ho fun m2 h2 => ⟨rfl, hQ m2 ?_⟩)
  rw [h0, pow_zero]; exact h2

theorem impz_gcd_spec (hE : Ref env E) (h : R2 m σ) (ha : σ a = some x) (hb : σ b = some y)
    (hc : σ c = some w) (ho : c.own = true) (hQ : ∀ m', R2 m' (upd σ c (some (Int.gcd x y : Int))) → Q () m') :
    wp env E (impz_gcd c a b) Q m := by
  unfold impz_gcd
  refine wp_bind (mp_int_compare_zero_spec h ha ?_)
  refine wp_bind (mp_int_compare_zero_spec h hb ?_)
  simp only [Int.sign_eq_zero_iff_zero]
  refine wp_ite (fun h0 => mp_int_zero_spec h hc fun m1 h1 => hQ m1 ?_) fun h0 => ?_
  · rw [h0.1, h0.2]; exact h1
  · exact CHECK_spec (mp_int_gcd_spec hE h ha hb hc ho (fun e1 e2 => absurd ⟨e1, e2⟩ h0) fun _ m1 h1 => ⟨rfl, hQ m1 h1⟩)

theorem impz_lcm_spec (hE : Ref env E) (h : R2 m σ) (ha : σ a = some x) (hb : σ b = some y)
    (hc : σ c = some w) (ho : c.own = true) (hQ : ∀ m', R2 m' (upd σ c (some (Int.lcm x y : Int))) → Q () m') :
    wp env E (impz_lcm c a b) Q m := by
  unfold impz_lcm
  refine wp_bind (mp_int_compare_zero_spec h ha ?_)
  refine wp_bind (mp_int_compare_zero_spec h hb ?_)
  simp only [Int.sign_eq_zero_iff_zero]
  refine wp_ite (fun h0 => mp_int_zero_spec h hc fun m1 h1 => hQ m1 ?_) fun h0 => ?_
  · rw [show Int.lcm x y = 0 by rcases h0 with rfl | rfl <;> simp]; exact h1
  · refine wp_bind (CHECK_spec (mp_int_lcm_spec hE h ha hb hc ho (fun e1 e2 => absurd (.inl e1) h0) fun _ m1 h1 => ⟨rfl, ?_⟩))
    have hc1 := upd_self σ c (some (x.tdiv (Int.gcd x y) * y))
    refine CHECK_spec (mp_int_abs_spec hE h1 hc1 hc1 ho fun m2 h2 => ⟨rfl, hQ m2 ?_⟩)
    rw [upd_upd] at h2
    have e : |x.tdiv (Int.gcd x y) * y| = (Int.lcm x y : Int) := by
      rw [Int.abs_eq_natAbs, Int.natAbs_mul, Int.natAbs_tdiv, Int.natAbs_natCast]
      congr 1
      unfold Int.lcm Int.gcd Nat.lcm
      exact Nat.div_mul_right_comm (Nat.gcd_dvd_left _ _) _
    rwa [e] at h2

theorem impz_mul_2exp_spec (hE : Ref env E) (h : R2 m σ) (ha : σ a = some x) (hu : x = 0 ∨ u < 4294967296)
    (hc : σ c = some w) (ho : c.own = true) (hQ : ∀ m', R2 m' (upd σ c (some (x * 2 ^ u))) → Q () m') :
    wp env E (impz_mul_2exp c a u) Q m := by
  unfold impz_mul_2exp
  refine wp_bind (mp_int_compare_zero_spec h ha ?_)
  simp only [Int.sign_eq_zero_iff_zero]
  refine wp_ite (fun h0 => mp_int_zero_spec h hc fun m1 h1 => hQ m1 ?_) fun h0 => ?_
  · rw [h0, zero_mul]; exact h1
  · have hu' := hu.resolve_left h0
    have e : toInt64 u = (u : Int) := by unfold toInt64 u64; split <;> omega
    rw [e]
    exact CHECK_spec (mp_int_mul_pow2_spec hE h ha hc ho hu' fun m1 h1 => ⟨rfl, hQ m1 h1⟩)

end

end Imath
