import Verif.Proof.Pad

/-! # Level 2: memory as a map from objects to integers -/

namespace Imath

variable {env : Env} {E : Fault → Prop} {m : Mem} {s : Id → Option Cell} {σ : Id → Option Int}
  {z a b c : Id} {C : Cell} {x y w v : Int}

def GoodO : Option Cell → Option Int → Prop
  | none, none => True
  | some C, some v => Good C v
  | _, _ => False

/-- Every cell represents the integer given by `σ`. -/
def GS (s : Id → Option Cell) (σ : Id → Option Int) : Prop := ∀ z, GoodO (s z) (σ z)

/-- The initialised integers in `m` and their values are `σ`. -/
def R2 (m : Mem) (σ : Id → Option Int) : Prop := ∃ s, Rep m s ∧ GS s σ

theorem GS.get (h : GS s σ) (hz : σ z = some v) : ∃ C, s z = some C ∧ Good C v := by
  have := h z
  rw [hz] at this
  cases hs : s z with
  | none => rw [hs] at this; exact this.elim
  | some C => rw [hs] at this; exact ⟨C, rfl, this⟩

theorem GS.none_iff (h : GS s σ) : s z = none ↔ σ z = none := by
  have := h z
  cases hs : s z <;> cases hv : σ z <;> simp_all [GoodO]

theorem GS.upd (h : GS s σ) (hg : Good C v) : GS (upd s z (some C)) (upd σ z (some v)) := by
  intro y
  simp only [Imath.upd]
  split
  · exact hg
  · exact h y

theorem GS.upd_none (h : GS s σ) : GS (Imath.upd s z none) (Imath.upd σ z none) := by
  intro y
  simp only [Imath.upd]
  split
  · trivial
  · exact h y

theorem GS.upd_same (h : GS s σ) (hv : σ z = some v) (hg : Good C v) : GS (Imath.upd s z (some C)) σ := by
  have := h.upd (z := z) hg
  rwa [Imath.upd_same σ hv] at this

theorem GS.grow {C' : Cell} (h : GS s σ) (hz : s z = some C) (hg : Grow C C') :
    GS (Imath.upd s z (some C')) σ := by
  intro y
  simp only [Imath.upd]
  split
  · rename_i hy
    subst hy
    have := h y
    rw [hz] at this
    cases hv : σ y with
    | none => rw [hv] at this; exact this.elim
    | some v => rw [hv] at this; exact Good.grow this hg
  · exact h y

theorem R2.intro (h : Rep m s) (hg : GS s σ) : R2 m σ := ⟨s, h, hg⟩

/-- Equality of states that differ in the order of updates. -/
macro "upd_tac" : tactic => `(tactic| (
  funext y; simp only [upd]; (repeat' split) <;> first | rfl | (exfalso; subst_vars; contradiction) | simp_all))

theorem ne_of_none {α : Type} {σ : Id → Option α} {t c : Id} {w : α} (ht : σ t = none) (hc : σ c = some w) : t ≠ c := by
  intro h; rw [h, hc] at ht; simp at ht

/-- After a temporary is released, nothing of it remains. -/
theorem upd_tmp {α : Type} (σ : Id → Option α) {t c : Id} {v w : Option α} (ht : σ t = none) (hc : t ≠ c) :
    upd (upd (upd σ t v) c w) t none = upd σ c w := by
  funext y; simp only [upd]
  by_cases h1 : y = t
  · subst h1; simp [hc, ht]
  · simp [h1]

theorem upd_tmp0 {α : Type} (σ : Id → Option α) {t : Id} {v : Option α} (ht : σ t = none) :
    upd (upd σ t v) t none = σ := by
  rw [upd_upd, upd_same _ ht]

theorem withTemp_spec {α : Type} {k : Id → M α} {Q : α → Mem → Prop} (h : R2 m σ)
    (hk : ∀ t m', σ t = none → t.own = true → R2 m' (upd σ t (some 0)) →
      wp env E (k t) (fun r m'' => ∃ σ'' v, R2 m'' σ'' ∧ σ'' t = some v ∧
        (∀ m3, R2 m3 (upd σ'' t none) → Q r m3)) m') :
    wp env E (withTemp k) Q m := by
  obtain ⟨s, hr, hg⟩ := h
  refine withTemp_rep hr fun t m' h1 h2 h3 => ?_
  refine wp_mono (hk t m' (hg.none_iff.1 h1) h2 ⟨_, h3, hg.upd (zeroCell_good t)⟩) ?_
  rintro r m'' ⟨σ'', v, ⟨s'', hr'', hg''⟩, h4, h5⟩
  obtain ⟨D, hD, _⟩ := hg''.get h4
  exact ⟨s'', D, hr'', hD, fun m3 h6 => h5 m3 ⟨_, h6, hg''.upd_none⟩⟩

/-! ### Fake integers -/

theorem sval_eq_zero {n : Bool} {k : Nat} : sval n k = 0 ↔ k = 0 := by
  unfold sval; split <;> omega

theorem sval_natAbs (n : Bool) (k : Nat) : (sval n k).natAbs = k := by
  unfold sval; split <;> omega

theorem Good.natAbs {v : Int} (h : Good C v) : v.natAbs = C.mag := by rw [h.val, sval_natAbs]

theorem Good.neg_iff {v : Int} (h : Good C v) : C.neg = true ↔ v < 0 := by
  have h1 := h.sign
  have h2 := h.val
  constructor
  · intro hn
    have := h1 hn
    rw [hn] at h2
    simp only [sval, if_true] at h2; omega
  · intro hv
    by_contra hn
    simp only [sval, hn] at h2
    have : (0 : Int) ≤ (C.mag : Int) := Int.natCast_nonneg _
    simp at h2
    omega

theorem Good.neg_eq {v : Int} (h : Good C v) : C.neg = decide (v < 0) := by
  have := h.neg_iff
  cases hn : C.neg <;> simp_all

theorem uvpackLoop_spec {t : Ptr} {f nd uv : Nat} {d0 d1 : Nat} {Q : Nat → Mem → Prop}
    (hf : uv ≤ f) (hnd : nd = 1) (huv : uv < 𝔹) (ho : At m t [d0, d1])
    (hQ1 : uv = 0 → Q 1 m)
    (hQ2 : uv ≠ 0 → Q 2 (m.splice (t.add 1) [uv])) :
    wp env E (uvpackLoop t f nd uv) Q m := by
  subst hnd
  match f with
  | 0 =>
    have : uv = 0 := by omega
    subst this
    exact hQ1 rfl
  | f + 1 =>
    unfold uvpackLoop
    refine wp_ite (fun h => ?_) (fun h => hQ1 (by omega))
    refine wp_bind (wp_wr (y := d1) (by have := ho 1 d1 rfl; simpa using this) ?_)
    have : (uv >>> 16) >>> 16 = 0 := by
      rw [Nat.shiftRight_eq_div_pow, Nat.shiftRight_eq_div_pow]
      omega
    rw [this, u32_of_lt huv]
    match f with
    | 0 => exact hQ2 h
    | f + 1 => exact hQ2 h

theorem s_uvpack_spec {t : Ptr} {uv : Nat} {d0 d1 : Nat} {Q : Nat → Mem → Prop}
    (huv : uv < 18446744073709551616) (ho : At m t [d0, d1]) (hd1 : d1 < 𝔹)
    (hQ : ∀ n xs, xs.length = 2 → Dig xs → 1 ≤ n → n ≤ 2 → val (xs.take n) = uv →
      (1 < n → xs[n - 1]? ≠ some 0) → Q n (m.splice t xs)) :
    wp env E (s_uvpack uv t) Q m := by
  unfold s_uvpack
  have h0 : m.get t.base t.off = some d0 := by have := ho 0 d0 rfl; simpa using this
  have hext : ∀ x, m.splice t [x, d1] = m.splice t [x] := by
    intro x
    rw [← Mem.splice_cons, Mem.splice_comm _ (by simp [Disj])]
    congr 1
    have := At.splice_same ((At_cons.1 ho).2)
    exact this
  refine wp_ite (fun h => ?_) (fun h => ?_)
  · refine wp_bind (wp_wr (y := d0) h0 ?_)
    refine wp_pure ?_
    rw [← hext 0]
    exact hQ 1 [0, d1] rfl (by simp [hd1]) (by omega) (by omega) (by simp [h]) (by simp)
  · match uv, h with
    | uv + 1, h =>
    unfold uvpackLoop
    refine wp_if_pos h ?_
    refine wp_bind (wp_wr (y := d0) (by simpa using h0) ?_)
    have hsh : ((uv + 1) >>> 16) >>> 16 = (uv + 1) / 𝔹 := by
      rw [Nat.shiftRight_eq_div_pow, Nat.shiftRight_eq_div_pow, Nat.div_div_eq_div_mul]
    rw [hsh]
    have ho' : At (m.splice t [u32 (uv + 1)]) t [u32 (uv + 1), d1] := by
      rw [← hext]; exact ho.splice_self rfl
    have hm := Nat.div_add_mod (uv + 1) 4294967296
    refine uvpackLoop_spec ?_ rfl (Nat.div_lt_of_lt_mul (by omega)) ho' ?_ ?_
    · omega
    · intro hz
      simp only [Ptr.add_zero]
      rw [← hext]
      exact hQ 1 [u32 (uv + 1), d1] rfl (by simp [hd1, u32_lt]) (by omega) (by omega)
        (by simp [u32]; omega) (by simp)
    · intro hz
      simp only [Ptr.add_zero]
      rw [Mem.splice_cons]
      refine hQ 2 [u32 (uv + 1), (uv + 1) / 𝔹] rfl ?_ (by omega) (by omega) ?_ ?_
      · simp only [Dig_cons, Dig_nil, and_true]
        exact ⟨u32_lt _, Nat.div_lt_of_lt_mul (by omega)⟩
      · simp [u32]; omega
      · simp; omega

theorem wp_declArr {n : Nat} {Q : Ptr → Mem → Prop}
    (h : ∀ l, l.length = n → Dig l →
      Q ⟨.stack m.next, 0⟩ ((m.setDig (.stack m.next) (some l)).bump (m.next + 1))) :
    wp env E (declArr n) Q m := by
  unfold wp declArr
  refine h _ (by simp [junkBlock]) ?_
  intro x hx
  simp only [junkBlock, List.mem_map] at hx
  obtain ⟨i, _, rfl⟩ := hx
  exact Nat.mod_lt _ (by decide)

/-- Common part of `withFake` and `withUFake`, on cells. -/
theorem fake_frame_rep {α : Type} {k : Id → M α} {Q : α → Mem → Prop} {v : Int} {pack : Id → Ptr → M Unit}
    (hr : Rep m s)
    (hpack : ∀ (z : Id) (p : Ptr) (m1 : Mem) (Z : Mpz) (d0 d1 : Nat) (Q' : Unit → Mem → Prop),
      m1.int z = some Z → At m1 p [d0, d1] → d1 < 𝔹 →
      (∀ n sg xs, xs.length = 2 → Dig xs → Good ⟨p.base, xs, n, sg⟩ v →
        Q' () ((m1.splice p xs).setInt z (some ⟨some p, 2, n, sg⟩))) →
      wp env E (pack z p) Q' m1)
    (hk : ∀ t m' C, s t = none → t.own = false → Rep m' (Imath.upd s t (some C)) → Good C v →
      wp env E (k t) (fun r m'' => ∃ s'' D, Rep m'' s'' ∧ s'' t = some D ∧
        (∀ m3, Rep m3 (Imath.upd s'' t none) → Q r m3)) m') :
    wp env E (do
      let z ← declInt .fake
      let vbuf ← declArr 2
      pack z vbuf
      let r ← k z
      dropArr vbuf
      dropInt z
      pure r) Q m := by
  refine wp_bind (wp_declInt fun Z d hd => ?_)
  refine wp_bind (wp_declArr fun l hl hdl => ?_)
  obtain ⟨d0, d1, rfl⟩ : ∃ d0 d1, l = [d0, d1] := by
    match l, hl with
    | [d0, d1], _ => exact ⟨d0, d1, rfl⟩
  have hst := (hr.freshI m.next (Nat.le_refl _)).2
  have hn1 : ∀ m' : Mem, (m'.bump (m.next + 1)).next = m.next + 1 := fun _ => rfl
  simp only [hn1]
  have hfs := hr.freshS (m.next + 1) (by omega)
  refine wp_bind (hpack _ _ _ Z d0 d1 _ ?_ ?_ ?_ ?_)
  · simp [Mem.setInt, Mem.setDig, Mem.bump]
  · exact At_alloc _ _ _ _
  · simp at hdl; exact hdl.2
  · intro n sg xs hlx hdx hgood
    refine wp_bind (wp_mono (hk _ _ _ hst rfl
      (hr.insert (C := ⟨.stack (m.next + 1), xs, n, sg⟩) hst ?_ ?_ ?_ ?_ ?_ ?_ ?_ ?_ ?_ ?_ rfl rfl)
        hgood) ?_)
    · intro y
      simp only [Mem.setInt, Mem.splice, Mem.setDig, Mem.bump, Cell.mpz, hlx]
      split <;> simp_all
    · simp [Mem.setInt, Mem.splice, Mem.setDig, Mem.bump, spliceL_self, hlx]
    · exact ⟨d, by simp [Mem.setInt, Mem.splice, Mem.setDig, Mem.bump]⟩
    · simp [okBase]
    · intro b h1 h2
      simp [Mem.setInt, Mem.splice, Mem.setDig, Mem.bump, h1, h2]
    · exact .inr hfs
    · simp [Mem.setInt, Mem.splice, Mem.bump]; omega
    · intro j hj
      have : m.next + 1 + 1 ≤ j := hj
      refine ⟨by simp, ?_, ?_, by simp⟩ <;> simp <;> omega
    · exact hdx
    · simp [hlx]
    · rintro r m'' ⟨s'', D, hr'', hD, h5⟩
      have hDb : D.base = .stack (m.next + 1) := hr''.kind hD
      refine wp_bind (x := dropArr _) ?_
      show wp env E (do dropInt _; pure r) Q _
      refine wp_bind (wp_dropInt ?_)
      refine wp_pure (h5 _ (hr''.remove hD ?_ ?_ ?_ ?_ ?_ ?_ rfl rfl))
      · intro y hy; simp [Mem.setInt, Mem.setDig, hy]
      · intro b h1 h2
        rw [hDb] at h1
        simp [Mem.setInt, Mem.setDig, h1, h2]
      · intro k' hb; rw [hDb] at hb; simp at hb
      · intro k' hb; rw [hDb] at hb; simp only [Base.stack.injEq] at hb
        simp [Mem.setInt, Mem.setDig, ← hb]
      · intro n' hn'; simp at hn'
      · exact Nat.le_refl _

/-- Common part of `withFake` and `withUFake`. -/
theorem fake_frame {α : Type} {k : Id → M α} {Q : α → Mem → Prop} {v : Int} {pack : Id → Ptr → M Unit}
    (h : R2 m σ)
    (hpack : ∀ (z : Id) (p : Ptr) (m1 : Mem) (Z : Mpz) (d0 d1 : Nat) (Q' : Unit → Mem → Prop),
      m1.int z = some Z → At m1 p [d0, d1] → d1 < 𝔹 →
      (∀ n sg xs, xs.length = 2 → Dig xs → Good ⟨p.base, xs, n, sg⟩ v →
        Q' () ((m1.splice p xs).setInt z (some ⟨some p, 2, n, sg⟩))) →
      wp env E (pack z p) Q' m1)
    (hk : ∀ t m', σ t = none → t.own = false → R2 m' (upd σ t (some v)) →
      wp env E (k t) (fun r m'' => ∃ σ'' v, R2 m'' σ'' ∧ σ'' t = some v ∧
        (∀ m3, R2 m3 (upd σ'' t none) → Q r m3)) m') :
    wp env E (do
      let z ← declInt .fake
      let vbuf ← declArr 2
      pack z vbuf
      let r ← k z
      dropArr vbuf
      dropInt z
      pure r) Q m := by
  obtain ⟨s, hr, hg⟩ := h
  refine fake_frame_rep hr hpack fun t m' C ht ho h' gC => ?_
  refine wp_mono (hk t m' (hg.none_iff.1 ht) ho ⟨_, h', hg.upd gC⟩) ?_
  rintro r m'' ⟨σ'', v', ⟨s'', hr'', hg''⟩, h4, h5⟩
  obtain ⟨D, hD, _⟩ := hg''.get h4
  exact ⟨s'', D, hr'', hD, fun m3 h3 => h5 m3 ⟨_, h3, hg''.upd_none⟩⟩

theorem s_ufake_spec {p : Ptr} {Z : Mpz} {uv d0 d1 : Nat} {Q : Unit → Mem → Prop}
    (huv : uv < 18446744073709551616) (hz : m.int z = some Z) (ho : At m p [d0, d1]) (hd1 : d1 < 𝔹)
    (hQ : ∀ n xs, xs.length = 2 → Dig xs → 1 ≤ n → n ≤ 2 → val (xs.take n) = uv →
      (1 < n → xs[n - 1]? ≠ some 0) →
      Q () ((m.splice p xs).setInt z (some ⟨some p, 2, n, false⟩))) :
    wp env E (s_ufake z uv p) Q m := by
  unfold s_ufake
  refine wp_bind (s_uvpack_spec huv ho hd1 fun n xs h1 h2 h3 h4 h5 h6 => ?_)
  refine wp_bind (wp_setI (Z := Z) hz ?_)
  refine wp_bind (wp_setI (setInt_int_self _ _ _) ?_)
  refine wp_bind (wp_setI (setInt_int_self _ _ _) ?_)
  refine wp_setI (setInt_int_self _ _ _) ?_
  simp only [setInt_setInt]
  exact hQ n xs h1 h2 h3 h4 h5 h6

theorem withUFake_spec {α : Type} {k : Id → M α} {Q : α → Mem → Prop} {uv : Nat}
    (huv : uv < 18446744073709551616) (h : R2 m σ)
    (hk : ∀ t m', σ t = none → t.own = false → R2 m' (upd σ t (some (uv : Int))) →
      wp env E (k t) (fun r m'' => ∃ σ'' v, R2 m'' σ'' ∧ σ'' t = some v ∧
        (∀ m3, R2 m3 (upd σ'' t none) → Q r m3)) m') :
    wp env E (withUFake uv k) Q m := by
  refine fake_frame (pack := fun z p => s_ufake z uv p) h ?_ hk
  intro z p m1 Z d0 d1 Q' h1 h2 h3 h4
  refine s_ufake_spec huv h1 h2 h3 fun n xs g1 g2 g3 g4 g5 g6 => ?_
  refine h4 n false xs g1 g2 ⟨⟨g3, by simp; omega, g6⟩, by simp, ?_⟩
  simp [Cell.mag, sval, g5]

theorem s_fake_spec {v : Int} (hv1 : SMALL_MIN < v) (hv2 : v ≤ SMALL_MAX)
    (z : Id) (p : Ptr) (m1 : Mem) (Z : Mpz) (d0 d1 : Nat) (Q' : Unit → Mem → Prop)
    (h1 : m1.int z = some Z) (h2 : At m1 p [d0, d1]) (h3 : d1 < 𝔹)
    (h4 : ∀ n sg xs, xs.length = 2 → Dig xs → Good ⟨p.base, xs, n, sg⟩ v →
        Q' () ((m1.splice p xs).setInt z (some ⟨some p, 2, n, sg⟩))) :
    wp env E (s_fake z v p) Q' m1 := by
  unfold s_fake
  refine wp_if_neg (by omega) ?_
  have habs : (if v < 0 then -v else v).toNat = v.natAbs := by split <;> omega
  simp only [habs]
  refine wp_bind (s_ufake_spec (by omega) h1 h2 h3 fun n xs g1 g2 g3 g4 g5 g6 => ?_)
  refine wp_ite (fun hneg => ?_) (fun hneg => ?_)
  · refine wp_setI (setInt_int_self _ _ _) ?_
    simp only [setInt_setInt]
    refine h4 n true xs g1 g2 ⟨⟨g3, by simp; omega, g6⟩, ?_, ?_⟩
    · simp [Cell.mag, g5]; omega
    · show v = sval true (Imath.val (xs.take n))
      rw [g5]; unfold sval; rw [if_pos rfl]; omega
  · refine wp_pure ?_
    refine h4 n false xs g1 g2 ⟨⟨g3, by simp; omega, g6⟩, by simp, ?_⟩
    show v = sval false (Imath.val (xs.take n))
    rw [g5]; unfold sval; simp only [Bool.false_eq_true, if_false]; omega

theorem withFake_spec {α : Type} {k : Id → M α} {Q : α → Mem → Prop} {v : Int}
    (hv1 : SMALL_MIN < v) (hv2 : v ≤ SMALL_MAX) (h : R2 m σ)
    (hk : ∀ t m', σ t = none → t.own = false → R2 m' (upd σ t (some v)) →
      wp env E (k t) (fun r m'' => ∃ σ'' v, R2 m'' σ'' ∧ σ'' t = some v ∧
        (∀ m3, R2 m3 (upd σ'' t none) → Q r m3)) m') :
    wp env E (withFake v k) Q m :=
  fake_frame (pack := fun z p => s_fake z v p) h (s_fake_spec hv1 hv2) hk

theorem withFake_rep {α : Type} {k : Id → M α} {Q : α → Mem → Prop} {v : Int}
    (hv1 : SMALL_MIN < v) (hv2 : v ≤ SMALL_MAX) (hr : Rep m s)
    (hk : ∀ t m' C, s t = none → t.own = false → Rep m' (Imath.upd s t (some C)) → Good C v →
      wp env E (k t) (fun r m'' => ∃ s'' D, Rep m'' s'' ∧ s'' t = some D ∧
        (∀ m3, Rep m3 (Imath.upd s'' t none) → Q r m3)) m') :
    wp env E (withFake v k) Q m :=
  fake_frame_rep (pack := fun z p => s_fake z v p) hr (s_fake_spec hv1 hv2) hk

end Imath
