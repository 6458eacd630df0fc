import Verif.Model.Alloc
import Verif.Model.Calc
import Verif.Proof.Temps
import Verif.Proof.Conv

/-! # Allocation of variables, and sets of variables that a program owns -/

namespace Imath

variable {env : Env} {E : Fault → Prop} {m : Mem} {s : Id → Option Cell} {σ σ0 σ' : Id → Option Int}
  {z a b c : Id} {x y w v : Int}

theorem R2.bump (h : R2 m σ) : R2 { m with next := m.next + 1 } σ := by
  obtain ⟨s, hr, hg⟩ := h
  exact ⟨s, hr.bump (Nat.le_succ _), hg⟩

theorem request_spec {Q : Unit → Mem → Prop} {n : Nat} (hE : Ref env E) (h : R2 m σ)
    (hQ : ∀ m', R2 m' σ → Q () m') : wp env E (request n) Q m := by
  unfold request wp
  by_cases hg : env.grant m.next n = true
  · simp only [hg, if_true]; exact hQ _ h.bump
  · simp only [hg]
    exact hE _ _ (by simpa using hg)

theorem mallocB_spec {Q : Bytes → Mem → Prop} {n : Nat} (hE : Ref env E) (h : R2 m σ)
    (hQ : ∀ buf m', buf.length = n → R2 m' σ → Q buf m') : wp env E (mallocB n) Q m := by
  unfold mallocB wp
  by_cases hg : env.grant m.next ((n + 3) / 4) = true
  · simp only [hg, if_true]; exact hQ _ _ (by simp) h.bump
  · simp only [hg]
    exact hE _ _ (by simpa using hg)

theorem mp_int_alloc_spec {Q : Id → Mem → Prop} (hE : Ref env E) (h : R2 m σ)
    (hQ : ∀ t m', σ t = none → t.own = true → (∀ n, t ≠ .var n) → R2 m' (upd σ t (some 0)) → Q t m') :
    wp env E mp_int_alloc Q m := by
  unfold mp_int_alloc
  refine wp_bind (request_spec hE h fun m1 h1 => ?_)
  obtain ⟨s, hr, hg⟩ := h1
  refine wp_bind (declInt_tmp_rep hr fun t m2 h2 h3 h4 h5 h6 => ?_)
  have ht : σ t = none := (hg.none_iff).1 h2
  refine wp_bind (mp_int_init_spec ⟨s, h5, hg⟩ h4 ht fun m3 h7 => ?_)
  exact wp_pure (hQ t m3 ht h3 h6 h7)

theorem mp_int_clear_tmp {Q : Unit → Mem → Prop} (h : R2 m σ) (hz : σ z = some x) (ho : z.own = true)
    (hv : ∀ n, z ≠ .var n) (hQ : ∀ m', R2 m' (upd σ z none) → Q () m') : wp env E (mp_int_clear z) Q m := by
  obtain ⟨s, hr, hg⟩ := h
  obtain ⟨C, hC, gC⟩ := hg.get hz
  refine mp_int_clear_raw hr hC ho fun m' g1 g2 g3 g4 g5 g6 => ?_
  refine hQ m' ⟨_, hr.remove hC g1 ?_ ?_ ?_ ?_ (by omega) g5 g6, hg.upd_none⟩
  · intro b hb _; rw [g3, if_neg]; exact fun hh => hb hh.2
  · intro k hb; rw [g3, hb]; simp [Base.isHeap]
  · intro k hb
    rcases okBase_own ho (hr.kind hC) with h5 | ⟨j, h5⟩ <;> rw [h5] at hb <;> simp at hb
  · intro k hk; exact absurd hk (hv k)

theorem mp_int_free_spec {Q : Unit → Mem → Prop} (h : R2 m σ) (hz : σ z = some x) (ho : z.own = true)
    (hv : ∀ n, z ≠ .var n) (hQ : ∀ m', R2 m' (upd σ z none) → m'.int z = none → Q () m') :
    wp env E (mp_int_free z) Q m := by
  unfold mp_int_free
  obtain ⟨s, hr, hg⟩ := h
  obtain ⟨C, hC, gC⟩ := hg.get hz
  refine wp_bind (mp_int_clear_raw hr hC ho fun m3 g1 g2 g3 g4 g5 g6 => ?_)
  refine wp_dropInt (hQ _ ⟨_, hr.remove hC ?_ ?_ ?_ ?_ ?_ ?_ g5 g6, hg.upd_none⟩ ?_)
  · intro y hy; simp [Mem.setInt, Mem.setDig, hy, g1 y hy]
  · intro b hb1 hb2; simp [Mem.setInt, Mem.setDig, hb2, g3 b, hb1]
  · intro k' hb; simp [Mem.setInt, Mem.setDig, g3, hb, Base.isHeap]
  · intro k' hb
    rcases okBase_own ho (hr.kind hC) with h5 | ⟨j, h5⟩ <;> rw [h5] at hb <;> simp at hb
  · intro k hk; exact absurd hk (hv k)
  · show m.next ≤ m3.next
    omega
  · simp [Mem.setInt, Mem.setDig]

/-! ### Sets of variables -/

/-- `σ` extends `σ0` by the variables `K`, with their values. -/
structure Own (σ0 : Id → Option Int) (K : List (Id × Int)) (σ : Id → Option Int) : Prop where
  nodup : (K.map Prod.fst).Nodup
  val : ∀ p ∈ K, σ p.1 = some p.2
  own : ∀ p ∈ K, p.1.own = true
  tmp : ∀ p ∈ K, ∀ n, p.1 ≠ .var n
  fresh : ∀ p ∈ K, σ0 p.1 = none
  frame : ∀ i, (∀ p ∈ K, p.1 ≠ i) → σ i = σ0 i

namespace Own

variable {K K' : List (Id × Int)} {p q : Id × Int}

theorem nil : Own σ [] σ := ⟨by simp, by simp, by simp, by simp, by simp, fun _ _ => rfl⟩

theorem perm (h : Own σ0 K σ) (hp : K.Perm K') : Own σ0 K' σ :=
  ⟨(hp.map _).nodup_iff.1 h.nodup, fun p k => h.val p (hp.mem_iff.2 k), fun p k => h.own p (hp.mem_iff.2 k),
    fun p k => h.tmp p (hp.mem_iff.2 k), fun p k => h.fresh p (hp.mem_iff.2 k),
    fun i hi => h.frame i fun p k => hi p (hp.mem_iff.1 k)⟩

theorem new (h : Own σ0 K σ) (hz : σ z = none) (ho : z.own = true) (hv : ∀ n, z ≠ .var n) (x : Int) :
    Own σ0 ((z, x) :: K) (upd σ z (some x)) := by
  have hne : ∀ p ∈ K, p.1 ≠ z := by
    rintro p hp rfl
    rw [h.val p hp] at hz; simp at hz
  refine ⟨?_, ?_, ?_, ?_, ?_, ?_⟩
  · simp only [List.map_cons, List.nodup_cons]
    exact ⟨fun k => by obtain ⟨p, hp, e⟩ := List.mem_map.1 k; exact hne p hp e, h.nodup⟩
  · intro p hp
    rcases List.mem_cons.1 hp with rfl | hp
    · exact upd_self _ _ _
    · rw [upd_ne _ _ (hne p hp)]; exact h.val p hp
  · intro p hp
    rcases List.mem_cons.1 hp with rfl | hp
    · exact ho
    · exact h.own p hp
  · intro p hp
    rcases List.mem_cons.1 hp with rfl | hp
    · exact hv
    · exact h.tmp p hp
  · intro p hp
    rcases List.mem_cons.1 hp with rfl | hp
    · rw [← h.frame z hne]; exact hz
    · exact h.fresh p hp
  · intro i hi
    rw [upd_ne _ _ (fun e => hi (z, x) (by simp) e.symm)]
    exact h.frame i fun p hp => hi p (by simp [hp])

/-- The first variable gets another value. -/
theorem set (h : Own σ0 ((z, x) :: K) σ) (y : Int) : Own σ0 ((z, y) :: K) (upd σ z (some y)) := by
  have hn : z ∉ K.map Prod.fst := by have := h.nodup; simp only [List.map_cons, List.nodup_cons] at this; exact this.1
  refine ⟨by simpa using h.nodup, ?_, ?_, ?_, ?_, ?_⟩
  · intro p hp
    rcases List.mem_cons.1 hp with rfl | hp
    · exact upd_self _ _ _
    · rw [upd_ne _ _ (fun e => hn (List.mem_map.2 ⟨p, hp, e⟩))]; exact h.val p (by simp [hp])
  · intro p hp
    rcases List.mem_cons.1 hp with rfl | hp
    · exact h.own (z, x) (by simp)
    · exact h.own p (by simp [hp])
  · intro p hp
    rcases List.mem_cons.1 hp with rfl | hp
    · exact h.tmp (z, x) (by simp)
    · exact h.tmp p (by simp [hp])
  · intro p hp
    rcases List.mem_cons.1 hp with rfl | hp
    · exact h.fresh (z, x) (by simp)
    · exact h.fresh p (by simp [hp])
  · intro i hi
    rw [upd_ne _ _ (fun e => hi (z, y) (by simp) e.symm)]
    refine h.frame i fun p hp => ?_
    rcases List.mem_cons.1 hp with rfl | hp
    · exact hi (z, y) (by simp)
    · exact hi p (by simp [hp])

/-- The first variable is given up. -/
theorem drop (h : Own σ0 ((z, x) :: K) σ) : Own σ0 K (upd σ z none) := by
  have hn : z ∉ K.map Prod.fst := by have := h.nodup; simp only [List.map_cons, List.nodup_cons] at this; exact this.1
  refine ⟨by have := h.nodup; simp only [List.map_cons, List.nodup_cons] at this; exact this.2, ?_, ?_, ?_, ?_, ?_⟩
  · intro p hp
    rw [upd_ne _ _ (fun e => hn (List.mem_map.2 ⟨p, hp, e⟩))]; exact h.val p (by simp [hp])
  · exact fun p hp => h.own p (by simp [hp])
  · exact fun p hp => h.tmp p (by simp [hp])
  · exact fun p hp => h.fresh p (by simp [hp])
  · intro i hi
    by_cases e : i = z
    · subst e
      rw [upd_self, h.fresh (i, x) (by simp)]
    · rw [upd_ne _ _ e]
      refine h.frame i fun p hp => ?_
      rcases List.mem_cons.1 hp with rfl | hp
      · exact fun e' => e e'.symm
      · exact hi p hp

theorem get (h : Own σ0 K σ) (hp : (z, x) ∈ K) : σ z = some x := h.val _ hp

theorem ne (h : Own σ0 ((z, x) :: K) σ) (hp : (a, y) ∈ K) : a ≠ z := by
  rintro rfl
  have := h.nodup
  simp only [List.map_cons, List.nodup_cons] at this
  exact this.1 (List.mem_map.2 ⟨_, hp, rfl⟩)

/-- When all variables are given up, nothing has changed. -/
theorem empty (h : Own σ0 [] σ) : σ = σ0 := funext fun i => h.frame i (by simp)

end Own

theorem clearAll_spec {Q : Unit → Mem → Prop} {K L : List (Id × Int)} (h : R2 m σ) (g : Own σ0 (L ++ K) σ)
    (hQ : ∀ m' σ', R2 m' σ' → Own σ0 K σ' → Q () m') : wp env E (clearAll (L.map Prod.fst)) Q m := by
  induction L generalizing m σ with
  | nil => exact wp_pure (hQ m σ h g)
  | cons p L ih =>
    obtain ⟨z, x⟩ := p
    simp only [List.map_cons]
    unfold clearAll
    refine wp_bind (mp_int_clear_tmp h (g.get (z := z) (x := x) (by simp)) (g.own (z, x) (by simp)) (g.tmp (z, x) (by simp)) fun m1 h1 => ?_)
    exact ih h1 (Own.drop (x := x) g)

theorem freeAll_spec {Q : Unit → Mem → Prop} {K L : List (Id × Int)} (h : R2 m σ) (g : Own σ0 (L ++ K) σ)
    (hQ : ∀ m' σ', R2 m' σ' → Own σ0 K σ' → Q () m') : wp env E (freeAll (L.map Prod.fst)) Q m := by
  induction L generalizing m σ with
  | nil => exact wp_pure (hQ m σ h g)
  | cons p L ih =>
    obtain ⟨z, x⟩ := p
    simp only [List.map_cons]
    unfold freeAll
    refine wp_bind (mp_int_free_spec h (g.get (z := z) (x := x) (by simp)) (g.own (z, x) (by simp)) (g.tmp (z, x) (by simp)) fun m1 h1 _ => ?_)
    exact ih h1 (Own.drop (x := x) g)

end Imath
