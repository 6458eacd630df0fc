import Verif.Proof.Expt

/-! # Functions with several temporaries -/

namespace Imath

variable {env : Env} {E : Fault → Prop} {m : Mem} {s : Id → Option Cell} {σ σ' : Id → Option Int}
  {z a b c : Id} {A B C : Cell} {x y w v : Int}

/-- `f` with a new value at `i` -/
def nset {α : Type} (f : Nat → α) (i : Nat) (x : α) : Nat → α := fun j => if j = i then x else f j

@[simp] theorem nset_apply {α : Type} (f : Nat → α) (i : Nat) (x : α) (j : Nat) :
    nset f i x j = if j = i then x else f j := rfl

/-- `σ'` extends `σ` by `n` temporaries `T 0`, …, `T (n-1)` with the values `V 0`, …. -/
structure Tmps (σ : Id → Option Int) (n : Nat) (T : Nat → Id) (V : Nat → Int) (σ' : Id → Option Int) : Prop where
  inj : ∀ i j, i < n → j < n → T i = T j → i = j
  fresh : ∀ i, i < n → σ (T i) = none
  own : ∀ i, i < n → (T i).own = true
  val : ∀ i, i < n → σ' (T i) = some (V i)
  frame : ∀ z, (∀ i, i < n → T i ≠ z) → σ' z = σ z

namespace Tmps

variable {n : Nat} {T : Nat → Id} {V : Nat → Int}

theorem nil (σ : Id → Option Int) (T : Nat → Id) (V : Nat → Int) : Tmps σ 0 T V σ :=
  ⟨fun _ _ h => by omega, fun _ h => by omega, fun _ h => by omega, fun _ h => by omega, fun _ _ => rfl⟩

theorem get (g : Tmps σ n T V σ') (i : Nat) (hi : i < n := by decide) : σ' (T i) = some (V i) := g.val i hi

theorem ow (g : Tmps σ n T V σ') (i : Nat) (hi : i < n := by decide) : (T i).own = true := g.own i hi

theorem ne (g : Tmps σ n T V σ') (ha : σ a = some x) : ∀ i, i < n → T i ≠ a := by
  rintro i hi rfl
  rw [g.fresh i hi] at ha; simp at ha

theorem out (g : Tmps σ n T V σ') (ha : σ a = some x) : σ' a = some x := by
  rw [g.frame a (g.ne ha), ha]

theorem upd (g : Tmps σ n T V σ') (i : Nat) (x : Int) (hi : i < n := by decide) :
    Tmps σ n T (nset V i x) (upd σ' (T i) (some x)) := by
  refine ⟨g.inj, g.fresh, g.own, fun j hj => ?_, fun z hz => ?_⟩
  · by_cases e : j = i
    · subst e; rw [upd_self]; simp
    · rw [upd_ne _ _ (fun e' => e (g.inj j i hj hi e')), g.val j hj]; simp [e]
  · rw [upd_ne _ _ (hz i hi).symm, g.frame z hz]

theorem upd_out (g : Tmps σ n T V σ') (hc : σ c = some w) (x : Int) :
    Tmps (Imath.upd σ c (some x)) n T V (Imath.upd σ' c (some x)) := by
  have hn := g.ne hc
  refine ⟨g.inj, fun i hi => ?_, g.own, fun i hi => ?_, fun z hz => ?_⟩
  · rw [upd_ne _ _ (hn i hi)]; exact g.fresh i hi
  · rw [upd_ne _ _ (hn i hi)]; exact g.val i hi
  · by_cases e : z = c
    · subst e; rw [upd_self, upd_self]
    · rw [upd_ne _ _ e, upd_ne _ _ e, g.frame z hz]

theorem push (g : Tmps σ n T V σ') {t : Id} (ht : σ' t = none) (ot : t.own = true) (x : Int) :
    Tmps σ (n + 1) (nset T n t) (nset V n x) (Imath.upd σ' t (some x)) := by
  have hne : ∀ i, i < n → T i ≠ t := by
    rintro i hi rfl
    rw [g.val i hi] at ht; simp at ht
  have hσt : σ t = none := by rw [← g.frame t hne]; exact ht
  refine ⟨fun i j hi hj he => ?_, fun i hi => ?_, fun i hi => ?_, fun i hi => ?_, fun z hz => ?_⟩
  · simp only [nset_apply] at he
    split at he <;> split at he
    · omega
    · exact absurd he.symm (hne j (by omega))
    · exact absurd he (hne i (by omega))
    · exact g.inj i j (by omega) (by omega) he
  · simp only [nset_apply]; split
    · exact hσt
    · exact g.fresh i (by omega)
  · simp only [nset_apply]; split
    · exact ot
    · exact g.own i (by omega)
  · simp only [nset_apply]; split
    · exact upd_self _ _ _
    · rw [upd_ne _ _ (hne i (by omega))]; exact g.val i (by omega)
  · have h1 : t ≠ z := by have := hz n (by omega); simpa using this
    rw [upd_ne _ _ h1.symm]
    refine g.frame z fun i hi => ?_
    have := hz i (by omega)
    simpa [show i ≠ n by omega] using this

theorem pop (g : Tmps σ (n + 1) T V σ') : Tmps σ n T V (Imath.upd σ' (T n) none) := by
  have hne : ∀ i, i < n → T i ≠ T n := fun i hi e => by
    have := g.inj i n (by omega) (by omega) e; omega
  refine ⟨fun i j hi hj => g.inj i j (by omega) (by omega), fun i hi => g.fresh i (by omega), fun i hi => g.own i (by omega),
    fun i hi => ?_, fun z hz => ?_⟩
  · rw [upd_ne _ _ (hne i hi)]; exact g.val i (by omega)
  · by_cases e : z = T n
    · rw [e, upd_self, g.fresh n (by omega)]
    · rw [upd_ne _ _ e]
      refine g.frame z fun i hi => ?_
      rcases Nat.lt_succ_iff_lt_or_eq.1 hi with h1 | h1
      · exact hz i h1
      · rw [h1]; exact fun e' => e e'.symm

theorem congr (g : Tmps σ n T V σ') {T' : Nat → Id} {V' : Nat → Int} (hT : ∀ i, i < n → T i = T' i) (hV : ∀ i, i < n → V i = V' i) :
    Tmps σ n T' V' σ' := by
  refine ⟨fun i j hi hj e => g.inj i j hi hj (by rw [hT i hi, hT j hj]; exact e), fun i hi => by rw [← hT i hi]; exact g.fresh i hi,
    fun i hi => by rw [← hT i hi]; exact g.own i hi, fun i hi => by rw [← hT i hi, ← hV i hi]; exact g.val i hi, fun z hz => g.frame z fun i hi => ?_⟩
  rw [hT i hi]; exact hz i hi

end Tmps

/-- Nested `withTemp`. -/
def temps {α : Type} : Nat → Nat → (Nat → Id) → ((Nat → Id) → M α) → M α
  | 0, _, T, k => k T
  | n + 1, i, T, k => withTemp fun t => temps n (i + 1) (nset T i t) k

/-- What a body with temporaries has to establish at its end. -/
def TDone {α : Type} (n : Nat) (T : Nat → Id) (Q : α → Mem → Prop) (r : α) (m : Mem) : Prop :=
  ∃ σF σ'' V, Tmps σF n T V σ'' ∧ R2 m σ'' ∧ ∀ m3, R2 m3 σF → Q r m3

theorem TDone.mk {α : Type} {n : Nat} {T : Nat → Id} {V : Nat → Int} {Q : α → Mem → Prop} {r : α} {σF σ'' : Id → Option Int} (g : Tmps σF n T V σ'')
    (h : R2 m σ'') (hQ : ∀ m3, R2 m3 σF → Q r m3) : TDone n T Q r m := ⟨σF, σ'', V, g, h, hQ⟩

theorem temps_spec {α : Type} {n i : Nat} {T : Nat → Id} {V : Nat → Int} {k : (Nat → Id) → M α} {Q : α → Mem → Prop}
    (h : R2 m σ') (g : Tmps σ i T V σ')
    (hk : ∀ T' V' σ'' m', Tmps σ (i + n) T' V' σ'' → R2 m' σ'' → (∀ j, j < i → V' j = V j) → (∀ j, i ≤ j → j < i + n → V' j = 0) →
      (∀ j, j < i → T' j = T j) →
      wp env E (k T') (fun r m'' => TDone (i + n) T' Q r m'') m') :
    wp env E (temps n i T k) (fun r m'' => TDone i T Q r m'') m := by
  induction n generalizing i T V σ' m with
  | zero =>
    exact hk T V σ' m g h (fun _ _ => rfl) (fun _ h1 h2 => by omega) (fun _ _ => rfl)
  | succ n ih =>
    unfold temps
    refine withTemp_spec h fun t m1 ht ot h1 => ?_
    refine wp_mono (ih h1 (g.push ht ot 0) fun T' V' σ'' m' g' h' hV hV0 hT => ?_) ?_
    · rw [show i + 1 + n = i + (n + 1) by omega] at g' ⊢
      refine hk T' V' σ'' m' g' h' (fun j hj => ?_) (fun j h1 h2 => ?_) (fun j hj => ?_)
      · rw [hV j (by omega)]; simp; omega
      · rcases Nat.eq_or_lt_of_le h1 with e | e
        · rw [hV j (by omega), ← e]; simp
        · exact hV0 j (by omega) (by omega)
      · rw [hT j (by omega)]; simp; omega
    · rintro r m2 ⟨σF, σ'', V', g', h', hQ'⟩
      have e : nset T i t i = t := by simp
      refine ⟨σ'', _, h', (by rw [← g'.get i (by omega), e]), fun m3 h3 => ?_⟩
      rw [← e] at h3
      exact ⟨σF, _, V', g'.pop.congr (fun j hj => by simp; omega) (fun _ _ => rfl), h3, hQ'⟩

theorem temps_spec0 {α : Type} {n : Nat} {T : Nat → Id} {k : (Nat → Id) → M α} {Q : α → Mem → Prop} (h : R2 m σ)
    (hk : ∀ T V σ' m', Tmps σ n T V σ' → R2 m' σ' → (∀ j, j < n → V j = 0) →
      wp env E (k T) (fun r m'' => TDone n T Q r m'') m') :
    wp env E (temps n 0 T k) Q m := by
  refine wp_mono (temps_spec (i := 0) (Q := Q) h (Tmps.nil σ T fun _ => 0) fun T' V' σ'' m' g' h' _ hV _ => ?_) ?_
  · rw [Nat.zero_add] at g' ⊢
    exact hk T' V' σ'' m' g' h' (fun j hj => hV j (by omega) (by omega))
  · rintro r m2 ⟨σF, σ'', V', g', h', hQ'⟩
    have : σ'' = σF := by funext z; exact g'.frame z fun _ h => by omega
    rw [this] at h'
    exact hQ' m2 h'

theorem withTemp2_spec {α : Type} {k : Id → Id → M α} {Q : α → Mem → Prop} (h : R2 m σ)
    (hk : ∀ T V σ' m', Tmps σ 2 T V σ' → R2 m' σ' → (∀ j, j < 2 → V j = 0) →
      wp env E (k (T 0) (T 1)) (fun r m'' => TDone 2 T Q r m'') m') :
    wp env E (withTemp fun t0 => withTemp fun t1 => k t0 t1) Q m :=
  temps_spec0 (n := 2) (T := fun _ => .tmp 0) (k := fun T => k (T 0) (T 1)) h hk

theorem withTemp3_spec {α : Type} {k : Id → Id → Id → M α} {Q : α → Mem → Prop} (h : R2 m σ)
    (hk : ∀ T V σ' m', Tmps σ 3 T V σ' → R2 m' σ' → (∀ j, j < 3 → V j = 0) →
      wp env E (k (T 0) (T 1) (T 2)) (fun r m'' => TDone 3 T Q r m'') m') :
    wp env E (withTemp fun t0 => withTemp fun t1 => withTemp fun t2 => k t0 t1 t2) Q m :=
  temps_spec0 (n := 3) (T := fun _ => .tmp 0) (k := fun T => k (T 0) (T 1) (T 2)) h hk

theorem withTemp5_spec {α : Type} {k : Id → Id → Id → Id → Id → M α} {Q : α → Mem → Prop} (h : R2 m σ)
    (hk : ∀ T V σ' m', Tmps σ 5 T V σ' → R2 m' σ' → (∀ j, j < 5 → V j = 0) →
      wp env E (k (T 0) (T 1) (T 2) (T 3) (T 4)) (fun r m'' => TDone 5 T Q r m'') m') :
    wp env E (withTemp fun t0 => withTemp fun t1 => withTemp fun t2 => withTemp fun t3 => withTemp fun t4 => k t0 t1 t2 t3 t4) Q m :=
  temps_spec0 (n := 5) (T := fun _ => .tmp 0) (k := fun T => k (T 0) (T 1) (T 2) (T 3) (T 4)) h hk

theorem withTemp8_spec {α : Type} {k : Id → Id → Id → Id → Id → Id → Id → Id → M α} {Q : α → Mem → Prop} (h : R2 m σ)
    (hk : ∀ T V σ' m', Tmps σ 8 T V σ' → R2 m' σ' → (∀ j, j < 8 → V j = 0) →
      wp env E (k (T 0) (T 1) (T 2) (T 3) (T 4) (T 5) (T 6) (T 7)) (fun r m'' => TDone 8 T Q r m'') m') :
    wp env E (withTemp fun t0 => withTemp fun t1 => withTemp fun t2 => withTemp fun t3 => withTemp fun t4 =>
      withTemp fun t5 => withTemp fun t6 => withTemp fun t7 => k t0 t1 t2 t3 t4 t5 t6 t7) Q m :=
  temps_spec0 (n := 8) (T := fun _ => .tmp 0) (k := fun T => k (T 0) (T 1) (T 2) (T 3) (T 4) (T 5) (T 6) (T 7)) h hk

theorem withTemp1_spec {α : Type} {k : Id → M α} {Q : α → Mem → Prop} (h : R2 m σ)
    (hk : ∀ T V σ' m', Tmps σ 1 T V σ' → R2 m' σ' → (∀ j, j < 1 → V j = 0) →
      wp env E (k (T 0)) (fun r m'' => TDone 1 T Q r m'') m') :
    wp env E (withTemp fun t0 => k t0) Q m :=
  temps_spec0 (n := 1) (T := fun _ => .tmp 0) (k := fun T => k (T 0)) h hk

/-- The values of the temporaries as a list. -/
def L (l : List Int) : Nat → Int := fun i => l.getD i 0

section
variable {α : Type} (x0 x1 x2 x3 x4 x5 x6 x7 : Int) (l : List Int)
theorem L_0 : L (x0 :: l) 0 = x0 := rfl
theorem L_1 : L (x0 :: x1 :: l) 1 = x1 := rfl
theorem L_2 : L (x0 :: x1 :: x2 :: l) 2 = x2 := rfl
theorem L_3 : L (x0 :: x1 :: x2 :: x3 :: l) 3 = x3 := rfl
theorem L_4 : L (x0 :: x1 :: x2 :: x3 :: x4 :: l) 4 = x4 := rfl
theorem L_5 : L (x0 :: x1 :: x2 :: x3 :: x4 :: x5 :: l) 5 = x5 := rfl
theorem L_6 : L (x0 :: x1 :: x2 :: x3 :: x4 :: x5 :: x6 :: l) 6 = x6 := rfl
theorem L_7 : L (x0 :: x1 :: x2 :: x3 :: x4 :: x5 :: x6 :: x7 :: l) 7 = x7 := rfl
variable (x : Int)
theorem set_0 : (x0 :: l).set 0 x = x :: l := rfl
theorem set_1 : (x0 :: x1 :: l).set 1 x = x0 :: x :: l := rfl
theorem set_2 : (x0 :: x1 :: x2 :: l).set 2 x = x0 :: x1 :: x :: l := rfl
theorem set_3 : (x0 :: x1 :: x2 :: x3 :: l).set 3 x = x0 :: x1 :: x2 :: x :: l := rfl
theorem set_4 : (x0 :: x1 :: x2 :: x3 :: x4 :: l).set 4 x = x0 :: x1 :: x2 :: x3 :: x :: l := rfl
theorem set_5 : (x0 :: x1 :: x2 :: x3 :: x4 :: x5 :: l).set 5 x = x0 :: x1 :: x2 :: x3 :: x4 :: x :: l := rfl
theorem set_6 : (x0 :: x1 :: x2 :: x3 :: x4 :: x5 :: x6 :: l).set 6 x = x0 :: x1 :: x2 :: x3 :: x4 :: x5 :: x :: l := rfl
theorem set_7 : (x0 :: x1 :: x2 :: x3 :: x4 :: x5 :: x6 :: x7 :: l).set 7 x = x0 :: x1 :: x2 :: x3 :: x4 :: x5 :: x6 :: x :: l := rfl
end

/-- Simplify the list of values of the temporaries. -/
macro "tsimp" l:(Lean.Parser.Tactic.location)? : tactic =>
  `(tactic| simp only [L_0, L_1, L_2, L_3, L_4, L_5, L_6, L_7, set_0, set_1, set_2, set_3, set_4, set_5, set_6, set_7] $[$l]?)

theorem Tmps.lset {n : Nat} {T : Nat → Id} {l : List Int} (g : Tmps σ n T (L l) σ') (i : Nat) (x : Int)
    (hi : i < n := by decide) (hl : i < l.length := by simp) :
    Tmps σ n T (L (l.set i x)) (Imath.upd σ' (T i) (some x)) := by
  refine (g.upd i x hi).congr (fun _ _ => rfl) fun j _ => ?_
  simp only [nset_apply, L, List.getD, List.getElem?_set, hl, if_true]
  by_cases e : j = i
  · simp [e]
  · rw [if_neg e, if_neg (fun e' => e e'.symm)]

theorem Tmps.neq {n : Nat} {T : Nat → Id} {V : Nat → Int} (g : Tmps σ n T V σ') (i j : Nat) (hij : i ≠ j := by decide)
    (hi : i < n := by decide) (hj : j < n := by decide) : T i ≠ T j := fun e => hij (g.inj i j hi hj e)

theorem Tmps.up {n : Nat} {T : Nat → Id} {l : List Int} (g : Tmps σ n T (L l) σ') (i : Nat)
    (r : R2 m (Imath.upd σ' (T i) (some x))) (hi : i < n := by decide) (hl : i < l.length := by simp) :
    ∃ σ'', R2 m σ'' ∧ Tmps σ n T (L (l.set i x)) σ'' := ⟨_, r, g.lset i x hi hl⟩

theorem Tmps.up_out {n : Nat} {T : Nat → Id} {V : Nat → Int} (g : Tmps σ n T V σ') (hc : σ c = some w)
    (r : R2 m (Imath.upd σ' c (some x))) : ∃ σ'', R2 m σ'' ∧ Tmps (Imath.upd σ c (some x)) n T V σ'' := ⟨_, r, g.upd_out hc x⟩

theorem Tmps.start {n : Nat} {T : Nat → Id} {V : Nat → Int} (g : Tmps σ n T V σ') (l : List Int)
    (hV : ∀ j, j < n → V j = 0) (hl : ∀ x ∈ l, x = 0 := by simp) : Tmps σ n T (L l) σ' := by
  refine g.congr (fun _ _ => rfl) fun i hi => ?_
  rw [hV i hi, L, List.getD]
  cases h : l[i]? with
  | none => rfl
  | some v => exact (hl v (List.mem_of_getElem? h)).symm

end Imath
