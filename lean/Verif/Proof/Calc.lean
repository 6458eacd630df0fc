import Verif.Proof.Alloc
import Verif.Proof.Root
import Verif.Proof.Egcd
import Verif.Proof.ExptmodNeg
import Verif.Proof.Gmp
import Verif.SpecCalc

/-! # The commands of the calculator: arithmetic -/

namespace Imath

variable {env : Env} {E : Fault → Prop} {m : Mem} {σ σ0 σ' : Id → Option Int} {a b c : Id} {x y w v : Int}
  {S K : List (Id × Int)} {V : List (Bytes × Id × Int)} {sp sp' : Calc} {Q : Int × Calc → Mem → Prop}

/-- The state of the program: the stack `S`, from its top, and the variables `V`. -/
structure CR (σ0 : Id → Option Int) (S : List (Id × Int)) (V : List (Bytes × Id × Int)) (sp : Calc) (σ : Id → Option Int) : Prop where
  elts : sp.elts = S.map Prod.fst
  mem : sp.mem = V.map fun p => (p.1, p.2.1)
  radix : sp.radix = 0 ∨ (2 ≤ sp.radix ∧ sp.radix ≤ 36)
  buf : sp.ibuf.length = 16384
  len : sp.buflen = 16384 ∧ (S.length ≤ sp.alloc ∧ 0 < sp.alloc) ∧ V.length ≤ sp.mslots ∧ 0 < sp.mslots
  own : Own σ0 (S ++ V.map Prod.snd) σ

/-- The calculator in that state. -/
def absA (S : List (Id × Int)) (V : List (Bytes × Id × Int)) (sp : Calc) : Calculator :=
  ⟨S.map Prod.snd, V.map fun p => (p.1, p.2.2), sp.radix⟩

/-- `Q` holds after what the reference calculator does. -/
def ActOK (E : Fault → Prop) (σ0 : Id → Option Int) (sp : Calc) (Q : Int × Calc → Mem → Prop) : Act → Prop
  | .ok code A txt => ∀ S V sp' σ' m', R2 m' σ' → CR σ0 S V sp' σ' → absA S V sp' = A → sp'.out = sp.out ++ txt →
      sp'.inp = sp.inp → Q (code, sp') m'
  | .crash f => E f

namespace CR

theorem get0 (g : CR σ0 ((a, x) :: S) V sp σ) : σ a = some x := g.own.get (by simp)
theorem ow0 (g : CR σ0 ((a, x) :: S) V sp σ) : a.own = true := g.own.own (a, x) (by simp)
theorem tm0 (g : CR σ0 ((a, x) :: S) V sp σ) : ∀ n, a ≠ .var n := g.own.tmp (a, x) (by simp)

theorem perm {S' : List (Id × Int)} (g : CR σ0 S V sp σ) (hp : S.Perm S') :
    CR σ0 S' V { sp with elts := S'.map Prod.fst } σ :=
  ⟨rfl, g.mem, g.radix, g.buf, by rw [← hp.length_eq]; exact g.len, g.own.perm (hp.append_right _)⟩

theorem swap {p q : Id × Int} (g : CR σ0 (p :: q :: S) V sp σ) :
    CR σ0 (q :: p :: S) V { sp with elts := (q :: p :: S).map Prod.fst } σ := g.perm (List.Perm.swap q p S)

theorem get1 {p : Id × Int} (g : CR σ0 (p :: (a, x) :: S) V sp σ) : σ a = some x := g.own.get (by simp)
theorem ow1 {p : Id × Int} (g : CR σ0 (p :: (a, x) :: S) V sp σ) : a.own = true := g.own.own (a, x) (by simp)
theorem get2 {p q : Id × Int} (g : CR σ0 (p :: q :: (a, x) :: S) V sp σ) : σ a = some x := g.own.get (by simp)
theorem ow2 {p q : Id × Int} (g : CR σ0 (p :: q :: (a, x) :: S) V sp σ) : a.own = true := g.own.own (a, x) (by simp)

theorem of_own (g : CR σ0 S V sp σ) (hl : K.length ≤ S.length) (ho : Own σ0 (K ++ V.map Prod.snd) σ') :
    CR σ0 K V { sp with elts := K.map Prod.fst } σ' :=
  ⟨rfl, g.mem, g.radix, g.buf, ⟨g.len.1, ⟨hl.trans g.len.2.1.1, g.len.2.1.2⟩, g.len.2.2⟩, ho⟩

theorem set0 (g : CR σ0 ((a, x) :: S) V sp σ) (y : Int) : CR σ0 ((a, y) :: S) V sp (upd σ a (some y)) :=
  ⟨g.elts, g.mem, g.radix, g.buf, g.len, Own.set (x := x) g.own y⟩

theorem set1 {p : Id × Int} (g : CR σ0 (p :: (a, x) :: S) V sp σ) (y : Int) :
    CR σ0 (p :: (a, y) :: S) V sp (upd σ a (some y)) :=
  ⟨g.elts, g.mem, g.radix, g.buf, g.len,
    (Own.set (x := x) (g.own.perm (List.Perm.swap (a, x) p _)) y).perm (List.Perm.swap p (a, y) _)⟩

theorem set2 {p q : Id × Int} (g : CR σ0 (p :: q :: (a, x) :: S) V sp σ) (y : Int) :
    CR σ0 (p :: q :: (a, y) :: S) V sp (upd σ a (some y)) := by
  have h1 : ∀ z : Int, List.Perm (p :: q :: (a, z) :: (S ++ V.map Prod.snd)) ((a, z) :: p :: q :: (S ++ V.map Prod.snd)) := fun z =>
    ((List.Perm.swap (a, z) q _).cons p).trans (List.Perm.swap (a, z) p _)
  exact ⟨g.elts, g.mem, g.radix, g.buf, g.len, (Own.set (x := x) (g.own.perm (h1 x)) y).perm (h1 y).symm⟩

theorem pop (g : CR σ0 ((a, x) :: S) V sp σ) : CR σ0 S V { sp with elts := S.map Prod.fst } (upd σ a none) :=
  g.of_own (by simp) (Own.drop (x := x) g.own)

theorem push (g : CR σ0 S V sp σ) (hz : σ a = none) (ho : a.own = true) (hv : ∀ n, a ≠ .var n) (x : Int) {al : Nat} (hal : sp.elts.length < al) :
    CR σ0 ((a, x) :: S) V { sp with elts := a :: sp.elts, alloc := al } (upd σ a (some x)) :=
  ⟨by simp [g.elts], g.mem, g.radix, g.buf, ⟨g.len.1, by rw [g.elts, List.length_map] at hal; simp; omega, g.len.2.2⟩, g.own.new hz ho hv x⟩

end CR

theorem elt_spec {Q : Id → Mem → Prop} {k : Nat} (g : CR σ0 S V sp σ) {p : Id × Int} (hk : S[k]? = some p) (hQ : Q p.1 m) :
    wp env E (elt sp k) Q m := by
  unfold elt
  rw [g.elts, List.getElem?_map, hk]
  exact wp_pure hQ

theorem popped_spec {Q : Calc → Mem → Prop} (h : R2 m σ) (g : CR σ0 ((a, x) :: S) V sp σ)
    (hQ : ∀ m', R2 m' (upd σ a none) → Q { sp with elts := S.map Prod.fst } m') : wp env E (popped sp) Q m := by
  unfold popped stack_pop
  rw [g.elts]
  simp only [List.map_cons]
  refine wp_bind (wp_bind (mp_int_clear_tmp h g.get0 g.ow0 g.tm0 fun m1 h1 => wp_pure (wp_pure (hQ m1 h1))))

theorem inArray_spec {Q : Unit → Mem → Prop} {n k : Nat} (hn : n < k) (hQ : Q () m) : wp env E (inArray n k) Q m := by
  unfold inArray
  rw [if_pos hn]
  exact wp_pure hQ

theorem stack_push_spec (hE : Ref env E) (h : R2 m σ) (g : CR σ0 S V sp σ') (z : Id)
    (hQ : ∀ al m', sp.elts.length < al → R2 m' σ → Q (MP_OK, { sp with elts := z :: sp.elts, alloc := al }) m') :
    wp env E (stack_push sp z) Q m := by
  unfold stack_push
  obtain ⟨-, ⟨h1, h2⟩, -⟩ := g.len
  have hl : sp.elts.length = S.length := by rw [g.elts, List.length_map]
  have hal : sp.elts.length < if sp.elts.length ≥ sp.alloc then 2 * sp.alloc else sp.alloc := by split <;> omega
  refine wp_bind (wp_cwhen (fun hc => request_spec hE h fun m1 r1 => ?_) fun hc => ?_)
  · exact wp_bind (inArray_spec hal (wp_pure (hQ _ m1 hal r1)))
  · exact wp_bind (inArray_spec hal (wp_pure (hQ _ m hal h)))

/-! ### Commands with one operand -/

/-- Finish after a change of the top. -/
theorem ActOK.fin {code : Int} {A : Calculator} {txt : List Nat} (hQ : ActOK E σ0 sp Q (.ok code A txt)) (h : R2 m σ')
    (g : CR σ0 S V sp' σ') (hA : absA S V sp' = A) (ho : sp'.out = sp.out ++ txt) (hi : sp'.inp = sp.inp) : Q (code, sp') m :=
  hQ S V sp' σ' m h g hA ho hi

variable {L : Lib}

theorem cf_abs_spec (hE : Ref env E) (h : R2 m σ) (g : CR σ0 ((a, x) :: S) V sp σ)
    (hQ : ActOK E σ0 sp Q (Cmd.act L .abs (absA ((a, x) :: S) V sp))) : wp env E (cf_abs sp) Q m := by
  unfold cf_abs
  refine wp_bind (elt_spec g rfl (wp_bind (mp_int_abs_spec hE h g.get0 g.get0 g.ow0 fun m1 h1 => wp_pure ?_)))
  exact hQ.fin h1 (g.set0 _) rfl (by simp) rfl

theorem cf_neg_spec (hE : Ref env E) (h : R2 m σ) (g : CR σ0 ((a, x) :: S) V sp σ)
    (hQ : ActOK E σ0 sp Q (Cmd.act L .neg (absA ((a, x) :: S) V sp))) : wp env E (cf_neg sp) Q m := by
  unfold cf_neg
  refine wp_bind (elt_spec g rfl (wp_bind (mp_int_neg_spec hE h g.get0 g.get0 g.ow0 fun m1 h1 => wp_pure ?_)))
  exact hQ.fin h1 (g.set0 _) rfl (by simp) rfl

theorem cf_square_spec (hE : Ref env E) (h : R2 m σ) (g : CR σ0 ((a, x) :: S) V sp σ)
    (hQ : ActOK E σ0 sp Q (Cmd.act L .sqr (absA ((a, x) :: S) V sp))) : wp env E (cf_square sp) Q m := by
  unfold cf_square
  refine wp_bind (elt_spec g rfl (wp_bind (mp_int_sqr_spec hE h g.get0 g.get0 g.ow0 fun m1 h1 => wp_pure ?_)))
  exact hQ.fin h1 (g.set0 _) rfl (by simp) rfl

theorem cf_inc_spec (hE : Ref env E) (h : R2 m σ) (g : CR σ0 ((a, x) :: S) V sp σ)
    (hQ : ActOK E σ0 sp Q (Cmd.act L .inc (absA ((a, x) :: S) V sp))) : wp env E (cf_inc sp) Q m := by
  unfold cf_inc
  refine wp_bind (elt_spec g rfl (wp_bind (mp_int_add_value_spec hE (by decide) (by decide) h g.get0 g.get0 g.ow0 fun m1 h1 => wp_pure ?_)))
  exact hQ.fin h1 (g.set0 _) rfl (by simp) rfl

theorem cf_dec_spec (hE : Ref env E) (h : R2 m σ) (g : CR σ0 ((a, x) :: S) V sp σ)
    (hQ : ActOK E σ0 sp Q (Cmd.act L .dec (absA ((a, x) :: S) V sp))) : wp env E (cf_dec sp) Q m := by
  unfold cf_dec
  refine wp_bind (elt_spec g rfl (wp_bind (mp_int_sub_value_spec hE (by decide) (by decide) h g.get0 g.get0 g.ow0 fun m1 h1 => wp_pure ?_)))
  exact hQ.fin h1 (g.set0 _) rfl (by simp) rfl

/-- The root as the reference has it. -/
theorem floorRoot_eq {B n r : Nat} (hB : 0 < B) (h1 : r ^ B ≤ n) (h2 : n < (r + 1) ^ B) : floorRoot B n = r := by
  unfold floorRoot
  refine Nat.findGreatest_eq_iff.2 ⟨?_, fun _ => h1, fun k hk _ => ?_⟩
  · exact (Nat.le_self_pow (by omega) r).trans h1
  · exact not_le.2 (lt_of_lt_of_le h2 (Nat.pow_le_pow_left hk B))

theorem cf_sqrt_spec (hE : Ref env E) (h : R2 m σ) (g : CR σ0 ((a, x) :: S) V sp σ)
    (hQ : ActOK E σ0 sp Q (Cmd.act L .sqrt (absA ((a, x) :: S) V sp))) : wp env E (cf_sqrt sp) Q m := by
  unfold cf_sqrt
  refine wp_bind (elt_spec g rfl (wp_bind (mp_int_root_spec (B := 2) hE h g.get0 g.get0 g.ow0 (by decide) (by decide) ?_ ?_)))
  · intro hx _
    have : Cmd.act L .sqrt (absA ((a, x) :: S) V sp) = .ok MP_UNDEF (absA ((a, x) :: S) V sp) [] := by
      simp [Cmd.act, absA, hx]
    rw [this] at hQ
    exact wp_pure (hQ.fin h g rfl (by simp) rfl)
  · intro hx r h1 h2 m1 h3
    have hx : ¬ x < 0 := fun e => hx ⟨e, by decide⟩
    have : Cmd.act L .sqrt (absA ((a, x) :: S) V sp) = .ok MP_OK { absA ((a, x) :: S) V sp with stack := (r : Int) :: S.map Prod.snd } [] := by
      simp only [Cmd.act, absA, List.map_cons, if_neg hx]
      rw [floorRoot_eq (by decide) (show r ^ 2 ≤ x.toNat by rwa [← Int.natAbs_of_nonneg (not_lt.1 hx), Int.toNat_natCast] ) (by rwa [← Int.natAbs_of_nonneg (not_lt.1 hx), Int.toNat_natCast])]
    rw [this] at hQ
    rw [if_neg hx] at h3
    exact wp_pure (hQ.fin h3 (g.set0 _) rfl (by simp) rfl)

/-! ### Commands with two operands -/

theorem cf_add_spec (hE : Ref env E) (h : R2 m σ) (g : CR σ0 ((b, y) :: (a, x) :: S) V sp σ)
    (hQ : ActOK E σ0 sp Q (Cmd.act L .add (absA ((b, y) :: (a, x) :: S) V sp))) : wp env E (cf_add sp) Q m := by
  unfold cf_add
  refine wp_bind (elt_spec g rfl (wp_bind (elt_spec g rfl (wp_bind (mp_int_add_spec hE h g.get1 g.get0 g.get1 g.ow1 fun m1 h1 => ?_)))))
  refine wp_bind (wp_cif (fun _ => popped_spec h1 (g.set1 _) fun m2 h2 => wp_pure ?_) fun e => absurd rfl e)
  exact hQ.fin h2 (g.set1 _).pop rfl (by simp) rfl

theorem cf_sub_spec (hE : Ref env E) (h : R2 m σ) (g : CR σ0 ((b, y) :: (a, x) :: S) V sp σ)
    (hQ : ActOK E σ0 sp Q (Cmd.act L .sub (absA ((b, y) :: (a, x) :: S) V sp))) : wp env E (cf_sub sp) Q m := by
  unfold cf_sub
  refine wp_bind (elt_spec g rfl (wp_bind (elt_spec g rfl (wp_bind (mp_int_sub_spec hE h g.get1 g.get0 g.get1 g.ow1 fun m1 h1 => ?_)))))
  refine wp_bind (wp_cif (fun _ => popped_spec h1 (g.set1 _) fun m2 h2 => wp_pure ?_) fun e => absurd rfl e)
  exact hQ.fin h2 (g.set1 _).pop rfl (by simp) rfl

theorem cf_mul_spec (hE : Ref env E) (h : R2 m σ) (g : CR σ0 ((b, y) :: (a, x) :: S) V sp σ)
    (hQ : ActOK E σ0 sp Q (Cmd.act L .mul (absA ((b, y) :: (a, x) :: S) V sp))) : wp env E (cf_mul sp) Q m := by
  unfold cf_mul
  refine wp_bind (elt_spec g rfl (wp_bind (elt_spec g rfl (wp_bind (mp_int_mul_spec hE h g.get1 g.get0 g.get1 g.ow1 fun m1 h1 => ?_)))))
  refine wp_bind (wp_cif (fun _ => popped_spec h1 (g.set1 _) fun m2 h2 => wp_pure ?_) fun e => absurd rfl e)
  exact hQ.fin h2 (g.set1 _).pop rfl (by simp) rfl

theorem CR.ne01 (g : CR σ0 ((b, y) :: (a, x) :: S) V sp σ) : a ≠ b := g.own.ne (y := x) (by simp)

theorem cf_divmod_spec (hE : Ref env E) (h : R2 m σ) (g : CR σ0 ((b, y) :: (a, x) :: S) V sp σ)
    (hQ : ActOK E σ0 sp Q (Cmd.act L .divmod (absA ((b, y) :: (a, x) :: S) V sp))) : wp env E (cf_divmod sp) Q m := by
  unfold cf_divmod
  have hq : ∀ z, some a = some z → (∃ w, σ z = some w) ∧ z.own = true := by rintro z ⟨⟩; exact ⟨⟨_, g.get1⟩, g.ow1⟩
  have hr : ∀ z, some b = some z → (∃ w, σ z = some w) ∧ z.own = true := by rintro z ⟨⟩; exact ⟨⟨_, g.get0⟩, g.ow0⟩
  refine wp_bind (elt_spec g rfl (wp_bind (elt_spec g rfl (wp_bind (mp_int_div_spec hE h g.get1 g.get0 (by simp [g.ne01]) hq hr ?_ ?_)))))
  · intro hy
    have : Cmd.act L .divmod (absA ((b, y) :: (a, x) :: S) V sp) = .ok MP_UNDEF (absA ((b, y) :: (a, x) :: S) V sp) [] := by
      simp [Cmd.act, absA, hy]
    rw [this] at hQ
    exact wp_pure (hQ.fin h g rfl (by simp) rfl)
  · intro hy m1 h1
    have : Cmd.act L .divmod (absA ((b, y) :: (a, x) :: S) V sp) =
        .ok MP_OK { absA ((b, y) :: (a, x) :: S) V sp with stack := x.tmod y :: x.tdiv y :: S.map Prod.snd } [] := by
      simp [Cmd.act, absA, hy]
    rw [this] at hQ
    exact wp_pure (hQ.fin h1 ((g.set1 _).set0 _) rfl (by simp) rfl)

theorem cf_div_spec (hE : Ref env E) (h : R2 m σ) (g : CR σ0 ((b, y) :: (a, x) :: S) V sp σ)
    (hQ : ActOK E σ0 sp Q (Cmd.act L .div (absA ((b, y) :: (a, x) :: S) V sp))) : wp env E (cf_div sp) Q m := by
  unfold cf_div
  have hq : ∀ z, some a = some z → (∃ w, σ z = some w) ∧ z.own = true := by rintro z ⟨⟩; exact ⟨⟨_, g.get1⟩, g.ow1⟩
  have hr : ∀ z, none = some z → (∃ w, σ z = some w) ∧ z.own = true := by rintro z ⟨⟩
  refine wp_bind (elt_spec g rfl (wp_bind (elt_spec g rfl (wp_bind (mp_int_div_spec hE h g.get1 g.get0 (by simp) hq hr ?_ ?_)))))
  · intro hy
    have : Cmd.act L .div (absA ((b, y) :: (a, x) :: S) V sp) = .ok MP_UNDEF (absA ((b, y) :: (a, x) :: S) V sp) [] := by
      simp [Cmd.act, absA, hy]
    rw [this] at hQ
    exact wp_bind (wp_cif (fun e => absurd e (by decide)) fun _ => wp_pure (wp_pure (hQ.fin h g rfl (by simp) rfl)))
  · intro hy m1 h1
    have : Cmd.act L .div (absA ((b, y) :: (a, x) :: S) V sp) =
        .ok MP_OK { absA ((b, y) :: (a, x) :: S) V sp with stack := x.tdiv y :: S.map Prod.snd } [] := by
      simp [Cmd.act, absA, hy]
    rw [this] at hQ
    refine wp_bind (wp_cif (fun _ => popped_spec h1 (g.set1 _) fun m2 h2 => wp_pure ?_) fun e => absurd rfl e)
    exact hQ.fin h2 (g.set1 _).pop rfl (by simp) rfl

theorem remOf_eq (x y : Int) : remOf x y = modOf x y := by
  unfold remOf modOf
  by_cases hy : 0 < y
  · rw [if_pos hy]
    rcases Int.emod_two_eq_zero_or_one 0 with _ | _
    all_goals
      by_cases hx : 0 ≤ x
      · rw [Int.tmod_eq_emod_of_nonneg hx, if_neg (not_lt.2 (Int.emod_nonneg x hy.ne'))]
      · have h1 := Int.tmod_eq_emod (a := x) (b := y)
        have h2 := Int.emod_lt_of_pos x hy
        have h3 := Int.emod_nonneg x hy.ne'
        by_cases hd : y ∣ x
        · rw [Int.tmod_eq_zero_of_dvd hd, Int.emod_eq_zero_of_dvd hd]; simp
        · rw [if_neg (fun e => e.elim (fun e => hx e) hd)] at h1
          have : (y.natAbs : Int) = y := by omega
          rw [if_pos (by omega)]
          omega
  · rw [if_neg hy]

theorem cf_mod_spec (hE : Ref env E) (h : R2 m σ) (g : CR σ0 ((b, y) :: (a, x) :: S) V sp σ)
    (hQ : ActOK E σ0 sp Q (Cmd.act L .mod (absA ((b, y) :: (a, x) :: S) V sp))) : wp env E (cf_mod sp) Q m := by
  unfold cf_mod
  refine wp_bind (elt_spec g rfl (wp_bind (elt_spec g rfl (wp_bind (mp_int_mod_spec hE h g.get1 g.get0 g.get1 g.ow1 ?_ ?_)))))
  · intro hy m1 h1
    have : Cmd.act L .mod (absA ((b, y) :: (a, x) :: S) V sp) = .ok MP_UNDEF (absA ((b, y) :: (a, x) :: S) V sp) [] := by
      simp [Cmd.act, absA, hy]
    rw [this] at hQ
    exact wp_bind (wp_cif (fun e => absurd e (by decide)) fun _ => wp_pure (wp_pure (hQ.fin h1 g rfl (by simp) rfl)))
  · intro hy m1 h1
    have : Cmd.act L .mod (absA ((b, y) :: (a, x) :: S) V sp) =
        .ok MP_OK { absA ((b, y) :: (a, x) :: S) V sp with stack := remOf x y :: S.map Prod.snd } [] := by
      simp [Cmd.act, absA, hy]
    rw [this, remOf_eq] at hQ
    refine wp_bind (wp_cif (fun _ => popped_spec h1 (g.set1 _) fun m2 h2 => wp_pure ?_) fun e => absurd rfl e)
    exact hQ.fin h2 (g.set1 _).pop rfl (by simp) rfl

theorem cf_gcd_spec (hE : Ref env E) (h : R2 m σ) (g : CR σ0 ((b, y) :: (a, x) :: S) V sp σ)
    (hQ : ActOK E σ0 sp Q (Cmd.act L .gcd (absA ((b, y) :: (a, x) :: S) V sp))) : wp env E (cf_gcd sp) Q m := by
  unfold cf_gcd
  refine wp_bind (elt_spec g rfl (wp_bind (elt_spec g rfl (wp_bind (mp_int_gcd_spec hE h g.get1 g.get0 g.get1 g.ow1 ?_ ?_)))))
  · intro hx hy
    have : Cmd.act L .gcd (absA ((b, y) :: (a, x) :: S) V sp) = .ok MP_UNDEF (absA ((b, y) :: (a, x) :: S) V sp) [] := by
      simp [Cmd.act, absA, hx, hy]
    rw [this] at hQ
    exact wp_bind (wp_cif (fun e => absurd e (by decide)) fun _ => wp_pure (wp_pure (hQ.fin h g rfl (by simp) rfl)))
  · intro hy m1 h1
    have : Cmd.act L .gcd (absA ((b, y) :: (a, x) :: S) V sp) =
        .ok MP_OK { absA ((b, y) :: (a, x) :: S) V sp with stack := (Int.gcd x y : Int) :: S.map Prod.snd } [] := by
      simp only [Cmd.act, absA, List.map_cons, if_neg hy]
    rw [this] at hQ
    refine wp_bind (wp_cif (fun _ => popped_spec h1 (g.set1 _) fun m2 h2 => wp_pure ?_) fun e => absurd rfl e)
    exact hQ.fin h2 (g.set1 _).pop rfl (by simp) rfl

/-! ### Comparisons -/

theorem cmp_spec {k : Int} {A : Calculator} (hE : Ref env E) (h : R2 m σ) (g : CR σ0 ((b, y) :: (a, x) :: S) V sp σ)
    (hk : k = 0 ∨ k = 1) (hA : A = { absA ((b, y) :: (a, x) :: S) V sp with stack := k :: S.map Prod.snd })
    (hQ : ActOK E σ0 sp Q (.ok MP_OK A [])) :
    wp env E (do
      let res ← mp_int_set_value a k
      let sp ← popped sp
      pure (res, sp)) Q m := by
  refine wp_bind (mp_int_set_value_spec hE (by rcases hk with rfl | rfl <;> decide) (by rcases hk with rfl | rfl <;> decide) h g.get1 g.ow1 fun m1 h1 => ?_)
  refine wp_bind (popped_spec h1 (g.set1 _) fun m2 h2 => wp_pure ?_)
  exact hQ.fin h2 (g.set1 _).pop hA.symm (by simp) rfl

theorem ite01 (p : Prop) [Decidable p] : (if p then (1 : Int) else 0) = 0 ∨ (if p then (1 : Int) else 0) = 1 := by
  split <;> simp

theorem cf_cmplt_spec (hE : Ref env E) (h : R2 m σ) (g : CR σ0 ((b, y) :: (a, x) :: S) V sp σ)
    (hQ : ActOK E σ0 sp Q (Cmd.act L .lt (absA ((b, y) :: (a, x) :: S) V sp))) : wp env E (cf_cmplt sp) Q m := by
  unfold cf_cmplt
  refine wp_bind (elt_spec g rfl (wp_bind (elt_spec g rfl (wp_bind (mp_int_compare_spec h g.get1 g.get0 ?_)))))
  exact cmp_spec hE h g (ite01 _) (by simp [absA, cmpZ_neg]) hQ

theorem cf_cmpgt_spec (hE : Ref env E) (h : R2 m σ) (g : CR σ0 ((b, y) :: (a, x) :: S) V sp σ)
    (hQ : ActOK E σ0 sp Q (Cmd.act L .gt (absA ((b, y) :: (a, x) :: S) V sp))) : wp env E (cf_cmpgt sp) Q m := by
  unfold cf_cmpgt
  refine wp_bind (elt_spec g rfl (wp_bind (elt_spec g rfl (wp_bind (mp_int_compare_spec h g.get1 g.get0 ?_)))))
  have : cmpZ x y > 0 ↔ x > y := cmpZ_pos
  exact cmp_spec hE h g (ite01 _) (by simp only [absA, this, List.map_cons]) hQ

theorem cf_cmple_spec (hE : Ref env E) (h : R2 m σ) (g : CR σ0 ((b, y) :: (a, x) :: S) V sp σ)
    (hQ : ActOK E σ0 sp Q (Cmd.act L .le (absA ((b, y) :: (a, x) :: S) V sp))) : wp env E (cf_cmple sp) Q m := by
  unfold cf_cmple
  refine wp_bind (elt_spec g rfl (wp_bind (elt_spec g rfl (wp_bind (mp_int_compare_spec h g.get1 g.get0 ?_)))))
  have : cmpZ x y ≤ 0 ↔ x ≤ y := by rw [← not_lt, ← not_lt, not_iff_not]; exact cmpZ_pos
  exact cmp_spec hE h g (ite01 _) (by simp only [absA, this, List.map_cons]) hQ

theorem cf_cmpge_spec (hE : Ref env E) (h : R2 m σ) (g : CR σ0 ((b, y) :: (a, x) :: S) V sp σ)
    (hQ : ActOK E σ0 sp Q (Cmd.act L .ge (absA ((b, y) :: (a, x) :: S) V sp))) : wp env E (cf_cmpge sp) Q m := by
  unfold cf_cmpge
  refine wp_bind (elt_spec g rfl (wp_bind (elt_spec g rfl (wp_bind (mp_int_compare_spec h g.get1 g.get0 ?_)))))
  have : cmpZ x y ≥ 0 ↔ x ≥ y := by rw [ge_iff_le, ge_iff_le, ← not_lt, ← not_lt, not_iff_not]; exact cmpZ_neg
  exact cmp_spec hE h g (ite01 _) (by simp only [absA, this, List.map_cons]) hQ

theorem cf_cmpeq_spec (hE : Ref env E) (h : R2 m σ) (g : CR σ0 ((b, y) :: (a, x) :: S) V sp σ)
    (hQ : ActOK E σ0 sp Q (Cmd.act L .eq (absA ((b, y) :: (a, x) :: S) V sp))) : wp env E (cf_cmpeq sp) Q m := by
  unfold cf_cmpeq
  refine wp_bind (elt_spec g rfl (wp_bind (elt_spec g rfl (wp_bind (mp_int_compare_spec h g.get1 g.get0 ?_)))))
  have : cmpZ x y = 0 ↔ x = y := cmpZ_eq_zero
  exact cmp_spec hE h g (ite01 _) (by simp only [absA, this, List.map_cons]) hQ

theorem cf_cmpne_spec (hE : Ref env E) (h : R2 m σ) (g : CR σ0 ((b, y) :: (a, x) :: S) V sp σ)
    (hQ : ActOK E σ0 sp Q (Cmd.act L .ne (absA ((b, y) :: (a, x) :: S) V sp))) : wp env E (cf_cmpne sp) Q m := by
  unfold cf_cmpne
  refine wp_bind (elt_spec g rfl (wp_bind (elt_spec g rfl (wp_bind (mp_int_compare_spec h g.get1 g.get0 ?_)))))
  have : cmpZ x y ≠ 0 ↔ x ≠ y := not_iff_not.2 cmpZ_eq_zero
  exact cmp_spec hE h g (ite01 _) (by simp only [absA, this, List.map_cons]) hQ

end Imath
