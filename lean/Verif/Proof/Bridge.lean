import Verif.Spec
import Verif.Proof.Mul

/-! # From the invariants of the proofs to the statements of `Verif.Spec` -/

namespace Imath

/-- The values of the variables, as a map on all objects. -/
def lift (ρ : Nat → Option Int) : Id → Option Int
  | .var n => ρ n
  | _ => none

@[simp] theorem lift_var (ρ : Nat → Option Int) (n : Nat) : lift ρ (.var n) = ρ n := rfl

theorem upd_lift (ρ : Nat → Option Int) (n : Nat) (v : Int) :
    upd (lift ρ) (.var n) (some v) = lift (put ρ n v) := by
  funext z
  cases z with
  | var k => simp only [upd, lift, put, Id.var.injEq]
  | tmp k => simp [upd, lift]
  | fake k => simp [upd, lift]

theorem upd_lift_none (ρ : Nat → Option Int) (n : Nat) :
    upd (lift ρ) (.var n) none = lift (del ρ n) := by
  funext z
  cases z with
  | var k => simp only [upd, lift, del, Id.var.injEq]
  | tmp k => simp [upd, lift]
  | fake k => simp [upd, lift]

theorem val_eq_ofDigits (l : List Nat) : val l = Nat.ofDigits (2 ^ 32) l := by
  induction l with
  | nil => rfl
  | cons x l ih => rw [val_cons, Nat.ofDigits_cons, ih]; norm_num

/-- The cell of a variable, read off from memory. -/
def cellOf (m : Mem) (ρ : Nat → Option Int) : Id → Option Cell
  | .var n => match ρ n with
    | none => none
    | some _ => (m.int (.var n)).bind fun Z => Z.digits.bind fun p =>
        (m.dig p.base).map fun l => ⟨p.base, l, Z.used, Z.neg⟩
  | _ => none

theorem sval_eq (n : Bool) (k : Nat) : sval n k = (if n then -1 else 1) * (k : Int) := by
  unfold sval; split <;> simp

theorem R2.state {m : Mem} {ρ : Nat → Option Int} (h : R2 m (lift ρ)) : State m ρ := by
  obtain ⟨s, hr, hg⟩ := h
  have get : ∀ {n v}, ρ n = some v → ∃ C, s (.var n) = some C ∧ Good C v ∧ m.int (.var n) = some C.mpz := by
    intro n v hv
    obtain ⟨C, hC, gC⟩ := hg.get (z := .var n) hv
    exact ⟨C, hC, gC, hr.int hC⟩
  refine ⟨?_, ?_, ?_, ?_, hr.decl, fun k hk => ⟨hr.freshH k hk, hr.freshS k hk⟩, ?_, hr.thr⟩
  · intro n v hv
    obtain ⟨C, hC, gC, iC⟩ := get hv
    refine ⟨C.mpz, C.ptr, C.buf, iC, rfl, rfl, hr.dig hC, rfl, (hr.okl hC).2, ?_, gC.norm.pos, gC.norm.le,
      gC.norm.top, ?_, ?_⟩
    · have := hr.okd hC
      norm_num
      exact this
    · rw [← val_eq_ofDigits]
      exact gC.val.trans (sval_eq _ _)
    · intro hn
      have := gC.neg_iff.1 hn
      omega
  · intro n v Z p hv hZ hp
    obtain ⟨C, hC, gC, iC⟩ := get hv
    rw [iC] at hZ; cases hZ
    simp only [Cell.mpz, Option.some.injEq] at hp
    rw [← hp]
    exact okBase_own (z := .var n) rfl (hr.kind hC)
  · intro n v Z p n' v' Z' p' hv hZ hp hv' hZ' hp' hb
    obtain ⟨C, hC, gC, iC⟩ := get hv
    obtain ⟨C', hC', gC', iC'⟩ := get hv'
    rw [iC] at hZ; cases hZ
    rw [iC'] at hZ'; cases hZ'
    simp only [Cell.mpz, Option.some.injEq] at hp hp'
    rw [← hp, ← hp'] at hb
    have := hr.inj hC hC' hb
    simpa using this
  · intro k l hl
    obtain ⟨z, C, hC, hb⟩ := hr.owned hl
    have hne : lift ρ z ≠ none := fun h0 => by
      rw [hg.none_iff.2 h0] at hC; simp at hC
    cases z with
    | var n =>
      cases hv : ρ n with
      | none => exact absurd hv hne
      | some v => exact ⟨n, v, C.mpz, C.ptr, hv, hr.int hC, rfl, hb⟩
    | tmp n => exact absurd rfl hne
    | fake n => exact absurd rfl hne
  · have := hr.prec; norm_num; exact this

theorem State.r2 {m : Mem} {ρ : Nat → Option Int} (h : State m ρ) : R2 m (lift ρ) := by
  have get : ∀ {z C}, cellOf m ρ z = some C → ∃ n v Z p, z = .var n ∧ ρ n = some v ∧ m.int (.var n) = some Z ∧
      Z.digits = some p ∧ m.dig p.base = some C.buf ∧ C = ⟨p.base, C.buf, Z.used, Z.neg⟩ := by
    intro z C hC
    cases z with
    | var n =>
      simp only [cellOf] at hC
      cases hv : ρ n with
      | none => rw [hv] at hC; simp at hC
      | some v =>
        rw [hv] at hC
        simp only [Option.bind_eq_some_iff, Option.map_eq_some_iff] at hC
        obtain ⟨Z, hZ, p, hp, l, hl, rfl⟩ := hC
        exact ⟨n, v, Z, p, rfl, hv, hZ, hp, hl, rfl⟩
    | tmp n => simp [cellOf] at hC
    | fake n => simp [cellOf] at hC
  have good : ∀ {n v}, ρ n = some v → ∃ C, cellOf m ρ (.var n) = some C ∧ Good C v ∧ m.int (.var n) = some C.mpz ∧
      Dig C.buf ∧ 1 ≤ C.buf.length ∧ C.buf.length ≤ MAXD := by
    intro n v hv
    obtain ⟨Z, p, l, h1, h2, h3, h4, h5, h6, h7, h8, h9, h10, h11, h12⟩ := h.holds hv
    refine ⟨⟨p.base, l, Z.used, Z.neg⟩, by simp [cellOf, hv, h1, h2, h4], ⟨⟨h8, h9, h10⟩, ?_, ?_⟩, ?_, ?_, Nat.le_trans h8 h9, h6⟩
    · intro hn h0
      refine h12 hn ?_
      rw [h11, ← val_eq_ofDigits]
      have : val (l.take Z.used) = 0 := h0
      rw [this]; simp
    · rw [h11, ← val_eq_ofDigits, sval_eq]; rfl
    · rw [h1]; cases Z; cases p; simp_all [Cell.mpz]
    · intro d hd; have := h7 d hd; norm_num at this; exact this
  refine ⟨cellOf m ρ, ?_, ?_⟩
  · refine
      { int := ?_, dig := ?_, kind := ?_, inj := ?_, sng := ?_, decl := h.decl, owned := ?_,
        freshH := fun k hk => (h.fresh k hk).1, freshI := fun k _ => ⟨rfl, rfl⟩,
        freshS := fun k hk => (h.fresh k hk).2, okd := ?_, okl := ?_, prec := ?_, thr := h.thr }
    · intro z C hC
      obtain ⟨n, v, Z, p, rfl, hv, hZ, hp, hl, he⟩ := get hC
      obtain ⟨C', hC', _, hi, _⟩ := good hv
      rw [hC] at hC'; cases hC'
      exact hi
    · intro z C hC
      obtain ⟨n, v, Z, p, rfl, hv, hZ, hp, hl, he⟩ := get hC
      rw [he]; exact hl
    · intro z C hC
      obtain ⟨n, v, Z, p, rfl, hv, hZ, hp, hl, he⟩ := get hC
      have hb : C.base = p.base := by rw [he]
      rw [hb]
      rcases h.place hv hZ hp with h1 | ⟨k, h1⟩ <;> rw [h1] <;> simp [okBase]
    · intro z z' C C' hC hC' hb
      obtain ⟨n, v, Z, p, rfl, hv, hZ, hp, hl, he⟩ := get hC
      obtain ⟨n', v', Z', p', rfl, hv', hZ', hp', hl', he'⟩ := get hC'
      rw [he, he'] at hb
      rw [h.sep hv hZ hp hv' hZ' hp' hb]
    · intro z C hC
      obtain ⟨n, v, Z, p, rfl, hv, hZ, hp, hl, he⟩ := get hC
      exact (h.decl n).2
    · intro k l hl
      obtain ⟨n, v, Z, p, hv, hZ, hp, hb⟩ := h.noleak hl
      refine ⟨.var n, ⟨p.base, l, Z.used, Z.neg⟩, ?_, hb⟩
      simp [cellOf, hv, hZ, hp, hb, hl]
    · intro z C hC
      obtain ⟨n, v, Z, p, rfl, hv, hZ, hp, hl, he⟩ := get hC
      obtain ⟨C', hC', _, _, hd, _⟩ := good hv
      rw [hC] at hC'; cases hC'
      exact hd
    · intro z C hC
      obtain ⟨n, v, Z, p, rfl, hv, hZ, hp, hl, he⟩ := get hC
      obtain ⟨C', hC', _, _, _, hd⟩ := good hv
      rw [hC] at hC'; cases hC'
      exact hd
    · have := h.prec; norm_num at this; exact this
  · intro z
    cases z with
    | var n =>
      cases hv : ρ n with
      | none => simp [cellOf, hv, lift, GoodO]
      | some v =>
        obtain ⟨C, hC, gC, _⟩ := good hv
        rw [hC, lift_var, hv]; exact gC
    | tmp n => trivial
    | fake n => trivial

/-- The fault that the allocator refused a request. -/
def Refused (env : Env) (f : Fault) : Prop := ∃ n j, f = .oom n ∧ env.grant j n = false

theorem ref_refused (env : Env) : Ref env (Refused env) := fun j n h => ⟨n, j, rfl, h⟩

theorem Runs.of_wp {α : Type} {env : Env} {f : M α} {m : Mem} {P : α → Mem → Prop}
    (h : wp env (Refused env) f P m) : Runs env f m P := by
  unfold wp at h
  unfold Runs
  cases hf : f env m with
  | ok a m' => rw [hf] at h; exact h
  | fault e =>
    rw [hf] at h
    obtain ⟨n, j, rfl, hj⟩ := h
    exact ⟨j, hj⟩

/-- The fault `e`, or that the allocator refused a request. -/
def OrRefused (env : Env) (e : Fault) (f : Fault) : Prop := f = e ∨ Refused env f

theorem ref_or (env : Env) (e : Fault) : Ref env (OrRefused env e) := fun j n h => .inr ⟨n, j, rfl, h⟩

theorem FaultsOr.of_wp {α : Type} {env : Env} {f : M α} {m : Mem} {e : Fault}
    (h : wp env (OrRefused env e) f (fun _ _ => False) m) : FaultsOr env f m e := by
  unfold wp at h
  unfold FaultsOr
  cases hf : f env m with
  | ok a m' => rw [hf] at h; exact h.elim
  | fault e' =>
    rw [hf] at h
    rcases h with rfl | ⟨n, j, rfl, hj⟩
    · exact .inl rfl
    · exact .inr ⟨n, rfl, j, hj⟩

theorem Runs.mono {α : Type} {env : Env} {f : M α} {m : Mem} {P Q : α → Mem → Prop} (h : Runs env f m P)
    (hPQ : ∀ r m', P r m' → Q r m') : Runs env f m Q := by
  unfold Runs at h ⊢
  cases hf : f env m with
  | ok a m' => rw [hf] at h; exact hPQ _ _ h
  | fault e => rw [hf] at h; cases e <;> exact h

/-! ### Every assignment of values to finitely many variables is represented by a memory -/

/-- A canonical digit list. -/
theorem exists_digits (k : Nat) (hk : k < 𝔹 ^ MAXD) :
    ∃ l : List Nat, Dig l ∧ 1 ≤ l.length ∧ l.length ≤ MAXD ∧ val l = k ∧
      (1 < l.length → l[l.length - 1]? ≠ some 0) := by
  refine ⟨(toDigits MAXD k).take (clampLen (toDigits MAXD k) MAXD), (Dig_toDigits _ _).take _, ?_, ?_, ?_, ?_⟩
  · have h1 := clampLen_pos (toDigits MAXD k) MAXD (by norm_num)
    have h2 := clampLen_le (toDigits MAXD k) MAXD
    rw [List.length_take, length_toDigits]; omega
  · rw [List.length_take, length_toDigits]; omega
  · rw [val_take_clampLen _ _ (by rw [length_toDigits]), List.take_of_length_le (by rw [length_toDigits]), val_toDigits,
      Nat.mod_eq_of_lt hk]
  · have h2 := clampLen_le (toDigits MAXD k) MAXD
    rw [List.length_take, length_toDigits, Nat.min_eq_left h2]
    intro h3
    rw [List.getElem?_take, if_pos (by omega)]
    exact clampLen_top h3

theorem exists_state (ρ : Nat → Option Int) (N : Nat) (hN : ∀ n, N ≤ n → ρ n = none)
    (hv : ∀ n v, ρ n = some v → v.natAbs < (2 ^ 32) ^ MAXD) : ∃ m, State m ρ := by
  have hv' : ∀ n, ∃ l : List Nat, ∀ v, ρ n = some v → Dig l ∧ 1 ≤ l.length ∧ l.length ≤ MAXD ∧ val l = v.natAbs ∧
      (1 < l.length → l[l.length - 1]? ≠ some 0) := by
    intro n
    cases h : ρ n with
    | none => exact ⟨[], fun v hv => by simp at hv⟩
    | some v =>
      obtain ⟨l, hl⟩ := exists_digits v.natAbs (by have := hv n v h; norm_num at this ⊢; exact this)
      exact ⟨l, fun v' hv => by simp only [Option.some.injEq] at hv; subst hv; exact hl⟩
  choose L hL using hv'
  let s : Id → Option Cell := fun
    | .var n => (ρ n).map fun v => ⟨.heap n, L n, (L n).length, decide (v < 0)⟩
    | _ => none
  let m : Mem :=
    { dig := fun
        | .heap k => (ρ k).map fun _ => L k
        | .single (.var _) => some [0]
        | _ => none
      int := fun
        | .var n => match ρ n with
          | some v => some ⟨some ⟨.heap n, 0⟩, (L n).length, (L n).length, decide (v < 0)⟩
          | none => some ⟨none, 0, 0, false⟩
        | _ => none
      next := N, defPrec := 8, mulThr := 32 }
  have get : ∀ {z C}, s z = some C → ∃ n v, z = .var n ∧ ρ n = some v ∧ C = ⟨.heap n, L n, (L n).length, decide (v < 0)⟩ := by
    intro z C hC
    cases z with
    | var n =>
      simp only [s, Option.map_eq_some_iff] at hC
      obtain ⟨v, hv, rfl⟩ := hC
      exact ⟨n, v, rfl, hv, rfl⟩
    | tmp n => simp [s] at hC
    | fake n => simp [s] at hC
  refine ⟨m, R2.state ⟨s, ?_, ?_⟩⟩
  · refine
      { int := ?_, dig := ?_, kind := ?_, inj := ?_, sng := ?_, decl := ?_, owned := ?_,
        freshH := ?_, freshI := fun k _ => ⟨rfl, rfl⟩,
        freshS := fun k hk => rfl, okd := ?_, okl := ?_, prec := ⟨by norm_num [m], by norm_num [m]⟩, thr := by norm_num [m] }
    · intro z C hC
      obtain ⟨n, v, rfl, hv, rfl⟩ := get hC
      simp [m, hv, Cell.mpz]
    · intro z C hC
      obtain ⟨n, v, rfl, hv, rfl⟩ := get hC
      simp [m, hv]
    · intro z C hC
      obtain ⟨n, v, rfl, hv, rfl⟩ := get hC
      trivial
    · intro z z' C C' hC hC' hb
      obtain ⟨n, v, rfl, hv, rfl⟩ := get hC
      obtain ⟨n', v', rfl, hv', rfl⟩ := get hC'
      simpa using hb
    · intro z C hC
      obtain ⟨n, v, rfl, hv, rfl⟩ := get hC
      exact ⟨0, rfl⟩
    · intro n
      refine ⟨?_, 0, rfl⟩
      cases hv : ρ n with
      | none => exact ⟨⟨none, 0, 0, false⟩, by simp [m, hv]⟩
      | some v => exact ⟨⟨some ⟨.heap n, 0⟩, (L n).length, (L n).length, decide (v < 0)⟩, by simp [m, hv]⟩
    · intro k l hl
      simp only [m, Option.map_eq_some_iff] at hl
      obtain ⟨v, hv, _⟩ := hl
      exact ⟨.var k, ⟨.heap k, L k, (L k).length, decide (v < 0)⟩, by simp [s, hv], rfl⟩
    · intro k hk
      simp [m, hN k hk]
    · intro z C hC
      obtain ⟨n, v, rfl, hv, rfl⟩ := get hC
      exact (hL n v hv).1
    · intro z C hC
      obtain ⟨n, v, rfl, hv, rfl⟩ := get hC
      exact ⟨(hL n v hv).2.1, (hL n v hv).2.2.1⟩
  · intro z
    cases z with
    | var n =>
      cases hv : ρ n with
      | none => simp [s, hv, lift, GoodO]
      | some v =>
        obtain ⟨h1, h2, h3, h4, h5⟩ := hL n v hv
        have : s (.var n) = some ⟨.heap n, L n, (L n).length, decide (v < 0)⟩ := by simp [s, hv]
        rw [this, lift_var, hv]
        have hm : (⟨.heap n, L n, (L n).length, decide (v < 0)⟩ : Cell).mag = v.natAbs := by
          unfold Cell.mag
          simp only [List.take_length]; exact h4
        refine ⟨⟨h2, Nat.le_refl _, h5⟩, ?_, ?_⟩
        · rw [hm]; simp only [decide_eq_true_eq]; omega
        · rw [hm, sval]; simp only [decide_eq_true_eq]
          split <;> omega
    | tmp n => trivial
    | fake n => trivial

end Imath
