import Verif.Proof.RatToDec
import Verif.Proof.Alloc2

/-! # Unknown rounding modes: the temporaries are not cleared -/

namespace Imath

variable {env : Env} {E : Fault → Prop} {m : Mem} {σ σ' : Id → Option Int} {ρ : Nat → Option Int} {r : Nat} {a : MpQ} {v x : Int}

/-- The variables of the program still have their values. -/
def Kept (m : Mem) (ρ : Nat → Option Int) : Prop := ∀ n v, ρ n = some v → Holds m (.var n) v ∧
  ∀ Z p, m.int (.var n) = some Z → Z.digits = some p → p.base = .single (.var n) ∨ ∃ k, p.base = .heap k

theorem R2.kept (h : R2 m σ) (hσ : ∀ n v, ρ n = some v → σ (.var n) = some v) : Kept m ρ := by
  intro n v hv
  refine ⟨h.holds (hσ n v hv), fun Z p hZ hp => ?_⟩
  obtain ⟨s, hr, hg⟩ := h
  obtain ⟨C, hC, gC⟩ := hg.get (hσ n v hv)
  rw [hr.int hC] at hZ; cases hZ
  simp only [Cell.mpz, Option.some.injEq] at hp
  rw [← hp]
  exact okBase_own (z := .var n) rfl (hr.kind hC)

theorem Kept.drop {t : Id} (h : Kept m ρ) (ht : ∀ n, t ≠ .var n) : Kept ((m.setInt t none).setDig (.single t) none) ρ := by
  intro n v hv
  obtain ⟨⟨Z, p, l, h1, h2, h3, h4, h5⟩, hb⟩ := h n v hv
  have e : ((m.setInt t none).setDig (.single t) none).int (.var n) = m.int (.var n) := by
    simp [Mem.setInt, Mem.setDig, (ht n).symm]
  have hne : p.base ≠ .single t := by
    rcases hb Z p h1 h2 with h | ⟨k, h⟩
    · rw [h]; simp [(ht n).symm]
    · rw [h]; simp
  refine ⟨⟨Z, p, l, by rw [e, h1], h2, h3, ?_, h5⟩, fun Z p hZ hp => ?_⟩
  · simp [Mem.setInt, Mem.setDig, hne, h4]
  · rw [e] at hZ; exact hb Z p hZ hp

theorem withLocalL_leak {α : Type} {ini : Id → M Int} {err : Int → α} {k : Id → M (α × Bool)} {Q : α × Bool → Mem → Prop}
    {n : Nat} {T : Nat → Id} {V : Nat → Int} (h : R2 m σ') (g : Tmps σ n T V σ')
    (hi : ∀ t m1 {P : Int → Mem → Prop}, R2 m1 σ' → Decl m1 t → σ' t = none → t.own = true →
      (∀ m', R2 m' (upd σ' t (some v)) → P MP_OK m') → wp env E (ini t) P m1)
    (hk : ∀ t m1, Tmps σ (n + 1) (nset T n t) (nset V n v) (upd σ' t (some v)) → R2 m1 (upd σ' t (some v)) →
      wp env E (k t) (fun r m'' => r.2 = true ∧ Kept m'' ρ ∧ ∀ m3, Kept m3 ρ → Q r m3) m1) :
    wp env E (withLocalL ini err k) (fun r m'' => r.2 = true ∧ Kept m'' ρ ∧ ∀ m3, Kept m3 ρ → Q r m3) m := by
  obtain ⟨s, hr, hs⟩ := h
  unfold withLocalL
  refine wp_bind (declInt_tmp_rep hr fun t m1 hst ho hd h1 hv => ?_)
  have ht : σ' t = none := hs.none_iff.1 hst
  refine wp_bind (hi t m1 ⟨s, h1, hs⟩ hd ht ho fun m2 h2 => wp_if_neg (by simp) ?_)
  refine wp_bind (wp_mono (hk t m2 (g.push ht ho v) h2) ?_)
  rintro r m3 ⟨hf, hK, hQ⟩
  simp only [cwhen, hf, Bool.true_eq_false, if_false]
  exact ⟨hf, hK.drop hv, hQ⟩

theorem mp_rat_to_decimal_bad {Q : Int × Bytes → Mem → Prop} {prec round : Nat} {D : Nat} (hE : Ref env E) (hr : r < 2 ^ 32)
    (hm : 4 ≤ round) (hp : prec < 4294967296) (h : R2 m σ) (hD : 0 < D) (hnum : σ a.num = some x) (hden : σ a.den = some (D : Int))
    (hσ : ∀ n v, ρ n = some v → σ (.var n) = some v) (hQ : ∀ m', Kept m' ρ → Q (MP_BADARG, str) m') :
    wp env E (mp_rat_to_decimal a r prec round str limit) Q m := by
  unfold mp_rat_to_decimal
  refine wp_bind (wp_mono (withLocalL_leak (ρ := ρ) (Q := fun o m' => wp env E (pure o.1) Q m') (v := x) h (Tmps.nil σ (fun _ => .tmp 0) fun _ => 0)
    (fun t m1 P h1 hd' hn ho hP => mp_int_init_copy_spec hE h1 hd' hn hnum hP) fun t m1 g h1 => ?_) fun _ _ h => h.2.2 _ h.2.1)
  refine withLocalL_leak (v := 0) h1 g (fun t m1 P h1 hd' hn ho hP => mp_int_init_spec h1 hd' hn hP) fun t' m2 g2 h2 => ?_
  refine withLocalL_leak (v := 0) h2 g2 (fun t m1 P h1 hd' hn ho hP => mp_int_init_spec h1 hd' hn hP) fun t'' m3 g3 h3 => ?_
  have g3 : Tmps σ 3 (nset (nset (nset (fun _ => .tmp 0) 0 t) 1 t') 2 t'') (L [x, 0, 0]) _ :=
    g3.congr (fun _ _ => rfl) fun i hi => by
      rcases show i = 0 ∨ i = 1 ∨ i = 2 by omega with rfl | rfl | rfl <;> rfl
  have e0 : nset (nset (nset (fun _ => Id.tmp 0) 0 t) 1 t') 2 t'' 0 = t := rfl
  have e1 : nset (nset (nset (fun _ => Id.tmp 0) 0 t) 1 t') 2 t'' 1 = t' := rfl
  have e2 : nset (nset (nset (fun _ => Id.tmp 0) 0 t) 1 t') 2 t'' 2 = t'' := rfl
  generalize hT : nset (nset (nset (fun _ => Id.tmp 0) 0 t) 1 t') 2 t'' = T at *
  subst e0 e1 e2
  dsimp only
  rw [decDigits_toInt32 hp]
  refine wp_bind (decDigits_spec hE hr hD (by split <;> omega) hden g3 h3 fun m4 σ4 j hj j2 j3 g4 h4 => ?_)
  refine wp_if_neg (by simp) (wp_bind ?_)
  unfold decRound MP_ROUND_UP MP_ROUND_HALF_UP MP_ROUND_HALF_DOWN MP_ROUND_DOWN
  refine wp_if_neg (by omega) (wp_if_neg (by omega) (wp_if_neg (by omega) (wp_pure ?_)))
  refine wp_if_pos (by simp [MP_BADARG, MP_OK]) (wp_pure ⟨rfl, h4.kept fun n v hv => g4.out (hσ n v hv), fun m5 h5 => wp_pure (hQ m5 h5)⟩)

end Imath
