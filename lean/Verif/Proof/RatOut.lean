import Verif.Proof.History
import Verif.Proof.RatStr
import Verif.Proof.RatOps
import Verif.Proof.Calc2

/-! # The lengths of the texts of a rational, and its parts as machine integers -/

namespace Imath

variable {env : Env} {E : Fault → Prop} {m : Mem} {σ : Id → Option Int} {a : MpQ} {p : ℚ} {r : Nat}

theorem wp_both {α : Type} {x : M α} {P Q : α → Mem → Prop} (h1 : wp env E x P m) (h2 : wp env E x Q m) :
    wp env E x (fun a m' => P a m' ∧ Q a m') m := by
  unfold wp at *
  cases hx : x env m with
  | ok a m' => rw [hx] at h1 h2; exact ⟨h1, h2⟩
  | fault e => rw [hx] at h1; exact h1

theorem wp_weaken {α : Type} {x : M α} {P Q : α → Mem → Prop} (h1 : wp env E x P m) (h2 : ∀ a m', P a m' → Q a m') : wp env E x Q m := by
  unfold wp at *
  cases hx : x env m with
  | ok a m' => rw [hx] at h1; exact h2 _ _ h1
  | fault e => rw [hx] at h1; exact h1

theorem mp_int_string_len_both {z : Id} {v : Int} {Q : Int → Mem → Prop} (hr : 2 ≤ r ∧ r ≤ 36) (h : R2 m σ) (hz : σ z = some v)
    (hQ : ((numeral r v).length : Int) ≤ strLen env.fl r v → (strLen env.fl r v ≤ Nat.size v.natAbs + 2 ∨ strLen env.fl r v ≤ 3) →
      Q (strLen env.fl r v) m) : wp env E (mp_int_string_len z r) Q m := by
  refine wp_weaken (wp_both
    (mp_int_string_len_exact (Q := fun o m' => o = strLen env.fl r v) hr.1 hr.2 h hz rfl)
    (mp_int_string_len_spec2 (Q := fun o m' => m' = m ∧ ((numeral r v).length : Int) ≤ o ∧ (o ≤ Nat.size v.natAbs + 2 ∨ o ≤ 3)) hr.1 hr.2 h hz
      fun o h1 _ _ h4 => ⟨rfl, h1, h4⟩)) fun o m' ⟨e, e2, h1, h2⟩ => ?_
  subst e e2
  exact hQ h1 h2

/-- What `mp_rat_string_len` returns, given how `double` arithmetic rounds. -/
def ratStrLen (fl : Rat → Rat) (r : Nat) (p : ℚ) : Int := strLen fl r p.num + if p = 0 then 0 else strLen fl r p.den

/-- What `mp_rat_decimal_len` returns. -/
def ratDecLen (fl : Rat → Rat) (r prec : Nat) (p : ℚ) : Int := strLen fl r p.num + if prec = 0 then 1 else (prec : Int) + 2

theorem mp_rat_string_len_exact {Q : Int → Mem → Prop} (hr : 2 ≤ r ∧ r ≤ 36) (h : R2 m σ) (ha : HasQ2 σ a p)
    (hs : Nat.size p.num.natAbs + Nat.size p.den ≤ 2147483643)
    (hQ : ((numeral r p.num).length : Int) + (if p = 0 then 0 else (numeral r p.den).length) ≤ ratStrLen env.fl r p →
      ratStrLen env.fl r p ≤ Nat.size p.num.natAbs + Nat.size p.den + 4 → Q (ratStrLen env.fl r p) m) :
    wp env E (mp_rat_string_len a r) Q m := by
  have s2 : 0 < Nat.size p.den := Nat.size_pos.2 p.den_pos
  unfold mp_rat_string_len
  refine wp_bind (mp_int_string_len_both hr h ha.1 fun n1 n2 => ?_)
  refine wp_bind (mp_int_compare_zero_spec h ha.1 ?_)
  refine wp_bind (wp_cif (fun hk => ?_) fun hk => ?_)
  · have hp : p ≠ 0 := by rintro rfl; exact hk rfl
    refine mp_int_string_len_both hr h ha.2 fun d1 d2 => ?_
    rw [Int.natAbs_natCast] at d2
    have s1 : 0 < Nat.size p.num.natAbs := Nat.size_pos.2 (by have := Rat.num_ne_zero.2 hp; omega)
    unfold ratStrLen at hQ
    rw [if_neg hp, if_neg hp] at hQ
    exact wp_cint (by omega) (by omega) (hQ (by omega) (by omega))
  · have hp : p = 0 := by
      have : ¬ p.num.sign ≠ 0 := hk
      simpa using this
    unfold ratStrLen at hQ
    rw [if_pos hp, if_pos hp] at hQ
    exact wp_pure (wp_cint (by omega) (by omega) (hQ (by omega) (by omega)))

theorem mp_rat_decimal_len_exact {prec : Nat} {Q : Int → Mem → Prop} (hr : 2 ≤ r ∧ r ≤ 36) (h : R2 m σ) (ha : HasQ2 σ a p)
    (hs : Nat.size p.num.natAbs + prec ≤ 2147483642)
    (hQ : ((numeral r p.num).length : Int) + (if prec = 0 then 1 else (prec : Int) + 2) ≤ ratDecLen env.fl r prec p →
      ratDecLen env.fl r prec p ≤ Nat.size p.num.natAbs + prec + 5 → Q (ratDecLen env.fl r prec p) m) :
    wp env E (mp_rat_decimal_len a r prec) Q m := by
  unfold mp_rat_decimal_len
  refine wp_bind (mp_int_string_len_both hr h ha.1 fun n1 n2 => ?_)
  have e : (if prec = 0 then 1 else toInt32 (1 + prec + 1) : Int) = if prec = 0 then 1 else (prec : Int) + 2 := by
    split
    · rfl
    · unfold toInt32 u32
      rw [Nat.mod_eq_of_lt (by omega), if_pos (by omega)]; push_cast; ring
  show wp env _ (cint (strLen env.fl r p.num + if prec = 0 then 1 else toInt32 (1 + prec + 1))) _ m
  rw [e]
  unfold ratDecLen at hQ
  by_cases h0 : prec = 0
  · rw [if_pos h0] at hQ ⊢; exact wp_cint (by omega) (by omega) (hQ (by omega) (by omega))
  · rw [if_neg h0] at hQ ⊢; exact wp_cint (by omega) (by omega) (hQ (by omega) (by omega))

theorem len_radix {prec : Nat} (hr : r < 2 ∨ 36 < r) :
    FaultsOr env (mp_rat_string_len a r) m .assert ∧ FaultsOr env (mp_rat_decimal_len a r prec) m .assert := by
  have : Faults env (mp_int_string_len a.num r) m .assert := by
    refine Faults.bind ?_
    unfold Faults cassert
    rw [decide_eq_false (by omega)]
    rfl
  exact ⟨.inl (Faults.bind this), .inl (Faults.bind this)⟩

end Imath
