import Verif.Proof.Bridge
import Verif.Proof.ConvBin2

/-! # Facts about strings needed for the properties of the conversions -/

namespace Imath

variable {env : Env} {m : Mem} {r : Nat}

theorem not_isDigit_zero {d : Nat} : ¬ IsDigit r 0 d := by
  unfold IsDigit digitChar
  split <;> omega

theorem split_digits (r : Nat) : ∀ l : Bytes, 0 ∈ l → ∃ ds vs c rest, l = ds ++ c :: rest ∧ List.Forall₂ (IsDigit r) ds vs ∧
    (∀ d, ¬ IsDigit r c d) ∧ 0 ∈ c :: rest := by
  intro l
  induction l with
  | nil => intro h; simp at h
  | cons x l ih =>
    intro h
    by_cases hx : ∃ d, IsDigit r x d
    · obtain ⟨d, hd⟩ := hx
      have hx0 : (0 : Nat) ≠ x := by rintro rfl; exact not_isDigit_zero hd
      obtain ⟨ds, vs, c, rest, e, h1, h2, h3⟩ := ih ((List.mem_cons.1 h).resolve_left hx0)
      exact ⟨x :: ds, d :: vs, c, rest, by rw [e]; rfl, .cons hd h1, h2, h3⟩
    · exact ⟨[], [], x, l, rfl, .nil, fun d hd => hx ⟨d, hd⟩, h⟩

theorem split_space : ∀ l : Bytes, 0 ∈ l → ∃ w t, l = w ++ t ∧ (∀ x ∈ w, IsSpace x) ∧ 0 ∈ t ∧ ∀ x t', t = x :: t' → ¬ IsSpace x := by
  intro l
  induction l with
  | nil => intro h; simp at h
  | cons x l ih =>
    intro h
    by_cases hx : IsSpace x
    · have hx0 : (0 : Nat) ≠ x := by rintro rfl; unfold IsSpace at hx; omega
      obtain ⟨w, t, e, h1, h2, h3⟩ := ih ((List.mem_cons.1 h).resolve_left hx0)
      refine ⟨x :: w, t, by rw [e]; rfl, ?_, h2, h3⟩
      intro y hy
      rcases List.mem_cons.1 hy with rfl | hy
      · exact hx
      · exact h1 y hy
    · exact ⟨[], x :: l, rfl, by simp, h, fun y t' e => by cases e; exact hx⟩

/-- Every string can be taken apart in the way `C31_read_cstring_partial` requires. -/
theorem split_string (r : Nat) (str : Bytes) (h : 0 ∈ str) : ∃ w sg ds vs c rest, str = w ++ sg ++ ds ++ c :: rest ∧
    (∀ x ∈ w, IsSpace x) ∧ (sg = [] ∨ sg = [43] ∨ sg = [45]) ∧ List.Forall₂ (IsDigit r) ds vs ∧ (∀ d, ¬ IsDigit r c d) ∧
    (sg = [] → ds = [] → ¬ IsSpace c ∧ c ≠ 43 ∧ c ≠ 45) ∧ 0 ∈ c :: rest := by
  obtain ⟨w, t, e, hw, ht, hs⟩ := split_space str h
  obtain ⟨x, t', rfl⟩ : ∃ x t', t = x :: t' := List.exists_cons_of_ne_nil (by rintro rfl; simp at ht)
  by_cases hx : x = 43 ∨ x = 45
  · obtain ⟨ds, vs, c, rest, e', h1, h2, h3⟩ := split_digits r t' ((List.mem_cons.1 ht).resolve_left (by omega))
    refine ⟨w, [x], ds, vs, c, rest, by rw [e, e']; simp, hw, ?_, h1, h2, by simp, h3⟩
    rcases hx with rfl | rfl <;> simp
  · obtain ⟨ds, vs, c, rest, e', h1, h2, h3⟩ := split_digits r (x :: t') ht
    refine ⟨w, [], ds, vs, c, rest, by rw [e, e']; simp, hw, by simp, h1, h2, fun _ hd => ?_, h3⟩
    subst hd
    simp only [List.nil_append, List.cons.injEq] at e'
    rw [← e'.1]
    exact ⟨hs x t' rfl, fun h => hx (.inl h), fun h => hx (.inr h)⟩

theorem numeralN_digits (hr : 2 ≤ r) (n : Nat) : ∃ vs, List.Forall₂ (IsDigit r) (numeralN r n) vs ∧ Nat.ofDigits r vs.reverse = n := by
  unfold numeralN
  split
  · next h => exact ⟨[0], .cons ⟨by omega, .inl rfl⟩ .nil, by simp [h]⟩
  · refine ⟨(Nat.digits r n).reverse, ?_, by rw [List.reverse_reverse]; exact Nat.ofDigits_digits r n⟩
    rw [List.forall₂_reverse_iff, List.forall₂_map_left_iff, List.forall₂_same]
    intro d hd
    exact ⟨Nat.digits_lt_base (by omega) hd, .inl rfl⟩

theorem numeralN_len (hr2 : 2 ≤ r) (hr : r ≤ 36) {n : Nat} (h : Nat.size n ≤ 2147483584) :
    (numeralN r n).length * 1000000000 ≤ 4294967294 * s_log2.getD r 0 := by
  obtain ⟨-, hl1, hl2⟩ := s_log2_range r (by omega) hr2
  by_cases h0 : n = 0
  · rw [h0]; simp only [numeralN, if_true, List.length_singleton]; omega
  · have c2 := outlen_ok1 hr2 h0 (Nat.lt_size_self n) (by omega) (lenCert1_ok r (by omega) hr2)
    have : (numeralN r n).length = (Nat.digits r n).length := by unfold numeralN; rw [if_neg h0]; simp
    rw [this]
    generalize (Nat.digits r n).length = N at *
    generalize s_log2.getD r 0 = l at *
    generalize Nat.size n = b at *
    have := Nat.mul_le_mul_right l h
    generalize b * l = X at *
    omega

/-- A part of a program that is known to go well runs, and the rest follows. -/
theorem faults_bind {α β : Type} {f : M α} {k : α → M β} {Q : α → Mem → Prop} {e : Fault}
    (h : wp env (fun _ => False) f Q m) (hk : ∀ a m', Q a m' → Faults env (k a) m' e) : Faults env (f >>= k) m e := by
  unfold wp at h
  show M.bind f k env m = _
  unfold M.bind
  split at h
  · next a m' he => rw [he]; exact hk a m' h
  · exact h.elim

theorem Faults.bind {α β : Type} {f : M α} {k : α → M β} {e : Fault} (h : Faults env f m e) : Faults env (f >>= k) m e := by
  show M.bind f k env m = _
  unfold Faults at h
  unfold M.bind
  rw [h]

end Imath
