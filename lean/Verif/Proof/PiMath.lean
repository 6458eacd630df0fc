import Mathlib.Analysis.SpecialFunctions.Complex.Arctan
import Mathlib.Analysis.SpecificLimits.Normed
import Mathlib.Analysis.Real.Pi.Bounds
import Mathlib.Tactic.Ring
import Mathlib.Tactic.Linarith
import Mathlib.Tactic.Positivity

/-!
# The series of the arc tangent with truncated terms
-/

namespace Imath

open Finset

/-- The terms of the series for `M * arctan (1 / x)`, rounded towards zero. -/
def atanTerm (M x k : Nat) : Nat := M / ((2 * k + 1) * x ^ (2 * k + 1))

/-- Their alternating sums. -/
def atanSum (M x : Nat) : Nat → Int
  | 0 => 0
  | n + 1 => atanSum M x n + (-1) ^ n * (atanTerm M x n : Int)

/-- The terms themselves. -/
noncomputable def atanReal (M x k : Nat) : ℝ := (M : ℝ) / (((2 * k + 1 : Nat) : ℝ) * (x : ℝ) ^ (2 * k + 1))

variable {M x : Nat}

theorem atanTerm_le (hx : 0 < x) (k : Nat) : (atanTerm M x k : ℝ) ≤ atanReal M x k := by
  unfold atanTerm atanReal
  refine (Nat.cast_div_le).trans (le_of_eq ?_)
  push_cast; rfl

theorem atanTerm_gt (hx : 0 < x) (k : Nat) : atanReal M x k < atanTerm M x k + 1 := by
  unfold atanTerm atanReal
  have hd : 0 < (2 * k + 1) * x ^ (2 * k + 1) := by positivity
  have h := Nat.lt_div_mul_add (a := M) hd
  have h2 : (M : ℝ) < ((M / ((2 * k + 1) * x ^ (2 * k + 1)) : Nat) : ℝ) * (((2 * k + 1) * x ^ (2 * k + 1) : Nat) : ℝ)
      + (((2 * k + 1) * x ^ (2 * k + 1) : Nat) : ℝ) := by exact_mod_cast h
  have e : (((2 * k + 1 : Nat) : ℝ) * (x : ℝ) ^ (2 * k + 1)) = (((2 * k + 1) * x ^ (2 * k + 1) : Nat) : ℝ) := by push_cast; rfl
  rw [e, div_lt_iff₀ (by exact_mod_cast hd)]
  linarith

/-- The error of the partial sums. -/
theorem atanSum_partial (hx : 0 < x) (n : Nat) :
    -(((n + 1) / 2 : Nat) : ℝ) ≤ (atanSum M x n : ℝ) - ∑ k ∈ range n, (-1) ^ k * atanReal M x k ∧
    (atanSum M x n : ℝ) - ∑ k ∈ range n, (-1) ^ k * atanReal M x k ≤ ((n / 2 : Nat) : ℝ) := by
  induction n with
  | zero => simp [atanSum]
  | succ n ih =>
    rw [sum_range_succ, atanSum]
    have h1 := atanTerm_le (M := M) hx n
    have h2 := atanTerm_gt (M := M) hx n
    push_cast
    rcases Nat.even_or_odd n with hn | hn
    · rw [hn.neg_one_pow]
      obtain ⟨j, rfl⟩ := hn
      rw [show (j + j + 1) / 2 = j by omega] at *
      rw [show (j + j) / 2 = j by omega] at ih
      rw [show (j + j + 1 + 1) / 2 = j + 1 by omega]
      push_cast
      constructor <;> linarith [ih.1, ih.2]
    · rw [hn.neg_one_pow]
      obtain ⟨j, rfl⟩ := hn
      rw [show (2 * j + 1 + 1) / 2 = j + 1 by omega] at *
      rw [show (2 * j + 1) / 2 = j by omega] at ih
      rw [show (2 * j + 1 + 1 + 1) / 2 = j + 1 by omega]
      push_cast at *
      constructor <;> linarith [ih.1, ih.2]

theorem atanReal_antitone (hx : 1 ≤ x) : Antitone (atanReal M x) := by
  refine antitone_nat_of_succ_le fun k => ?_
  unfold atanReal
  have hx' : (1 : ℝ) ≤ x := by exact_mod_cast hx
  refine div_le_div_of_nonneg_left (by positivity) (by positivity) ?_
  refine mul_le_mul ?_ (pow_le_pow_right₀ hx' (by omega)) (by positivity) (by positivity)
  exact_mod_cast (by omega)

theorem atanReal_eq (k : Nat) :
    atanReal M x k = M * (((x : ℝ)⁻¹) ^ (2 * k + 1) / ((2 * k + 1 : Nat) : ℝ)) := by
  unfold atanReal
  rw [inv_pow, div_eq_mul_inv, mul_inv, div_eq_mul_inv]; ring

theorem atanReal_summable (hx : 2 ≤ x) : Summable (atanReal M x) := by
  have hx' : (2 : ℝ) ≤ x := by exact_mod_cast hx
  have hi : (x : ℝ)⁻¹ < 1 := inv_lt_one_of_one_lt₀ (by linarith)
  have hi0 : 0 ≤ (x : ℝ)⁻¹ := by positivity
  have hg : Summable fun k : Nat => (M : ℝ) * ((x : ℝ)⁻¹) ^ k := (summable_geometric_of_lt_one hi0 hi).mul_left _
  refine Summable.of_nonneg_of_le (fun k => by unfold atanReal; positivity) (fun k => ?_) hg
  rw [atanReal_eq]
  refine mul_le_mul_of_nonneg_left ?_ (by positivity)
  refine (div_le_self (by positivity) ?_).trans (pow_le_pow_of_le_one hi0 hi.le (by omega))
  exact_mod_cast (by omega)

theorem atanReal_tsum (hx : 2 ≤ x) : ∑' k, (-1 : ℝ) ^ k * atanReal M x k = M * Real.arctan (x : ℝ)⁻¹ := by
  have hx' : (2 : ℝ) ≤ x := by exact_mod_cast hx
  have hi : (x : ℝ)⁻¹ < 1 := inv_lt_one_of_one_lt₀ (by linarith)
  have hi0 : 0 ≤ (x : ℝ)⁻¹ := by positivity
  have h := (Real.hasSum_arctan (x := (x : ℝ)⁻¹) (by rw [Real.norm_of_nonneg hi0]; exact hi)).mul_left (M : ℝ)
  rw [← h.tsum_eq]
  congr 1
  funext k
  rw [atanReal_eq]
  ring

/-- The error of the sum of the truncated terms. -/
theorem atanSum_error (hx : 2 ≤ x) (n : Nat) (hn : M < x ^ (2 * n + 1)) :
    |(atanSum M x n : ℝ) - M * Real.arctan (x : ℝ)⁻¹| ≤ n / 2 + 3 / 2 := by
  have h1 := atanSum_partial (M := M) (x := x) (by omega) n
  have h2 := alternating_series_error_bound (atanReal M x) (atanReal_antitone (by omega)) (atanReal_summable hx) n
  rw [atanReal_tsum hx] at h2
  have h3 : atanReal M x n ≤ 1 := by
    have hx' : (2 : ℝ) ≤ x := by exact_mod_cast hx
    unfold atanReal
    rw [div_le_one (by positivity)]
    have : (M : ℝ) < (x : ℝ) ^ (2 * n + 1) := by exact_mod_cast hn
    have h4 : (1 : ℝ) ≤ ((2 * n + 1 : Nat) : ℝ) := by exact_mod_cast (by omega)
    have h5 : (0 : ℝ) < (x : ℝ) ^ (2 * n + 1) := by positivity
    nlinarith
  have h6 : ((n / 2 : Nat) : ℝ) ≤ n / 2 := by exact_mod_cast Nat.cast_div_le (α := ℝ)
  have h7 : (((n + 1) / 2 : Nat) : ℝ) ≤ (n + 1) / 2 := by
    refine (Nat.cast_div_le (α := ℝ)).trans ?_
    push_cast; rfl
  rw [abs_le] at *
  constructor <;> linarith [h1.1, h1.2, h2.1, h2.2]

/-- Terms that vanish do not matter. -/
theorem atanSum_stop {n : Nat} (hx : 2 ≤ x) (hn : M < x ^ (2 * n + 1)) : ∀ k, atanSum M x (n + k) = atanSum M x n := by
  intro k
  induction k with
  | zero => rfl
  | succ k ih =>
    rw [← Nat.add_assoc, atanSum, ih]
    have : atanTerm M x (n + k) = 0 := by
      unfold atanTerm
      refine Nat.div_eq_of_lt (lt_of_lt_of_le hn ?_)
      have h1 : x ^ (2 * n + 1) ≤ x ^ (2 * (n + k) + 1) := Nat.pow_le_pow_right (by omega) (by omega)
      nlinarith [Nat.zero_le (2 * (n + k) * x ^ (2 * (n + k) + 1))]
    rw [this]; simp

theorem tdiv_error (s : Int) {r : Nat} (hr : 0 < r) : |((s.tdiv r : Int) : ℝ) - s / r| < 1 := by
  have h1 : s = r * s.tdiv r + s.tmod r := (Int.mul_tdiv_add_tmod s r).symm
  have h2 : |s.tmod r| < r := by
    have := Int.tmod_lt_of_pos s (b := (r : Int)) (by omega)
    rw [abs_lt]
    refine ⟨?_, this⟩
    rcases le_total 0 s with h0 | h0
    · have := Int.tmod_nonneg r h0; omega
    · have := Int.tmod_lt_of_pos (-s) (b := (r : Int)) (by omega)
      rw [Int.neg_tmod] at this; omega
  have hr' : (0 : ℝ) < r := by exact_mod_cast hr
  have h3 : (s : ℝ) = r * (s.tdiv r : Int) + (s.tmod r : Int) := by exact_mod_cast h1
  have h4 : |((s.tmod r : Int) : ℝ)| < r := by exact_mod_cast h2
  have e : ((s.tdiv r : Int) : ℝ) - s / r = -((s.tmod r : Int) : ℝ) / r := by
    rw [h3]; field_simp; ring
  rw [e, abs_div, abs_neg, abs_of_pos hr', div_lt_one hr']
  exact h4

end Imath
