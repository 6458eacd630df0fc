import Verif.Proof.Pi
import Verif.Proof.Overrun
import Verif.Proof.RatToDec
import Verif.Proof.Bridge
import Verif.Props.Prime
import Verif.Concrete

/-!
# Properties C51 and C52: `examples/pi.c`

The results are compared with the real numbers `Real.arctan` and `Real.pi` of Mathlib.
-/

namespace Imath

variable {env : Env} {m : Mem} {ρ : Nat → Option Int} {a : Nat} {w : Int}

/-! ### C51 -/

/-- `arctan` stores a value that differs from `mul * radix^prec * arctan(1/x)` by less than one unit and
half a unit of the guard digit per term of the series.  `K` is any number of terms after which the rest
of the series is smaller than a unit of the guard digit.  Nothing else changes. -/
theorem C51_arctan_error {r mul x p : Nat} (h : State m ρ) (ha : ρ a = some w) (hr : 0 < r ∧ r < 2 ^ 63) (hm : mul < 2 ^ 63)
    (hx : 2 ≤ x) (hx2 : x * x < 2 ^ 63) (hp : p + 1 < 2 ^ 32) :
    Runs env (arctan r mul x p (.var a)) m fun res m' => res = MP_OK ∧ ∃ v : Int, State m' (put ρ a v) ∧
      ∀ K : Nat, mul * r ^ (p + 1) < x ^ (2 * K + 1) →
        |(v : ℝ) - mul * r ^ p * Real.arctan (x : ℝ)⁻¹| < 1 + (K + 3) / (2 * r) :=
  .of_wp (arctan_spec (ref_refused env) hr.1 (by omega) (by omega) hx
    (by have : ((x * x : Nat) : Int) < 2 ^ 63 := by exact_mod_cast hx2
        push_cast at this; omega)
    hp h.r2 (show lift ρ (.var a) = some w from ha) rfl fun v m' hv h' => by
      rw [upd_lift] at h'
      refine ⟨rfl, v, h'.state, fun K hK => ?_⟩
      rw [hv K hK]
      exact arctan_error hr.1 hx hK)

/-- Five decimal digits of 16 arctan(1/5) = 3.158328957…: `K = 5` terms are enough. -/
example : ∃ m, State m (only 7) ∧ Runs env (arctan 10 16 5 5 (.var 0)) m fun res m' => res = MP_OK ∧ ∃ v : Int,
    State m' (put (only 7) 0 v) ∧ |(v : ℝ) - 16 * 10 ^ 5 * Real.arctan (5 : ℝ)⁻¹| < 1 + 8 / 20 := by
  obtain ⟨m, h⟩ := only_state (v := 7) (by norm_num)
  refine ⟨m, h, (C51_arctan_error (r := 10) (mul := 16) (x := 5) (p := 5) h rfl (by norm_num) (by norm_num) (by norm_num) (by norm_num)
    (by norm_num)).mono fun res m' ⟨h1, v, h2, h3⟩ => ⟨h1, v, h2, ?_⟩⟩
  have := h3 5 (by norm_num)
  push_cast at this
  convert this using 2; norm_num

/-! ### C52 -/

/-- For the radices 4 to 36 the program stores in its buffer the numeral, with one digit before the point
and `n` digits after it, of a number that differs from `π` by less than `2 + (3 n + 8) / (2 r)` units in
the last place; it returns 0 and leaves nothing behind. -/
theorem C52_pi {r n : Nat} {buf : Bytes} (h : State m ρ) (hr : 4 ≤ r ∧ r ≤ 36) (hn : 1 ≤ n) (hn2 : n < 2 ^ 31 - 2)
    (hb : buf.length = n + 2) :
    Runs env (piMain n r buf) m fun res m' => State m' ρ ∧ res.1 = 0 ∧ ∃ v : Int, res.2 = numeral r v ++ [0] ∧
      (numeral r v).length = n + 1 ∧ |(v : ℝ) - r ^ n * Real.pi| < 2 + (3 * n + 8) / (2 * r) := by
  refine .of_wp ?_
  unfold piMain
  refine piSum_spec (ref_refused env) (by omega) (by omega) (by omega) h.r2 fun v T σ' w' m1 hv g h1 => ?_
  obtain ⟨hK1, hK2⟩ := pi_terms (n := n) hr.2
  have hv := hv _ _ hK1 hK2
  have he := pi_error (by omega) hK1 hK2
  rw [← hv] at he
  have he : |(v : ℝ) - r ^ n * Real.pi| < 2 + (3 * n + 8) / (2 * r) := by
    have e : ((2 * n + 2 : Nat) : ℝ) + n + 6 = 3 * n + 8 := by push_cast; ring
    rwa [e] at he
  obtain ⟨hd1, hd2⟩ := pi_digits hr.1 hn he
  have hv0 : 0 ≤ v := le_trans (by positivity) hd1
  obtain ⟨N, rfl⟩ := Int.eq_ofNat_of_zero_le hv0
  have hlen : (numeral r (N : Int)).length = n + 1 := by
    rw [numeral_nat, numeralN_fixed (by omega) n (by exact_mod_cast hd2) (.inr (by exact_mod_cast hd1)), fixed_len]
  refine wp_bind (mp_int_to_string_spec (ref_refused env) (by omega) hr.2 (by omega) (by tsimp; rw [hlen]; omega) h1 (g.get 0)
    (fun m2 h2 hlt => ?_) fun m2 B h2 hge => ?_)
  · refine wp_pure (.mk g h2 fun m3 h3 => ⟨h3.state, rfl, N, ?_, hlen, he⟩)
    show numeral r (N : Int) ++ 0 :: buf.drop ((numeral r (N : Int)).length + 1) = _
    rw [hlen, List.drop_of_length_le (by omega)]
  · tsimp at hge
    rw [hlen] at hge; omega

/-- Twenty digits. -/
example : ∃ m, State m (only 7) ∧ Runs env (piMain 20 10 (List.replicate 22 1)) m fun res m' =>
    State m' (only 7) ∧ res.1 = 0 ∧ ∃ v : Int, res.2 = numeral 10 v ++ [0] ∧
      (numeral 10 v).length = 21 ∧ |(v : ℝ) - 10 ^ 20 * Real.pi| < 2 + (3 * 20 + 8) / (2 * 10) := by
  obtain ⟨m, h⟩ := only_state (v := 7) (by norm_num)
  refine ⟨m, h, ?_⟩
  have := C52_pi (env := env) (r := 10) (n := 20) (buf := List.replicate 22 1) h (by norm_num) (by norm_num) (by norm_num) (by simp)
  exact_mod_cast this

/-- The digits that are printed are not those of `π`: asked for eleven digits, the program prints
3.14159265360, while `π` is between 3.14159265358 and 3.14159265359.  So "computes digits of pi"
(pi.c:3) and "to prec digits of precision" (pi.c:121) hold only up to the error bounded in `C52_pi`. -/
theorem C52_not_digits :
    outcome (piMain 11 10 (List.replicate 13 1)) [] = some ((0, [51, 49, 52, 49, 53, 57, 50, 54, 53, 51, 54, 48, 0]), []) ∧
    (314159265358 : ℝ) < 10 ^ 11 * Real.pi ∧ 10 ^ 11 * Real.pi < 314159265359 := by
  refine ⟨by decide +kernel, ?_, ?_⟩
  · have := Real.pi_gt_d20; norm_num at this ⊢; linarith
  · have := Real.pi_lt_d20; norm_num at this ⊢; linarith

/-- With the radices 2 and 3, which are allowed, the number has two digits before the point: it does not
fit into the buffer, and `mp_int_to_string` writes behind its end, for every number of digits. -/
theorem C52_overrun {r n : Nat} {buf : Bytes} (h : State m ρ) (hr : r = 2 ∨ r = 3) (hn : n < 2 ^ 31 - 2) (hb : buf.length = n + 2) :
    FaultsOr env (piMain n r buf) m .ub := by
  refine .of_wp ?_
  unfold piMain
  refine piSum_spec (ref_or env _) (by omega) (by omega) (by omega) h.r2 fun v T σ' w' m1 hv g h1 => ?_
  obtain ⟨hK1, hK2⟩ := pi_terms (r := r) (n := n) (by omega)
  have hv := hv _ _ hK1 hK2
  have he := pi_error (by omega) hK1 hK2
  rw [← hv] at he
  have he : |(v : ℝ) - r ^ n * Real.pi| < 2 + (3 * n + 8) / (2 * r) := by
    have e : ((2 * n + 2 : Nat) : ℝ) + n + 6 = 3 * n + 8 := by push_cast; ring
    rwa [e] at he
  have hd := pi_digits23 hr hv he
  have hv0 : 0 ≤ v := le_trans (by positivity) hd
  obtain ⟨N, rfl⟩ := Int.eq_ofNat_of_zero_le hv0
  have hlen : n + 2 ≤ (numeral r (N : Int)).length := by
    have hN : r ^ (n + 1) ≤ N := by exact_mod_cast hd
    have hN0 : N ≠ 0 := by
      have : 0 < r ^ (n + 1) := Nat.pow_pos (by omega)
      omega
    rw [numeral_nat]
    unfold numeralN
    rw [if_neg hN0, List.length_reverse, List.length_map]
    have := (Nat.lt_digits_length_iff (show 1 < r by omega) N (k := n + 1)).2 hN
    omega
  exact wp_bind (mp_int_to_string_fault (ref_or env _) (.inl rfl) (by omega) (by omega) (by omega) (by tsimp; omega) h1 (g.get 0))
example : ∃ m, State m (only 7) ∧ FaultsOr env (piMain 1000 3 (List.replicate 1002 1)) m .ub :=
  let ⟨m, h⟩ := only_state (v := 7) (by norm_num)
  ⟨m, h, C52_overrun h (.inr rfl) (by norm_num) (by rw [List.length_replicate])⟩

/-- Concrete cases. -/
theorem C52_overrun_witness :
    faultOf (piMain 5 2 (List.replicate 7 1)) [] = some .ub ∧ faultOf (piMain 5 3 (List.replicate 7 1)) [] = some .ub ∧
    faultOf (piMain 40 2 (List.replicate 42 1)) [] = some .ub := by
  refine ⟨?_, ?_, ?_⟩ <;> decide +kernel

end Imath
