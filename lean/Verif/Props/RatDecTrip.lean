import Verif.Props.RatDecimal
import Verif.Props.RatLen
import Verif.Props.Read
import Verif.Proof.RatDomain

/-!
# C79: positional notation is read back

What `mp_rat_to_decimal` writes and `mp_rat_read_decimal` reads again is the value rounded to the number of places, so
that nothing is lost if there are places enough.
-/

namespace Imath

variable {m : Mem} {env : Env} {ρ : Nat → Option Int} {a c : RVar} {p : ℚ} {r prec mode : Nat} {str : Bytes} {limit : Int}

/-- `p` rounded to `prec` places in radix `r`. -/
def rounded (r prec mode : Nat) (p : ℚ) : ℚ := (if p < 0 then -1 else 1) * (roundQ mode (|p| * r ^ prec) / (r : ℚ) ^ prec)

/-- The value that is read back is the one that was written, rounded.

Full statement: for every rational.  Missing: rationals for which rounding carries into another digit position, for which it is false
(`C79_carry_exact` and `C79_carry_off` say by how much), and texts of more than 800000000 characters. -/
theorem C79_round_trip_partial (h : State m ρ) (ha : HasQ ρ a p) (hc : ReadyQ ρ c) (hr : 2 ≤ r ∧ r ≤ 36) (hm : mode ≤ 3) (hp : prec < 2 ^ 31 - 1)
    (hcar : ¬ Carries r prec (roundQ 0 (|p| * r ^ prec)) (roundQ mode (|p| * r ^ prec)))
    (hfit : (decText r prec (p < 0) (roundQ mode (|p| * r ^ prec))).length + (if prec = 0 then 1 else 2) ≤ limit)
    (hbuf : (decText r prec (p < 0) (roundQ mode (|p| * r ^ prec))).length + 1 ≤ str.length)
    (hlen : (decText r prec (p < 0) (roundQ mode (|p| * r ^ prec))).length ≤ 800000000) :
    Runs env (do
      let s ← mp_rat_to_decimal a.p r prec mode str limit
      mp_rat_read_decimal c.p r s.2) m fun res m' => res = MP_OK ∧ State m' (putQ ρ c (rounded r prec mode p)) := by
  refine .of_wp (wp_bind (mp_rat_to_decimal_spec (ref_refused env) hr.1 hr.2 hm (by omega) h.r2 ha.l hcar hfit hbuf fun m1 h1 => ?_))
  generalize str.drop _ = rest
  have h0 : 0 ∈ (decText r prec (p < 0) (roundQ mode (|p| * r ^ prec)) ++ 0 :: rest).take 800000001 := by
    rw [List.take_append, List.mem_append]
    refine .inr ?_
    generalize (decText r prec (p < 0) (roundQ mode (|p| * r ^ prec))).length = l at *
    rw [show 800000001 - l = (800000000 - l) + 1 by omega]
    simp
  have e := C58_reader_decimal hr prec (roundQ mode (|p| * r ^ prec)) (p < 0) rest (q := rounded r prec mode p) rfl
  refine wp_bind (mp_rat_read_cdecimal_total (ref_refused env) hr.1 hr.2 h0 h1 hc.l fun m' h' => wp_pure ⟨by rw [e], ?_⟩)
  rw [show c.p.num = .var c.num from rfl, show c.p.den = .var c.den from rfl, upd_lift, upd_lift, e] at h'
  exact h'.state

/-- The same with a buffer of the size that `mp_rat_decimal_len` asks for.

Full statement: for every rational.  Missing: as in `C79_round_trip_partial`, and what is missing in `C53_decimal_len_partial`. -/
theorem C79_buffer_partial (h : State m ρ) (ha : HasQ ρ a p) (hc : ReadyQ ρ c) (hr : 2 ≤ r ∧ r ≤ 36) (hm : mode ≤ 3)
    (hcar : ¬ Carries r prec (roundQ 0 (|p| * r ^ prec)) (roundQ mode (|p| * r ^ prec)))
    (hx : prec = 0 ∨ goodRadix r = true ∨ |p.num| < 13 ^ 5458) (hs : Nat.size p.num.natAbs + prec ≤ 799999997) :
    Runs env (do
      let s ← ratDecimalOf a r prec mode
      mp_rat_read_decimal c.p r s.2) m fun res m' => res = MP_OK ∧ State m' (putQ ρ c (rounded r prec mode p)) := by
  refine (C53_decimal_len_partial h ha hr hm hx (by omega) hcar).seq fun s m1 hh => ?_
  obtain ⟨-, hpre, h1⟩ := hh
  obtain ⟨rest, e⟩ := List.isPrefixOf_iff_prefix.1 hpre
  rw [List.append_assoc] at e
  have hlen : (decText r prec (p < 0) (roundQ mode (|p| * r ^ prec))).length ≤ 800000000 := by
    have := decText_len (p := p) (prec := prec) hr.1 hm
    have := numeral_size hr.1 p.num
    split at * <;> omega
  have h0 : 0 ∈ s.2.take 800000001 := by
    rw [← e, List.take_append, List.mem_append]
    refine .inr ?_
    generalize (decText r prec (p < 0) (roundQ mode (|p| * r ^ prec))).length = l at *
    rw [show 800000001 - l = (800000000 - l) + 1 by omega]
    simp
  have e2 := C58_reader_decimal hr prec (roundQ mode (|p| * r ^ prec)) (p < 0) rest (q := rounded r prec mode p) rfl
  rw [show decText r prec (p < 0) (roundQ mode (|p| * r ^ prec)) ++ 0 :: rest = s.2 from e] at e2
  have := C58_read_decimal_string (env := env) h1 hc hr h0
  rw [e2] at this
  exact this

/-- The reader that recognises the notation reads positional notation as the other one does. -/
theorem C79_reader_text (hr : 2 ≤ r ∧ r ≤ 36) (prec N : Nat) (neg : Prop) [Decidable neg] (t : List Nat) :
    readText r (decText r prec neg N ++ 0 :: t) = readDecimal r (decText r prec neg N ++ 0 :: t) := by
  have hd := C58_reader_decimal hr prec N neg t rfl
  obtain ⟨vs, hvs, -⟩ := numeralN_digits hr.1 (N / r ^ prec)
  have hne : numeralN r (N / r ^ prec) ≠ [] := fun e => by
    have := numeralN_pos r (N / r ^ prec) hr.1
    rw [e] at this; simp at this
  unfold readText
  rw [if_neg (show ¬ r = 0 by omega)]
  by_cases hp : prec = 0
  · obtain ⟨-, h2⟩ := scanInt_split (w := []) (sg := if neg ∧ N ≠ 0 then [45] else []) (rest := t) hr.2 (by simp) (by split <;> simp) hvs
      (fun d => not_isDigit_zero) (fun _ e => absurd e hne)
    have e : decText r prec neg N ++ 0 :: t = [] ++ (if neg ∧ N ≠ 0 then [45] else []) ++ numeralN r (N / r ^ prec) ++ 0 :: t := by
      simp [decText, hp]
    rw [← e] at h2
    generalize decText r prec neg N ++ 0 :: t = S at *
    simp [readFraction, readDecimal, h2, trim, endCode, IsSpace, MP_OK, MP_TRUNC]
  · obtain ⟨-, h2⟩ := scanInt_split (w := []) (sg := if neg ∧ N ≠ 0 then [45] else []) (ch := 46) (rest := fixedDigits r prec N ++ 0 :: t)
      hr.2 (by simp) (by split <;> simp) hvs (fun d => not_isDigit_of_lt hr.2 (by omega)) (fun _ e => absurd e hne)
    have e : decText r prec neg N ++ 0 :: t = [] ++ (if neg ∧ N ≠ 0 then [45] else []) ++ numeralN r (N / r ^ prec) ++
        46 :: (fixedDigits r prec N ++ 0 :: t) := by
      simp [decText, hp]
    rw [← e] at h2
    generalize decText r prec neg N ++ 0 :: t = S at *
    simp [readFraction, h2, trim, endCode, IsSpace, hd]

/-- The same, read by the function that recognises the notation.

Full statement and what is missing: as for `C79_buffer_partial`. -/
theorem C79_ustring_partial (h : State m ρ) (ha : HasQ ρ a p) (hc : ReadyQ ρ c) (hr : 2 ≤ r ∧ r ≤ 36) (hm : mode ≤ 3)
    (hcar : ¬ Carries r prec (roundQ 0 (|p| * r ^ prec)) (roundQ mode (|p| * r ^ prec)))
    (hx : prec = 0 ∨ goodRadix r = true ∨ |p.num| < 13 ^ 5458) (hs : Nat.size p.num.natAbs + prec ≤ 799999997) :
    Runs env (do
      let s ← ratDecimalOf a r prec mode
      mp_rat_read_ustring c.p r s.2) m fun res m' => res = (MP_OK, some (decText r prec (p < 0) (roundQ mode (|p| * r ^ prec))).length) ∧
        State m' (putQ ρ c (rounded r prec mode p)) := by
  refine (C53_decimal_len_partial h ha hr hm hx (by omega) hcar).seq fun s m1 hh => ?_
  obtain ⟨-, hpre, h1⟩ := hh
  obtain ⟨rest, e⟩ := List.isPrefixOf_iff_prefix.1 hpre
  rw [List.append_assoc] at e
  have hlen : (decText r prec (p < 0) (roundQ mode (|p| * r ^ prec))).length ≤ 800000000 := by
    have := decText_len (p := p) (prec := prec) hr.1 hm
    have := numeral_size hr.1 p.num
    split at * <;> omega
  have e2 := C58_reader_decimal hr prec (roundQ mode (|p| * r ^ prec)) (p < 0) rest (q := rounded r prec mode p) rfl
  rw [← C79_reader_text hr, show decText r prec (p < 0) (roundQ mode (|p| * r ^ prec)) ++ 0 :: rest = s.2 from e] at e2
  have el : s.2.length - (0 :: rest).length = (decText r prec (p < 0) (roundQ mode (|p| * r ^ prec))).length := by
    rw [← e, List.length_append]
    simp
  generalize decText r prec (p < 0) (roundQ mode (|p| * r ^ prec)) = d at *
  have h0 : 0 ∈ s.2.take 800000001 := by
    rw [← e, List.take_append, List.mem_append]
    refine .inr ?_
    generalize d.length = l at *
    rw [show 800000001 - l = (800000000 - l) + 1 by omega]
    simp
  have := C58_read_text (env := env) h1 hc (.inr hr) h0
  rw [e2] at this
  refine this.mono fun res m' hh => ⟨?_, hh.2⟩
  rw [hh.1, Option.map_some, el]

theorem sign_mul_abs (p : ℚ) : (if p < 0 then -1 else 1) * |p| = p := by
  split
  · rw [abs_of_neg (by assumption)]; ring
  · rw [abs_of_nonneg (by linarith)]; ring

theorem roundQ_err (hm : mode ≤ 3) {x : ℚ} (hx : 0 ≤ x) : |(roundQ mode x : ℚ) - x| < 1 ∧ (mode = 1 ∨ mode = 3 → |(roundQ mode x : ℚ) - x| ≤ 1 / 2) := by
  rcases show mode = 0 ∨ mode = 1 ∨ mode = 2 ∨ mode = 3 by omega with rfl | rfl | rfl | rfl
  · have h1 := Nat.floor_le hx
    have h2 := Nat.lt_floor_add_one x
    exact ⟨abs_lt.2 (by constructor <;> simp only [roundQ, if_true] <;> linarith), by omega⟩
  · have h1 := Nat.floor_le (show 0 ≤ x + 1 / 2 by linarith)
    have h2 := Nat.lt_floor_add_one (x + 1 / 2)
    have h3 : |(roundQ 1 x : ℚ) - x| ≤ 1 / 2 := abs_le.2 (by
      constructor <;> simp only [roundQ, if_true, one_ne_zero, if_false] <;> linarith)
    exact ⟨by linarith, fun _ => h3⟩
  · have h1 := Nat.le_ceil x
    have h2 := Nat.ceil_lt_add_one hx
    refine ⟨abs_lt.2 (by constructor <;> simp only [roundQ, show ¬ (2 = 0) by omega, show ¬ (2 = 1) by omega, if_true, if_false] <;> linarith), by omega⟩
  · have h1 := Nat.le_ceil (x - 1 / 2)
    have h2 : (⌈x - 1 / 2⌉₊ : ℚ) ≤ x + 1 / 2 := by
      by_cases h0 : 0 ≤ x - 1 / 2
      · have := Nat.ceil_lt_add_one h0; linarith
      · rw [Nat.ceil_eq_zero.2 (by linarith)]; push_cast; linarith
    have h3 : |(roundQ 3 x : ℚ) - x| ≤ 1 / 2 := abs_le.2 (by
      constructor <;> simp only [roundQ, show ¬ (3 = 0) by omega, show ¬ (3 = 1) by omega, show ¬ (3 = 2) by omega, if_false] <;> linarith)
    exact ⟨by linarith, fun _ => h3⟩

/-- The rounded value is less than one unit of the last place away, and half a unit at most if it is rounded to the nearest. -/
theorem C79_error (hr : 0 < r) (hm : mode ≤ 3) :
    |rounded r prec mode p - p| < 1 / (r : ℚ) ^ prec ∧ (mode = 1 ∨ mode = 3 → |rounded r prec mode p - p| ≤ 1 / 2 / (r : ℚ) ^ prec) := by
  have hR : (0 : ℚ) < (r : ℚ) ^ prec := by positivity
  have e : rounded r prec mode p - p = (if p < 0 then -1 else 1) * ((roundQ mode (|p| * r ^ prec) - |p| * r ^ prec) / (r : ℚ) ^ prec) := by
    unfold rounded
    rw [sub_div, mul_div_assoc, div_self hR.ne', mul_one, mul_sub, sign_mul_abs]
  have e2 : |rounded r prec mode p - p| = |(roundQ mode (|p| * r ^ prec) : ℚ) - |p| * r ^ prec| / (r : ℚ) ^ prec := by
    rw [e, abs_mul, abs_div, abs_of_pos hR]
    split <;> simp
  have h := roundQ_err hm (show 0 ≤ |p| * (r : ℚ) ^ prec by positivity)
  rw [e2]
  exact ⟨(div_lt_div_iff_of_pos_right hR).2 h.1, fun h1 => (div_le_div_iff_of_pos_right hR).2 (h.2 h1)⟩

theorem roundQ_nat (hm : mode ≤ 3) (n : Nat) : roundQ mode (n : ℚ) = n := by
  have h := (roundQ_err hm (show (0 : ℚ) ≤ n by positivity)).1
  have h2 : |((roundQ mode (n : ℚ) : Int) : ℚ) - ((n : Int) : ℚ)| < 1 := by exact_mod_cast h
  rw [← Int.cast_sub, ← Int.cast_abs] at h2
  have h3 : |((roundQ mode (n : ℚ) : Int)) - (n : Int)| < 1 := by exact_mod_cast h2
  have := Int.abs_lt_one_iff.1 h3
  omega

/-- A rational with at most `prec` places is read back unchanged, in every rounding mode. -/
theorem C79_exact (h : State m ρ) (ha : HasQ ρ a p) (hc : ReadyQ ρ c) (hr : 2 ≤ r ∧ r ≤ 36) (hm : mode ≤ 3) (hp : prec < 2 ^ 31 - 1)
    {n : Nat} (hn : |p| * r ^ prec = n)
    (hfit : (decText r prec (p < 0) n).length + (if prec = 0 then 1 else 2) ≤ limit)
    (hbuf : (decText r prec (p < 0) n).length + 1 ≤ str.length) (hlen : (decText r prec (p < 0) n).length ≤ 800000000) :
    Runs env (do
      let s ← mp_rat_to_decimal a.p r prec mode str limit
      mp_rat_read_decimal c.p r s.2) m fun res m' => res = MP_OK ∧ State m' (putQ ρ c p) := by
  have e1 : roundQ mode (|p| * r ^ prec) = n := by rw [hn, roundQ_nat hm]
  have e0 : roundQ 0 (|p| * r ^ prec) = n := by rw [hn, roundQ_nat (by omega)]
  have hR : (0 : ℚ) < (r : ℚ) ^ prec := by have : 0 < r := by omega
                                           positivity
  have e : rounded r prec mode p = p := by
    unfold rounded
    rw [e1, ← hn, mul_div_assoc, div_self hR.ne', mul_one, sign_mul_abs]
  have := C79_round_trip_partial (env := env) (str := str) (limit := limit) h ha hc hr hm hp (by rw [e1, e0]; exact fun h => h.2.1 rfl)
    (by rw [e1]; exact hfit) (by rw [e1]; exact hbuf) (by rw [e1]; exact hlen)
  rw [e] at this
  exact this

/-- Rounding again changes nothing: what has been read back is written and read unchanged, in every mode. -/
theorem C79_idempotent {mode' : Nat} (hr : 0 < r) (hm : mode' ≤ 3) : rounded r prec mode' (rounded r prec mode p) = rounded r prec mode p := by
  have hR : (0 : ℚ) < (r : ℚ) ^ prec := by positivity
  have e : |rounded r prec mode p| * (r : ℚ) ^ prec = (roundQ mode (|p| * r ^ prec) : Nat) := by
    unfold rounded
    rw [abs_mul, abs_div, abs_of_pos hR, Nat.abs_cast]
    split <;> simp [hR.ne']
  generalize rounded r prec mode p = q at *
  unfold rounded
  rw [e, roundQ_nat hm, ← e, mul_div_assoc, div_self hR.ne', mul_one, sign_mul_abs]

theorem roundQ_mono {x y : ℚ} (h : x ≤ y) : roundQ mode x ≤ roundQ mode y := by
  unfold roundQ
  split
  · exact Nat.floor_mono h
  split
  · exact Nat.floor_mono (by linarith)
  split
  · exact Nat.ceil_mono h
  · exact Nat.ceil_mono (by linarith)

/-- Writing and reading keeps the order. -/
theorem C79_monotone {q : ℚ} (hr : 0 < r) (h : p ≤ q) : rounded r prec mode p ≤ rounded r prec mode q := by
  have hR : (0 : ℚ) < (r : ℚ) ^ prec := by positivity
  have key : ∀ x y : ℚ, |x| ≤ |y| → (roundQ mode (|x| * r ^ prec) : ℚ) / (r : ℚ) ^ prec ≤ roundQ mode (|y| * r ^ prec) / (r : ℚ) ^ prec := by
    intro x y hxy
    refine (div_le_div_iff_of_pos_right hR).2 ?_
    exact_mod_cast roundQ_mono (mul_le_mul_of_nonneg_right hxy hR.le)
  have nn : ∀ x : ℚ, 0 ≤ (roundQ mode (|x| * r ^ prec) : ℚ) / (r : ℚ) ^ prec := fun x => by positivity
  unfold rounded
  by_cases hp : p < 0
  · by_cases hq : q < 0
    · rw [if_pos hp, if_pos hq]
      have := key q p (by rw [abs_of_neg hp, abs_of_neg hq]; linarith)
      linarith
    · rw [if_pos hp, if_neg hq]
      linarith [nn p, nn q]
  · have hq : ¬ q < 0 := by linarith
    rw [if_neg hp, if_neg hq]
    have := key p q (by rw [abs_of_nonneg (by linarith), abs_of_nonneg (by linarith)]; exact h)
    linarith

/-- What is read back if rounding carries: `F` is the absolute value in units of the last place, rounded down.  The integer part is
that of `F`, and the fraction is the one after rounding, divided by the radix. -/
def carried (r prec : Nat) (p : ℚ) (F : Nat) : ℚ :=
  (if p < 0 then -1 else 1) * ((F / r ^ prec : Nat) + (F % r ^ prec + 1 : Nat) / (r : ℚ) ^ (prec + 1))

theorem carryText_eq (hr : 2 ≤ r) (F : Nat) (neg : Prop) [Decidable neg] :
    carryText r prec neg F = decText r (prec + 1) neg (F / r ^ prec * r ^ (prec + 1) + (F % r ^ prec + 1)) := by
  have hR : 0 < r ^ prec := Nat.pow_pos (by omega)
  have hlt : F % r ^ prec + 1 < r ^ (prec + 1) := by
    have := Nat.mod_lt F hR
    rw [pow_succ]
    have : r ^ prec * 2 ≤ r ^ prec * r := Nat.mul_le_mul_left _ hr
    omega
  have e1 : (F / r ^ prec * r ^ (prec + 1) + (F % r ^ prec + 1)) / r ^ (prec + 1) = F / r ^ prec := by
    rw [Nat.add_comm (F / r ^ prec * _), Nat.add_mul_div_right _ _ (Nat.pow_pos (by omega)), Nat.div_eq_of_lt hlt, Nat.zero_add]
  have e2 : fixedDigits r (prec + 1) (F / r ^ prec * r ^ (prec + 1) + (F % r ^ prec + 1)) = fixedDigits r (prec + 1) (F % r ^ prec + 1) := by
    rw [← fixed_mod hr, Nat.add_comm (F / r ^ prec * _), Nat.add_mul_mod_self_right, Nat.mod_eq_of_lt hlt]
  unfold carryText decText
  rw [e1, e2, if_neg (show ¬ prec + 1 = 0 by omega)]
  congr 2
  exact if_congr (by constructor
                     · exact fun h => ⟨h, Nat.succ_ne_zero _⟩
                     · exact fun h => h.1) rfl rfl

/-- What is stored if rounding carries. -/
theorem C79_carry_exact (h : State m ρ) (ha : HasQ ρ a p) (hc : ReadyQ ρ c) (hr : 2 ≤ r ∧ r ≤ 36) (hm : mode ≤ 3) (hp : prec < 2 ^ 31 - 1)
    (hcar : Carries r prec (roundQ 0 (|p| * r ^ prec)) (roundQ mode (|p| * r ^ prec)))
    (hfit : (carryText r prec (p < 0) (roundQ 0 (|p| * r ^ prec))).length + 2 ≤ limit)
    (hbuf : (carryText r prec (p < 0) (roundQ 0 (|p| * r ^ prec))).length + 1 ≤ str.length)
    (hlen : (carryText r prec (p < 0) (roundQ 0 (|p| * r ^ prec))).length ≤ 800000000) :
    Runs env (do
      let s ← mp_rat_to_decimal a.p r prec mode str limit
      mp_rat_read_decimal c.p r s.2) m fun res m' => res = MP_OK ∧ State m' (putQ ρ c (carried r prec p (roundQ 0 (|p| * r ^ prec)))) := by
  refine .of_wp (wp_bind (mp_rat_to_decimal_carry (ref_refused env) hr.1 hr.2 hm (by omega) h.r2 ha.l hcar hfit hbuf fun m1 h1 => ?_))
  generalize str.drop _ = rest
  generalize roundQ 0 (|p| * r ^ prec) = F at *
  have hR : (0 : ℚ) < (r : ℚ) ^ (prec + 1) := by have : 0 < r := by omega
                                                 positivity
  have h0 : 0 ∈ (carryText r prec (p < 0) F ++ 0 :: rest).take 800000001 := by
    rw [List.take_append, List.mem_append]
    refine .inr ?_
    generalize (carryText r prec (p < 0) F).length = l at *
    rw [show 800000001 - l = (800000000 - l) + 1 by omega]
    simp
  have e := C58_reader_decimal hr (prec + 1) (F / r ^ prec * r ^ (prec + 1) + (F % r ^ prec + 1)) (p < 0) rest (q := carried r prec p F) (by
    unfold carried
    congr 1
    rw [Nat.cast_add (F / r ^ prec * _), add_div, Nat.cast_mul, Nat.cast_pow, mul_div_assoc, div_self hR.ne', mul_one])
  rw [← carryText_eq hr.1] at e
  refine wp_bind (mp_rat_read_cdecimal_total (ref_refused env) hr.1 hr.2 h0 h1 hc.l fun m' h' => wp_pure ⟨by rw [e], ?_⟩)
  rw [show c.p.num = .var c.num from rfl, show c.p.den = .var c.den from rfl, upd_lift, upd_lift, e] at h'
  exact h'.state

theorem roundQ_up (hm : mode ≤ 3) {x : ℚ} (hx : 0 ≤ x) (h : roundQ mode x ≠ roundQ 0 x) : roundQ mode x = roundQ 0 x + 1 := by
  have h1 := abs_lt.1 (roundQ_err hm hx).1
  have h2 : (roundQ 0 x : ℚ) ≤ x := by simpa only [roundQ, if_true] using Nat.floor_le hx
  have h3 : x < (roundQ 0 x : ℚ) + 1 := by simpa only [roundQ, if_true] using Nat.lt_floor_add_one x
  have h4 : roundQ mode x < roundQ 0 x + 2 := by
    have : (roundQ mode x : ℚ) < roundQ 0 x + 2 := by linarith [h1.2]
    exact_mod_cast this
  have h5 : roundQ 0 x < roundQ mode x + 1 := by
    have : (roundQ 0 x : ℚ) < roundQ mode x + 1 := by linarith [h1.1]
    exact_mod_cast this
  omega

/-- That is wrong by at least `r - 1` units of the last place, whenever rounding carries. -/
theorem C79_carry_off (hr : 2 ≤ r) (hm : mode ≤ 3)
    (hcar : Carries r prec (roundQ 0 (|p| * r ^ prec)) (roundQ mode (|p| * r ^ prec))) :
    |carried r prec p (roundQ 0 (|p| * r ^ prec))| + (r - 1) / (r : ℚ) ^ prec ≤ |rounded r prec mode p| := by
  have hR : (0 : ℚ) < (r : ℚ) ^ prec := by have : 0 < r := by omega
                                           positivity
  have hr0 : (2 : ℚ) ≤ r := by exact_mod_cast hr
  obtain ⟨-, hne, k, hk, e⟩ := hcar
  have hN := roundQ_up hm (show 0 ≤ |p| * (r : ℚ) ^ prec by positivity) hne
  have habs : ∀ x : ℚ, 0 ≤ x → |(if p < 0 then (-1 : ℚ) else 1) * x| = x := by
    intro x hx
    rw [abs_mul, abs_of_nonneg hx]
    split <;> simp
  unfold carried rounded
  rw [habs _ (by positivity), habs _ (by positivity), hN]
  generalize roundQ 0 (|p| * r ^ prec) = F at *
  have hle : r ≤ F % r ^ prec + 1 := by
    rw [e]
    exact Nat.le_self_pow (by omega) r
  have hF : ((F + 1 : Nat) : ℚ) = (F / r ^ prec : Nat) * (r : ℚ) ^ prec + (F % r ^ prec + 1 : Nat) := by
    rw [← Nat.cast_pow, ← Nat.cast_mul, ← Nat.cast_add, ← Nat.add_assoc, Nat.div_add_mod']
  rw [hF]
  have hle' : (r : ℚ) ≤ (F % r ^ prec + 1 : Nat) := by exact_mod_cast hle
  generalize ((F / r ^ prec : Nat) : ℚ) = A at *
  generalize ((F % r ^ prec + 1 : Nat) : ℚ) = B at *
  rw [add_div, mul_div_assoc, div_self hR.ne', mul_one, add_assoc, pow_succ]
  refine add_le_add le_rfl ?_
  rw [mul_comm, ← div_div, ← add_div]
  refine (div_le_div_iff_of_pos_right hR).2 ?_
  have h1 : B / r * r = B := div_mul_cancel₀ _ (by linarith)
  have h2 : 1 ≤ B / r := (one_le_div (by linarith)).2 hle'
  nlinarith

/-- 99/100 to one place, rounded to the nearest, is written as 0.10 and read back as 1/10. -/
theorem C79_carry :
    outcome (do
      let s ← mp_rat_to_decimal ⟨.var 0, .var 1⟩ 10 1 MP_ROUND_HALF_UP (List.replicate 10 88) 10
      mp_rat_read_decimal ⟨.var 2, .var 3⟩ 10 s.2) [99, 100, 0, 1] = some (MP_OK, [some 99, some 100, some 1, some 10]) ∧
    rounded 10 1 1 (99 / 100) = 1 := by
  refine ⟨by decide +kernel, ?_⟩
  have e : roundQ 1 (|(99 / 100 : ℚ)| * (10 : Nat) ^ 1) = 10 := by decide +kernel
  unfold rounded
  rw [e]
  norm_num

/-! ### The hypotheses can be met -/

/-- -22/7 in radix 7 to one place. -/
example : ∃ m, State m demoQ ∧ Runs env (do
      let s ← mp_rat_to_decimal qa.p 7 1 1 (List.replicate 10 88) 10
      mp_rat_read_decimal qa.p 7 s.2) m fun res m' => res = MP_OK ∧ State m' (putQ demoQ qa (-22 / 7)) := by
  obtain ⟨m, h⟩ := demoQ_state
  have e : decText 7 1 ((-22 / 7 : ℚ) < 0) 22 = [45, 51, 46, 49] := by decide +kernel
  refine ⟨m, h, C79_exact (n := 22) h demoQ_a ⟨by decide, ⟨_, demoQ_a.1⟩, ⟨_, demoQ_a.2⟩⟩ (by omega) (by omega) (by norm_num) ?_ ?_ ?_ ?_⟩
  · rw [abs_of_neg (by norm_num)]; norm_num
  · rw [e]; simp
  · rw [e]; simp
  · rw [e]; simp

/-- -22/7 to two places up is -3.15. -/
example : rounded 10 2 2 (-22 / 7) = -63 / 20 := by
  have e := demoQ_dec.1
  unfold rounded
  rw [e, if_pos (by norm_num)]
  norm_num

/-- 1999/100 to one place, to the nearest: 19.10 in place of 20.0. -/
example : Carries 10 1 (roundQ 0 (|(1999 / 100 : ℚ)| * (10 : Nat) ^ 1)) (roundQ 1 (|(1999 / 100 : ℚ)| * (10 : Nat) ^ 1)) ∧
    carried 10 1 (1999 / 100) (roundQ 0 (|(1999 / 100 : ℚ)| * (10 : Nat) ^ 1)) = 191 / 10 ∧ rounded 10 1 1 (1999 / 100) = 20 := by
  have e0 : roundQ 0 (|(1999 / 100 : ℚ)| * (10 : Nat) ^ 1) = 199 := by decide +kernel
  have e1 : roundQ 1 (|(1999 / 100 : ℚ)| * (10 : Nat) ^ 1) = 200 := by decide +kernel
  unfold rounded
  rw [e0, e1]
  exact ⟨⟨by norm_num, by norm_num, 1, by norm_num, by norm_num⟩, by norm_num [carried], by norm_num⟩

/-- -22/7 to two places up, with the buffer that is asked for. -/
example : ∃ m, State m demoQ ∧ Runs env (do
      let s ← ratDecimalOf qa 10 2 2
      mp_rat_read_decimal qa.p 10 s.2) m fun res m' => res = MP_OK ∧ State m' (putQ demoQ qa (rounded 10 2 2 (-22 / 7))) := by
  obtain ⟨m, h⟩ := demoQ_state
  have e0 : roundQ 0 (|(-22 / 7 : ℚ)| * (10 : Nat) ^ 2) = 314 := by decide +kernel
  have e2 : (-22 / 7 : ℚ).num = -22 := by decide +kernel
  refine ⟨m, h, C79_buffer_partial h demoQ_a ⟨by decide, ⟨_, demoQ_a.1⟩, ⟨_, demoQ_a.2⟩⟩ (by omega) (by omega) ?_ (.inr (.inl rfl)) ?_⟩
  · rw [e0]
    rintro ⟨-, -, k, hk, e⟩
    rcases k with _ | _ | k
    · omega
    · norm_num at e
    · have : 10 ^ (k + 1 + 1) = 100 * 10 ^ k := by ring
      have : 0 < 10 ^ k := by positivity
      omega
  · rw [e2]; decide

/-- -22/7 to two places up, read by the function that recognises the notation. -/
example : ∃ m, State m demoQ ∧ Runs env (do
      let s ← ratDecimalOf qa 10 2 2
      mp_rat_read_ustring qa.p 10 s.2) m fun res m' =>
        res = (MP_OK, some (decText 10 2 ((-22 / 7 : ℚ) < 0) (roundQ 2 (|(-22 / 7 : ℚ)| * (10 : Nat) ^ 2))).length) ∧ State m' (putQ demoQ qa (rounded 10 2 2 (-22 / 7))) := by
  obtain ⟨m, h⟩ := demoQ_state
  have e0 : roundQ 0 (|(-22 / 7 : ℚ)| * (10 : Nat) ^ 2) = 314 := by decide +kernel
  have e2 : (-22 / 7 : ℚ).num = -22 := by decide +kernel
  refine ⟨m, h, C79_ustring_partial h demoQ_a ⟨by decide, ⟨_, demoQ_a.1⟩, ⟨_, demoQ_a.2⟩⟩ (by omega) (by omega) ?_ (.inr (.inl rfl)) ?_⟩
  · rw [e0]
    rintro ⟨-, -, k, hk, e⟩
    rcases k with _ | _ | k
    · omega
    · norm_num at e
    · have : 10 ^ (k + 1 + 1) = 100 * 10 ^ k := by ring
      have : 0 < 10 ^ k := by positivity
      omega
  · rw [e2]; decide

/-- -22/7 in radix 2 to three places, rounded up: -11.0010 in place of -11.010. -/
example : ∃ m, State m demoQ ∧ Runs env (do
      let s ← mp_rat_to_decimal qa.p 2 3 2 (List.replicate 10 88) 10
      mp_rat_read_decimal qa.p 2 s.2) m fun res m' => res = MP_OK ∧ State m' (putQ demoQ qa (-25 / 8)) := by
  obtain ⟨m, h⟩ := demoQ_state
  have e0 : roundQ 0 (|(-22 / 7 : ℚ)| * (2 : Nat) ^ 3) = 25 := by decide +kernel
  have e1 : roundQ 2 (|(-22 / 7 : ℚ)| * (2 : Nat) ^ 3) = 26 := by decide +kernel
  have e : carryText 2 3 ((-22 / 7 : ℚ) < 0) 25 = [45, 49, 49, 46, 48, 48, 49, 48] := by decide +kernel
  have := C79_carry_exact (env := env) (c := qa) (r := 2) (prec := 3) (mode := 2) (str := List.replicate 10 88) (limit := 10) h demoQ_a
    ⟨by decide, ⟨_, demoQ_a.1⟩, ⟨_, demoQ_a.2⟩⟩ (by omega) (by omega) (by norm_num)
    (by rw [e0, e1]; exact ⟨by norm_num, by norm_num, 1, by norm_num, by norm_num⟩)
    (by rw [e0, e]; simp) (by rw [e0, e]; simp) (by rw [e0, e]; simp)
  rw [e0, show carried 2 3 (-22 / 7) 25 = -25 / 8 by norm_num [carried]] at this
  exact ⟨m, h, this⟩

end Imath
