import Verif.Proof.GmpIO
import Verif.Props.Rsa

/-!
# Properties C47 - C49: the GMP-compatible interface

An assertion fails where a function of the library returns an error, which the theorems exclude.
-/

namespace Imath

variable {env : Env} {m : Mem} {ρ : Nat → Option Int} {a b c : Nat} {x y v w : Int} {u : Nat}

/-! ### C47 -/

/-- The quotient rounded up; the variables may coincide. -/
theorem C47_cdiv_q (h : State m ρ) (ha : ρ a = some x) (hb : ρ b = some y) (hc : ρ c = some w) (hy : y ≠ 0) :
    Runs env (impz_cdiv_q (.var c) (.var a) (.var b)) m fun _ m' => State m' (put ρ c ⌈(x : ℚ) / y⌉) :=
  .of_wp (impz_cdiv_q_spec (ref_refused env) h.r2 ha hb hc rfl hy fun m' h' => by rw [upd_lift] at h'; exact h'.state)

/-- The quotient rounded down -/
theorem C47_fdiv_q (h : State m ρ) (ha : ρ a = some x) (hb : ρ b = some y) (hc : ρ c = some w) (hy : y ≠ 0) :
    Runs env (impz_fdiv_q (.var c) (.var a) (.var b)) m fun _ m' => State m' (put ρ c ⌊(x : ℚ) / y⌋) :=
  .of_wp (impz_fdiv_q_spec (ref_refused env) h.r2 ha hb hc rfl hy fun m' h' => by rw [upd_lift] at h'; exact h'.state)

/-- The quotient rounded towards zero -/
theorem C47_tdiv_q (h : State m ρ) (ha : ρ a = some x) (hb : ρ b = some y) (hc : ρ c = some w) (hy : y ≠ 0) :
    Runs env (impz_tdiv_q (.var c) (.var a) (.var b)) m fun _ m' => State m' (put ρ c (x.tdiv y)) :=
  .of_wp (impz_tdiv_q_spec (ref_refused env) h.r2 ha hb hc rfl hy fun m' h' => by rw [upd_lift] at h'; exact h'.state)

/-- The remainder that belongs to the quotient rounded down -/
theorem C47_fdiv_r (h : State m ρ) (ha : ρ a = some x) (hb : ρ b = some y) (hc : ρ c = some w) (hy : y ≠ 0) :
    Runs env (impz_fdiv_r (.var c) (.var a) (.var b)) m fun _ m' => State m' (put ρ c (x - ⌊(x : ℚ) / y⌋ * y)) :=
  .of_wp (impz_fdiv_r_spec (ref_refused env) h.r2 ha hb hc rfl hy fun m' h' => by rw [upd_lift] at h'; exact h'.state)

/-- The quotient rounded down; the remainder is the result of the function. -/
theorem C47_fdiv_q_ui (h : State m ρ) (ha : ρ a = some x) (hc : ρ c = some w) (hu : u < 2 ^ 64) (hu0 : u ≠ 0) :
    Runs env (impz_fdiv_q_ui (.var c) (.var a) u) m fun r m' =>
      (r : Int) = x - ⌊(x : ℚ) / u⌋ * u ∧ r < u ∧ State m' (put ρ c ⌊(x : ℚ) / u⌋) := by
  have hr := floor_rem_range (x := x) (y := (u : Int)) (by omega)
  push_cast at hr
  refine .of_wp (impz_fdiv_q_ui_spec (ref_refused env) h.r2 ha hc rfl hu hu0 fun m' h' =>
    ⟨Int.toNat_of_nonneg hr.1, by omega, by rw [upd_lift] at h'; exact h'.state⟩)

/-- Floor and ceiling for a concrete negative quotient; the quotient replaces the divisor or the dividend. -/
example : ∃ m, State m (vars [-7, 2]) ∧
    Runs env (impz_fdiv_q (.var 1) (.var 0) (.var 1)) m (fun _ m' => State m' (put (vars [-7, 2]) 1 (-4))) ∧
    Runs env (impz_cdiv_q (.var 0) (.var 0) (.var 1)) m (fun _ m' => State m' (put (vars [-7, 2]) 0 (-3))) ∧
    Runs env (impz_tdiv_q (.var 0) (.var 0) (.var 1)) m (fun _ m' => State m' (put (vars [-7, 2]) 0 (-3))) ∧
    Runs env (impz_fdiv_r (.var 0) (.var 0) (.var 1)) m (fun _ m' => State m' (put (vars [-7, 2]) 0 1)) ∧
    Runs env (impz_fdiv_q_ui (.var 0) (.var 0) 2) m (fun r m' => r = 1 ∧ State m' (put (vars [-7, 2]) 0 (-4))) := by
  obtain ⟨m, h⟩ := vars_state (l := [-7, 2]) (by simp)
  have hf : ⌊((-7 : ℤ) : ℚ) / (2 : ℤ)⌋ = -4 := by rw [Int.floor_eq_iff]; norm_num
  have hf' : ⌊((-7 : ℤ) : ℚ) / (2 : ℕ)⌋ = -4 := by rw [Int.floor_eq_iff]; norm_num
  have hc : ⌈((-7 : ℤ) : ℚ) / (2 : ℤ)⌉ = -3 := by rw [Int.ceil_eq_iff]; norm_num
  refine ⟨m, h, ?_, ?_, ?_, ?_, ?_⟩
  · have := C47_fdiv_q (env := env) (a := 0) (b := 1) (c := 1) h rfl rfl rfl (by norm_num); rwa [hf] at this
  · have := C47_cdiv_q (env := env) (a := 0) (b := 1) (c := 0) h rfl rfl rfl (by norm_num); rwa [hc] at this
  · exact C47_tdiv_q (env := env) (a := 0) (b := 1) (c := 0) h rfl rfl rfl (by norm_num)
  · have := C47_fdiv_r (env := env) (a := 0) (b := 1) (c := 0) h rfl rfl rfl (by norm_num); rw [hf] at this; exact this
  · refine (C47_fdiv_q_ui (env := env) (a := 0) (c := 0) (u := 2) h rfl rfl (by norm_num) (by norm_num)).mono fun r m' hr => ?_
    rw [hf'] at hr
    exact ⟨by have := hr.1; omega, hr.2.2⟩

/-- The divisor must not be zero: the assertion in `CHECK` fails. -/
theorem C47_zero_divisor : faultOf (impz_cdiv_q (.var 0) (.var 0) (.var 1)) [7, 0] = some .assert ∧
    faultOf (impz_fdiv_q (.var 0) (.var 0) (.var 1)) [7, 0] = some .assert ∧
    faultOf (impz_fdiv_r (.var 0) (.var 0) (.var 1)) [7, 0] = some .assert ∧
    faultOf (impz_tdiv_q (.var 0) (.var 0) (.var 1)) [7, 0] = some .assert ∧
    faultOf (impz_fdiv_q_ui (.var 0) (.var 0) 0) [7, 0] = some .assert := by decide +kernel

/-! ### C48 -/

/-- The low 64 bits of the absolute value -/
theorem C48_get_ui (h : State m ρ) (ha : ρ a = some x) :
    Runs env (impz_get_ui (.var a)) m fun r m' => r = x.natAbs % 2 ^ 64 ∧ State m' ρ :=
  .of_wp (impz_get_ui_spec h.r2 ha fun _ h' => ⟨rfl, h'.state⟩)

/-- The value if it fits, and else the low 63 bits with the sign.  Missing for the full property: the
value `-2 ^ 63`, which fits (see `C48_get_si_min`). -/
theorem C48_get_si_partial (h : State m ρ) (ha : ρ a = some x) (hx : x ≠ -2 ^ 63) :
    Runs env (impz_get_si (.var a)) m fun r m' => r = siOf x ∧ State m' ρ :=
  .of_wp (impz_get_si_spec h.r2 ha hx fun _ h' => ⟨rfl, h'.state⟩)

/-- `mp_int_to_int` negates `2 ^ 63`, which overflows. -/
theorem C48_get_si_min : siOf (-2 ^ 63) = -2 ^ 63 ∧ faultOf (impz_get_si (.var 0)) [-2 ^ 63] = some .ub := by decide +kernel

example : siOf (-7) = -7 ∧ siOf (2 ^ 63 - 1) = 2 ^ 63 - 1 ∧ siOf (2 ^ 63 + 5) = 5 ∧ siOf (-2 ^ 64 - 5) = -5 := by decide

example : ∃ m, State m (vars [-2 ^ 64 - 5]) ∧
    Runs env (impz_get_ui (.var 0)) m (fun r m' => r = 5 ∧ State m' (vars [-2 ^ 64 - 5])) ∧
    Runs env (impz_get_si (.var 0)) m (fun r m' => r = -5 ∧ State m' (vars [-2 ^ 64 - 5])) :=
  let ⟨m, h⟩ := vars_state (l := [-2 ^ 64 - 5]) (by simp)
  ⟨m, h, C48_get_ui (x := -2 ^ 64 - 5) h rfl, C48_get_si_partial (x := -2 ^ 64 - 5) h rfl (by decide)⟩

/-- `rop += op1 * op2`; the variables may coincide. -/
theorem C48_addmul (h : State m ρ) (ha : ρ a = some x) (hb : ρ b = some y) (hc : ρ c = some w) :
    Runs env (impz_addmul (.var c) (.var a) (.var b)) m fun _ m' => State m' (put ρ c (w + x * y)) :=
  .of_wp (impz_addmul_spec (ref_refused env) h.r2 ha hb hc rfl fun m' h' => by rw [upd_lift] at h'; exact h'.state)

/-- `rop -= op1 * op2` -/
theorem C48_submul (h : State m ρ) (ha : ρ a = some x) (hb : ρ b = some y) (hc : ρ c = some w) :
    Runs env (impz_submul (.var c) (.var a) (.var b)) m fun _ m' => State m' (put ρ c (w - x * y)) :=
  .of_wp (impz_submul_spec (ref_refused env) h.r2 ha hb hc rfl fun m' h' => by rw [upd_lift] at h'; exact h'.state)

/-- The greatest common divisor, also of zeros -/
theorem C48_gcd (h : State m ρ) (ha : ρ a = some x) (hb : ρ b = some y) (hc : ρ c = some w) :
    Runs env (impz_gcd (.var c) (.var a) (.var b)) m fun _ m' => State m' (put ρ c (Int.gcd x y : Int)) :=
  .of_wp (impz_gcd_spec (ref_refused env) h.r2 ha hb hc rfl fun m' h' => by rw [upd_lift] at h'; exact h'.state)

/-- The least common multiple, never negative -/
theorem C48_lcm (h : State m ρ) (ha : ρ a = some x) (hb : ρ b = some y) (hc : ρ c = some w) :
    Runs env (impz_lcm (.var c) (.var a) (.var b)) m fun _ m' => State m' (put ρ c (Int.lcm x y : Int)) :=
  .of_wp (impz_lcm_spec (ref_refused env) h.r2 ha hb hc rfl fun m' h' => by rw [upd_lift] at h'; exact h'.state)

/-- Divisibility; only 0 is divisible by 0. -/
theorem C48_divisible_p (h : State m ρ) (ha : ρ a = some x) (hb : ρ b = some y) :
    Runs env (impz_divisible_p (.var a) (.var b)) m fun r m' => (r ≠ 0 ↔ y ∣ x) ∧ State m' ρ :=
  .of_wp (impz_divisible_p_spec (ref_refused env) h.r2 ha hb fun _ h' => ⟨by split <;> simp_all, h'.state⟩)

/-- The exact quotient -/
theorem C48_divexact (h : State m ρ) (ha : ρ a = some x) (hb : ρ b = some y) (hc : ρ c = some w) (hy : y ≠ 0) (hd : x = y * v) :
    Runs env (impz_divexact (.var c) (.var a) (.var b)) m fun _ m' => State m' (put ρ c v) := by
  subst hd
  have := C47_tdiv_q (env := env) (c := c) h ha hb hc hy
  rwa [Int.mul_tdiv_cancel_left _ hy] at this

/-- The exact quotient by a machine word -/
theorem C48_divexact_ui (h : State m ρ) (ha : ρ a = some x) (hu : u < 2 ^ 64) (hu0 : u ≠ 0) (hc : ρ c = some w) (hd : x = u * v) :
    Runs env (impz_divexact_ui (.var c) (.var a) u) m fun _ m' => State m' (put ρ c v) := by
  subst hd
  refine .of_wp (impz_divexact_ui_spec (ref_refused env) h.r2 ha hu hu0 hc rfl fun m' h' => ?_)
  rw [Int.mul_tdiv_cancel_left _ (by omega), upd_lift] at h'; exact h'.state

/-- Addition of a machine word -/
theorem C48_add_ui (h : State m ρ) (ha : ρ a = some x) (hu : u < 2 ^ 64) (hc : ρ c = some w) :
    Runs env (impz_add_ui (.var c) (.var a) u) m fun _ m' => State m' (put ρ c (x + u)) :=
  .of_wp (impz_add_ui_spec (ref_refused env) h.r2 ha hu hc rfl fun m' h' => by rw [upd_lift] at h'; exact h'.state)

/-- Subtraction of a machine word -/
theorem C48_sub_ui (h : State m ρ) (ha : ρ a = some x) (hu : u < 2 ^ 64) (hc : ρ c = some w) :
    Runs env (impz_sub_ui (.var c) (.var a) u) m fun _ m' => State m' (put ρ c (x - u)) :=
  .of_wp (impz_sub_ui_spec (ref_refused env) h.r2 ha hu hc rfl fun m' h' => by rw [upd_lift] at h'; exact h'.state)

/-- Multiplication by a machine word -/
theorem C48_mul_ui (h : State m ρ) (ha : ρ a = some x) (hu : u < 2 ^ 64) (hc : ρ c = some w) :
    Runs env (impz_mul_ui (.var c) (.var a) u) m fun _ m' => State m' (put ρ c (x * u)) :=
  .of_wp (impz_mul_ui_spec (ref_refused env) h.r2 ha hu hc rfl fun m' h' => by rw [upd_lift] at h'; exact h'.state)

/-- Powers, with `0 ^ 0 = 1` -/
theorem C48_pow_ui (h : State m ρ) (ha : ρ a = some x) (hu : u < 2 ^ 64) (hc : ρ c = some w) :
    Runs env (impz_pow_ui (.var c) (.var a) u) m fun _ m' => State m' (put ρ c (x ^ u)) :=
  .of_wp (impz_pow_ui_spec (ref_refused env) h.r2 ha hu hc rfl fun m' h' => by rw [upd_lift] at h'; exact h'.state)

/-- Multiplication by a power of two.  Missing for the full property: exponents from `2 ^ 32` on (see
`C48_mul_2exp_large`). -/
theorem C48_mul_2exp_partial (h : State m ρ) (ha : ρ a = some x) (hu : x = 0 ∨ u < 2 ^ 32) (hc : ρ c = some w) :
    Runs env (impz_mul_2exp (.var c) (.var a) u) m fun _ m' => State m' (put ρ c (x * 2 ^ u)) :=
  .of_wp (impz_mul_2exp_spec (ref_refused env) h.r2 ha hu hc rfl fun m' h' => by rw [upd_lift] at h'; exact h'.state)

/-- The exponent is reduced modulo `2 ^ 32` (`s_qmul` has a parameter of type `mp_size`): multiplication by
`2 ^ (2 ^ 32 + 1)` doubles.  From `2 ^ 63` on the assertion in `CHECK` fails. -/
theorem C48_mul_2exp_large : outcome (impz_mul_2exp (.var 0) (.var 0) 4294967297) [3] = some ((), [some 6]) ∧
    faultOf (impz_mul_2exp (.var 0) (.var 0) 9223372036854775808) [3] = some .assert := by decide +kernel

example : ∃ m, State m (vars [-12, 18, 5]) ∧
    Runs env (impz_addmul (.var 0) (.var 0) (.var 1)) m (fun _ m' => State m' (put (vars [-12, 18, 5]) 0 (-12 + -12 * 18))) ∧
    Runs env (impz_submul (.var 1) (.var 1) (.var 1)) m (fun _ m' => State m' (put (vars [-12, 18, 5]) 1 (18 - 18 * 18))) ∧
    Runs env (impz_gcd (.var 2) (.var 0) (.var 1)) m (fun _ m' => State m' (put (vars [-12, 18, 5]) 2 6)) ∧
    Runs env (impz_lcm (.var 0) (.var 0) (.var 1)) m (fun _ m' => State m' (put (vars [-12, 18, 5]) 0 36)) ∧
    Runs env (impz_divisible_p (.var 0) (.var 2)) m (fun r m' => (r ≠ 0 ↔ (5 : Int) ∣ -12) ∧ State m' (vars [-12, 18, 5])) ∧
    Runs env (impz_divexact_ui (.var 0) (.var 0) 4) m (fun _ m' => State m' (put (vars [-12, 18, 5]) 0 (-3))) :=
  let ⟨m, h⟩ := vars_state (l := [-12, 18, 5]) (by simp)
  ⟨m, h, C48_addmul (w := -12) (x := -12) (y := 18) h rfl rfl rfl, C48_submul (w := 18) (x := 18) (y := 18) h rfl rfl rfl,
    C48_gcd (a := 0) (b := 1) h rfl rfl rfl, C48_lcm (a := 0) (b := 1) h rfl rfl rfl, C48_divisible_p h rfl rfl,
    C48_divexact_ui (v := -3) h rfl (by norm_num) (by norm_num) rfl (by norm_num)⟩

example : ∃ m, State m (vars [-12]) ∧
    Runs env (impz_add_ui (.var 0) (.var 0) 18446744073709551615) m (fun _ m' => State m' (put (vars [-12]) 0 18446744073709551603)) ∧
    Runs env (impz_sub_ui (.var 0) (.var 0) 3) m (fun _ m' => State m' (put (vars [-12]) 0 (-15))) ∧
    Runs env (impz_mul_ui (.var 0) (.var 0) 3) m (fun _ m' => State m' (put (vars [-12]) 0 (-36))) ∧
    Runs env (impz_pow_ui (.var 0) (.var 0) 3) m (fun _ m' => State m' (put (vars [-12]) 0 ((-12) ^ 3))) ∧
    Runs env (impz_mul_2exp (.var 0) (.var 0) 100) m (fun _ m' => State m' (put (vars [-12]) 0 (-12 * 2 ^ 100))) :=
  let ⟨m, h⟩ := vars_state (l := [-12]) (by simp)
  ⟨m, h, C48_add_ui (a := 0) h rfl (by norm_num) rfl, C48_sub_ui (a := 0) h rfl (by norm_num) rfl, C48_mul_ui (a := 0) h rfl (by norm_num) rfl,
    C48_pow_ui (a := 0) h rfl (by norm_num) rfl, C48_mul_2exp_partial (a := 0) h rfl (.inr (by norm_num)) rfl⟩

/-! ### C49

`bytePos`, `Encodes` and `arrVal` are defined in `Verif/SpecGmp.lean`.  An `endian` of 0 is that of the
host, which the model takes to be little-endian. -/

variable {order endian : Int} {size count : Nat} {rop : Option Bytes} {op : Bytes}

theorem expWords_pos (hx : x ≠ 0) (hs : 1 ≤ size) : 1 ≤ expWords size x.natAbs := by
  have hp : 0 < Nat.size x.natAbs := Nat.size_pos.2 (by omega)
  unfold expWords
  exact (Nat.one_le_div_iff (by omega)).2 (by omega)

theorem expWords_least (hx : x ≠ 0) (hs : 1 ≤ size) : 256 ^ ((expWords size x.natAbs - 1) * size) ≤ x.natAbs := by
  have hp : 0 < Nat.size x.natAbs := Nat.size_pos.2 (by omega)
  have h1 : expWords size x.natAbs * size ≤ (Nat.size x.natAbs + 7) / 8 + (size - 1) := Nat.div_mul_le_self _ _
  have h2 : (expWords size x.natAbs - 1) * size < (Nat.size x.natAbs + 7) / 8 := by
    rw [Nat.sub_mul]; omega
  have h3 : 8 * ((expWords size x.natAbs - 1) * size) < Nat.size x.natAbs := by omega
  rw [Nat.lt_size] at h3
  rwa [show (256 : Nat) = 2 ^ 8 from rfl, ← Nat.pow_mul]

/-- Export of a value other than 0: the array is that of the absolute value, with no word more than
necessary, and only so many words are changed.  An array given by the caller must be large enough. -/
theorem C49_export_partial (h : State m ρ) (ha : ρ a = some x) (hx : x ≠ 0) (ho : order = 1 ∨ order = -1)
    (he : endian = 1 ∨ endian = 0 ∨ endian = -1) (hs0 : 1 ≤ size) (hs : size < 2 ^ 62)
    (hfit : ∀ buf, rop = some buf → ((Nat.size x.natAbs + 7) / 8 + (size - 1)) / size * size ≤ buf.length) :
    Runs env (impz_export rop order size endian 0 (.var a)) m fun r m' => m' = m ∧ ∃ buf, r.1 = some buf ∧ 1 ≤ r.2 ∧
      Encodes order endian size r.2 buf x.natAbs ∧ 256 ^ ((r.2 - 1) * size) ≤ x.natAbs ∧
      (∀ b, rop = some b → buf.length = b.length ∧ ∀ p, r.2 * size ≤ p → buf[p]? = b[p]?) ∧
      (rop = none → buf.length = r.2 * size) :=
  .of_wp (impz_export_spec h.r2 ha hx ho he hs hs0 hfit fun buf h1 h2 h3 =>
    ⟨rfl, buf, rfl, expWords_pos hx hs0, h1, expWords_least hx hs0, h2, h3⟩)

/-- Import: the value is that of the array. -/
theorem C49_import_partial (h : State m ρ) (hc : ρ c = some w) (ho : order = 1 ∨ order = -1)
    (he : endian = 1 ∨ endian = 0 ∨ endian = -1) (hs0 : 1 ≤ size) (hc0 : 1 ≤ count) (hmax : count * size ≤ 2 ^ 34 - 8)
    (hop : ∀ i < count * size, ∃ x < 256, op[i]? = some x) :
    Runs env (impz_import (.var c) count order size endian 0 (some op)) m fun _ m' =>
      State m' (put ρ c (arrVal order endian size count op)) :=
  .of_wp (impz_import_spec (ref_refused env) h.r2 hc rfl ho he hs0 hc0 hmax (fun k hk => hop _ (bytePos_lt hk))
    fun m' h' => by rw [upd_lift] at h'; exact h'.state)

theorem arrVal_of_encodes {v : Nat} (h : Encodes order endian size count op v) : arrVal order endian size count op = v := by
  show lowVal _ _ = v
  rw [lowVal_eq (V := v) fun k hk => ?_, Nat.mod_eq_of_lt h.1]
  rw [List.getD_eq_getElem?_getD, h.2 k hk, Option.getD_some]

/-- Import recovers the absolute value of what was exported, with any order, endianness and word size, into
any variable.  Missing for the full property: 0 (see `C49_zero`), words of 0 bytes (see `C49_size_zero`) and of
more than `2 ^ 33` bytes. -/
theorem C49_round_trip_partial (h : State m ρ) (ha : ρ a = some x) (hc : ρ c = some w) (hx : x ≠ 0) (ho : order = 1 ∨ order = -1)
    (he : endian = 1 ∨ endian = 0 ∨ endian = -1) (hs0 : 1 ≤ size) (hs : size ≤ 2 ^ 33)
    (hfit : ∀ buf, rop = some buf → ((Nat.size x.natAbs + 7) / 8 + (size - 1)) / size * size ≤ buf.length) :
    Runs env (do
      let p ← impz_export rop order size endian 0 (.var a)
      impz_import (.var c) p.2 order size endian 0 p.1) m fun _ m' => State m' (put ρ c |x|) := by
  have hsz := h.r2.size_le (show lift ρ (.var a) = some x from ha)
  have h1 : expWords size x.natAbs * size ≤ (Nat.size x.natAbs + 7) / 8 + (size - 1) := Nat.div_mul_le_self _ _
  refine .of_wp (wp_bind (impz_export_spec h.r2 ha hx ho he (by omega) hs0 hfit fun buf henc h2 h3 => ?_))
  refine impz_import_spec (ref_refused env) h.r2 hc rfl ho he hs0 (expWords_pos hx hs0) (show expWords size x.natAbs * size ≤ _ by omega)
    (fun k hk => ⟨_, Nat.mod_lt _ (by norm_num), henc.2 k hk⟩) fun m' h' => ?_
  rw [arrVal_of_encodes henc, ← Int.abs_eq_natAbs, upd_lift] at h'
  exact h'.state

/-- Export of 0 writes no words; import of no words does nothing: the variable is not set to 0 (as GMP
does). -/
theorem C49_zero (h : State m ρ) (ha : ρ a = some 0) (ho : order = 1 ∨ order = -1) (he : endian = 1 ∨ endian = 0 ∨ endian = -1) :
    Runs env (do
      let p ← impz_export rop order size endian 0 (.var a)
      impz_import (.var c) p.2 order size endian 0 p.1) m fun _ m' => m' = m := by
  refine .of_wp (wp_bind ?_)
  unfold impz_export
  refine wp_bind (wp_cassert rfl (wp_bind (wp_cassert (decide_eq_true he) (wp_bind (wp_cassert (decide_eq_true ho) ?_)))))
  refine wp_bind (mp_int_compare_zero_spec h.r2 ha (wp_if_pos rfl (wp_pure ?_)))
  cases rop with
  | none => exact wp_pure rfl
  | some b =>
    exact wp_pure (a := ()) (Q := fun _ m' => m' = m) rfl

/-- The concrete case: variable 1 keeps its value 5. -/
theorem C49_zero_witness : outcome (do
      let p ← impz_export (some [9, 9]) 1 1 1 0 (.var 0)
      impz_import (.var 1) p.2 1 1 1 0 p.1) [0, 5] = some ((), [some 0, some 5]) := by decide +kernel

/-- Words of 0 bytes: export divides by 0; import leaves a variable without digits. -/
theorem C49_size_zero : faultOf (impz_export (some [9, 9]) 1 0 1 0 (.var 0)) [7] = some .ub ∧
    (match impz_import (.var 0) 1 1 0 1 0 (some [9, 9]) env0 (memOf [7]) with
      | .ok _ m => rawAt m 0
      | .fault _ => none) = some (0, false, []) := by decide +kernel

/-- The value `-(2 ^ 64 + 0x010203)` in two-byte words, most significant word first, bytes of a word least
significant first, into an allocated array, and back into the same variable -/
example : ∃ m, State m (vars [-(2 ^ 64 + 0x010203)]) ∧ Runs env (do
      let p ← impz_export none 1 2 (-1) 0 (.var 0)
      impz_import (.var 0) p.2 1 2 (-1) 0 p.1) m fun _ m' => State m' (put (vars [-(2 ^ 64 + 0x010203)]) 0 (2 ^ 64 + 0x010203)) :=
  let ⟨m, h⟩ := vars_state (l := [-(2 ^ 64 + 0x010203)]) (by simp)
  ⟨m, h, C49_round_trip_partial (x := -(2 ^ 64 + 0x010203)) (w := -(2 ^ 64 + 0x010203)) h rfl rfl (by decide) (.inl rfl)
    (.inr (.inr rfl)) (by norm_num) (by norm_num) (by simp)⟩

/-- The array in the concrete case -/
example : (outcome (impz_export (some (List.replicate 11 9)) 1 2 (-1) 0 (.var 0)) [-(2 ^ 64 + 0x010203)]).map (·.1) =
    some (some [1, 0, 0, 0, 0, 0, 1, 0, 3, 2, 9], 5) := by decide +kernel

example : ∃ m, State m (vars [7]) ∧ Runs env (impz_import (.var 0) 2 (-1) 3 1 0 (some [1, 2, 3, 4, 5, 6])) m fun _ m' =>
    State m' (put (vars [7]) 0 0x040506010203) := by
  obtain ⟨m, h⟩ := vars_state (l := [7]) (by simp)
  have h1 := C49_import_partial (env := env) (c := 0) (size := 3) (count := 2) (w := 7) (op := [1, 2, 3, 4, 5, 6]) h rfl (.inr rfl) (.inl rfl)
    (by norm_num) (by norm_num) (by norm_num) fun i hi => by
      rcases (by omega : i = 0 ∨ i = 1 ∨ i = 2 ∨ i = 3 ∨ i = 4 ∨ i = 5) with rfl | rfl | rfl | rfl | rfl | rfl <;> exact ⟨_, by norm_num, rfl⟩
  have h2 : arrVal (-1) 1 3 2 [1, 2, 3, 4, 5, 6] = 0x040506010203 := by decide
  rw [h2] at h1
  exact ⟨m, h, h1⟩

end Imath
