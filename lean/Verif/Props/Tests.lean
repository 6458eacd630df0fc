import Verif.Proof.Tests
import Verif.Proof.History
import Verif.Concrete
import Verif.Props.Basic

/-! # The timing program and the small test programs (C66, C67, C68, C69) -/

namespace Imath

variable {env : Env} {m : Mem} {ρ : Nat → Option Int}

/-! ### C66: imtimer -/

/-- Full statement: with every positive number of tests, every precision (0 "means default"), every threshold and
every sequence of random numbers, the program performs its operations and ends with status 0.

This holds for a positive precision and a threshold of at least 8 if no number that is drawn has the most
significant digit 0; what is missing is shown to be false below.  `TopSet rnd p prec` says that one of the four
results of `rand()` that make the top digit of the number drawn after `p` results is not a multiple of 256. -/
theorem C66_timer_partial {num_tests prec thr : Nat} {rnd : Nat → Nat} {do_mul do_exp : Bool} (h : State m ρ) (h1 : 1 ≤ num_tests)
    (h2 : 1 ≤ prec) (h3 : prec < 2 ^ 31) (h4 : 8 ≤ thr) (ht : ∀ j < 5, TopSet rnd (4 * prec * j) prec) :
    Runs env (imtimerMain num_tests prec thr do_mul do_exp rnd) m fun r m' => r = 0 ∧ State m' ρ := by
  refine .of_wp ?_
  unfold imtimerMain
  refine wp_if_neg (by omega) (wp_if_neg (by omega) ?_)
  refine wp_bind (wp_of_runs (h.multiply_threshold h4) fun _ m1 s1 => ?_)
  have t0 := ht 0 (by omega)
  have t1 := ht 1 (by omega)
  have t2 := ht 2 (by omega)
  have t3 := ht 3 (by omega)
  have t4 := ht 4 (by omega)
  rw [Nat.mul_zero] at t0
  rw [Nat.mul_one] at t1
  rw [show 4 * prec * 2 = 4 * prec + 4 * prec by ring] at t2
  rw [show 4 * prec * 3 = 4 * prec + 4 * prec + 4 * prec by ring] at t3
  rw [show 4 * prec * 4 = 4 * prec + 4 * prec + 4 * prec + 4 * prec by ring] at t4
  have fin : ∀ {p : Nat} {m2 : Mem}, TopSet rnd p prec → TopSet rnd (p + 4 * prec) prec → TopSet rnd (p + 4 * prec + 4 * prec) prec →
      R2 m2 (lift ρ) → wp env (Refused env) (do
        let _ ← cif (do_exp = true) (get_exptmod_time (num_tests : Int).toNat prec rnd p) (pure p)
        pure (0 : Int)) (fun r m' => r = 0 ∧ State m' ρ) m2 := by
    intro p m2 a b c r2
    refine wp_bind (wp_cif (fun _ => ?_) fun _ => wp_pure (wp_pure ⟨rfl, r2.state⟩))
    exact get_exptmod_time_spec (ref_refused env) h2 (by omega) a b c r2 fun m3 r3 => wp_pure ⟨rfl, r3.state⟩
  refine wp_bind (wp_cif (fun _ => ?_) fun _ => wp_pure (fin t0 (by simpa using t1) (by simpa using t2) s1.r2))
  refine get_multiply_time_spec (ref_refused env) h2 (by omega) t0 (by simpa using t1) s1.r2 fun m2 r2 => fin ?_ ?_ ?_ r2
  · simpa using t2
  · simpa using t3
  · simpa using t4

/-- `rand()` that returns 1, 2, 3, ...; five tests of both kinds with three digits -/
example : ∃ m, State m demo ∧ Runs env (imtimerMain 5 3 32 true true (· + 1)) m fun r m' => r = 0 ∧ State m' demo := by
  obtain ⟨m, h⟩ := demo_state
  refine ⟨m, h, C66_timer_partial (num_tests := 5) (prec := 3) h (by omega) (by omega) (by omega) (by omega) fun j hj => ⟨0, by omega, ?_⟩⟩
  interval_cases j <;> decide

/-- What the hypothesis on the random numbers means: the top digit that is drawn is not 0. -/
theorem C66_top_digit {rnd : Nat → Nat} {p prec : Nat} :
    TopSet rnd p prec ↔ randDigit rnd (p + 4 * (prec - 1)) 4 0 ≠ 0 := by
  rw [randDigit_eq]
  constructor
  · rintro ⟨k, hk, h⟩
    interval_cases k <;> simp only [Nat.add_zero, ne_eq] at h <;> omega
  · intro h
    by_contra hc
    have h0 : ∀ k < 4, rnd (p + 4 * (prec - 1) + k) % 256 = 0 := fun k hk => by
      by_contra h1
      exact hc ⟨k, hk, h1⟩
    have a0 := h0 0 (by omega)
    have a1 := h0 1 (by omega)
    have a2 := h0 2 (by omega)
    have a3 := h0 3 (by omega)
    simp only [Nat.add_zero] at a0
    omega

/-- Wrong numbers are refused with status 1. -/
theorem C66_wrong_arguments {num_tests prec : Int} {thr : Nat} {rnd : Nat → Nat} {do_mul do_exp : Bool} (h : num_tests ≤ 0 ∨ prec < 0) :
    Runs env (imtimerMain num_tests prec thr do_mul do_exp rnd) m fun r m' => r = 1 ∧ m' = m := by
  refine .of_wp ?_
  unfold imtimerMain
  refine wp_ite (fun _ => wp_pure ⟨rfl, rfl⟩) fun h1 => wp_if_pos (by omega) (wp_pure ⟨rfl, rfl⟩)

example : Runs env (imtimerMain 3 (-1) 0 true true id) m fun r m' => r = 1 ∧ m' = m := C66_wrong_arguments (by omega)

/-- Without option `-t` the threshold is 0, and the program is aborted by the assertion of
`mp_int_multiply_threshold` before the first test: for every positive number of tests, every precision and in
every memory. -/
theorem C66_default_threshold_aborts {num_tests prec : Int} {thr : Nat} {rnd : Nat → Nat} {do_mul do_exp : Bool} (h1 : 0 < num_tests)
    (h2 : 0 ≤ prec) (h3 : thr < 8) : Faults env (imtimerMain num_tests prec thr do_mul do_exp rnd) m .assert := by
  unfold imtimerMain
  rw [if_neg (by omega), if_neg (by omega)]
  refine faults_left ?_
  unfold mp_int_multiply_threshold
  rw [decide_eq_false (show ¬ thr ≥ 8 by omega)]
  rfl

example : Faults env (imtimerMain 100 64 0 true false id) m .assert := C66_default_threshold_aborts (by omega) (by omega) (by omega)

/-- Without option `-p` the precision is 0: the numbers have no digits, and the modular exponentiation reads the
element before the digits of the exponent. -/
theorem C66_default_precision_undefined : faultOf (imtimerMain 1 0 32 false true id) [] = some .ub := by decide +kernel

/-- A modulus whose top digit is 0: `s_norm` shifts a digit that is 0 until its top bit is set, for ever. -/
theorem C66_zero_top_digit_diverges :
    faultOf (imtimerMain 1 2 32 false true fun n => if n < 20 then 1 else 0) [] = some .diverge := by decide +kernel

/-- It is not for lack of fuel that the model reports this: with any amount of it the loop does not end. -/
theorem C66_shift_of_zero (f k : Nat) : Faults env (normLoop f 0 k) m .diverge := by
  induction f generalizing k with
  | zero => rfl
  | succ f ih =>
    unfold normLoop
    rw [if_pos (by omega)]
    exact ih (k + 1)

/-! ### C67: the regression tests for swapping and for reading fractions -/

/-- `bug-swap` prints "OK" and ends with status 0, in every environment. -/
theorem C67_bug_swap (h : State m ρ) : Runs env bugSwapMain m fun r m' => r = (0, true) ∧ State m' ρ :=
  .of_wp (bugSwapMain_spec (ref_refused env) h.r2 fun _ h' => ⟨rfl, h'.state⟩)

example : ∃ m, State m demo ∧ Runs env bugSwapMain m fun r m' => r = (0, true) ∧ State m' demo := by
  obtain ⟨m, h⟩ := demo_state
  exact ⟨m, h, C67_bug_swap h⟩

/-- Full statement: `bug-qread`, with any table of texts, prints one line "ERROR" for each text that is not read with
the expected result, and ends with status 0 and "OK" if and only if there is none.

The lines are as stated.  The status is 1 and "OK" is printed whatever the lines are: `errs` is never increased and
the status is `!errs`.  (The values that have been read are not released.) -/
theorem C67_bug_qread_partial {tests : List QTest} (ht : ∀ t ∈ tests, 2 ≤ t.radix ∧ t.radix ≤ 36 ∧ 0 ∈ t.input.take 800000001) (h : State m ρ) :
    Runs env (bugQreadMain tests) m fun r m' =>
      r = (1, (tests.filter fun t => decide ((readFraction t.radix t.input).res ≠ t.want)).length, true) ∧
      ∀ n v, ρ n = some v → Holds m' (.var n) v := by
  refine .of_wp ?_
  unfold bugQreadMain
  refine wp_bind (bugQreadLoop_spec (ref_refused env) ht h.r2 fun σ' m' r' k' => wp_pure ⟨?_, fun n v hv => r'.holds (k' _ _ hv)⟩)
  rfl

/-- With the table of the program: status 1, though no line "ERROR" is printed. -/
theorem C67_bug_qread_status (h : State m ρ) : Runs env (bugQreadMain qtests) m fun r _ => r = (1, 0, true) := by
  refine (C67_bug_qread_partial (by decide +kernel) h).mono fun r m' ⟨e, _⟩ => ?_
  rw [e]
  have : (qtests.filter fun t => decide ((readFraction t.radix t.input).res ≠ t.want)).length = 0 := by decide +kernel
  rw [this]

/-- "OK" is printed after a line "ERROR" too. -/
theorem C67_bug_qread_error_ok (h : State m ρ) :
    Runs env (bugQreadMain [⟨[49, 47, 48, 0], 10, MP_OK⟩]) m fun r _ => r = (1, 1, true) := by
  refine (C67_bug_qread_partial (by decide +kernel) h).mono fun r m' ⟨e, _⟩ => ?_
  rw [e]
  decide +kernel

example : ∃ m, State m demo ∧ Runs env (bugQreadMain qtests) m fun r _ => r = (1, 0, true) := by
  obtain ⟨m, h⟩ := demo_state
  exact ⟨m, h, C67_bug_qread_status h⟩

/-! ### C68: the round trip through bytes -/

/-- Full statement: for every number, `bintest` prints its bytes in two's complement, the number read back from them,
the bytes of its magnitude, and the magnitude read back from them.

This holds if the decimal numeral has fewer than 512 characters.  `X` and `Y` are the two byte strings printed. -/
theorem C68_bintest_partial {s buf : Bytes} (h : State m ρ) (hn : 0 ∈ s.take 800000001) (hb : buf.length = 512) (h0 : s.head? ≠ some 0)
    (hl : (numeral 10 (scanInt 10 s).1).length < 512) :
    Runs env (bintestMain s buf) m fun r m' => State m' ρ ∧ ∃ X Y : Bytes,
      X.length = binLen (scanInt 10 s).1 ∧ (∀ x ∈ X, x < 256) ∧ twosVal X = (scanInt 10 s).1 ∧
      Y.length = unsLen (scanInt 10 s).1 ∧ (∀ y ∈ Y, y < 256) ∧ (beVal Y : Int) = |(scanInt 10 s).1| ∧
      r = (0, [.code (endCode (scanInt 10 s).2),
        .len (binLen (scanInt 10 s).1), .code MP_OK, .bytes X, .code MP_OK, .text (numeral 10 (scanInt 10 s).1),
        .len (unsLen (scanInt 10 s).1), .code MP_OK, .bytes Y, .code MP_OK, .text (numeral 10 |(scanInt 10 s).1|)]) := by
  refine .of_wp (bintestMain_step (ref_refused env) hn hb h.r2 (fun h => absurd h h0) (fun _ hk => ?_) (fun _ _ _ => by omega)
    fun _ _ X Y m' r' bX bY l1 v1 l2 v2 => ⟨r'.state, X, Y, l1, bX, v1, l2, bY, by rw [v2]; simp, rfl⟩)
  have := binLen_of_numeral hl
  omega

/-- The other inputs: no argument text gives status 1; a number that needs more than 512 bytes gives status 1 after
the result `MP_TRUNC`; and any other number with a numeral of 512 or more characters is written beyond the array
of 512 characters, since `mp_int_to_string` is given the size of the array and stores a NUL after that many. -/
theorem C68_bintest_rest {s buf : Bytes} (h : State m ρ) (hn : 0 ∈ s.take 800000001) (hb : buf.length = 512) :
    (s.head? = some 0 → Runs env (bintestMain s buf) m fun r m' => r = (1, []) ∧ m' = m) ∧
    (s.head? ≠ some 0 → 512 < binLen (scanInt 10 s).1 → Runs env (bintestMain s buf) m fun r m' => State m' ρ ∧
      r = (1, [.code (endCode (scanInt 10 s).2), .len (binLen (scanInt 10 s).1), .code MP_TRUNC])) ∧
    (s.head? ≠ some 0 → binLen (scanInt 10 s).1 ≤ 512 → 512 ≤ (numeral 10 (scanInt 10 s).1).length →
      FaultsOr env (bintestMain s buf) m .ub) := by
  refine ⟨fun h0 => .of_wp ?_, fun h0 h1 => .of_wp ?_, fun h0 h1 h2 => .of_wp ?_⟩
  · exact bintestMain_step (ref_refused env) hn hb h.r2 (fun _ => ⟨rfl, rfl⟩) (fun k => absurd h0 k) (fun k => absurd h0 k) fun k => absurd h0 k
  · refine bintestMain_step (ref_refused env) hn hb h.r2 (fun k => absurd k h0) (fun _ _ m' r' => ⟨r'.state, rfl⟩) (fun _ k => by omega) fun _ hl => ?_
    have := binLen_of_numeral hl
    omega
  · exact bintestMain_step (ref_or env .ub) hn hb h.r2 (fun k => absurd k h0) (fun _ k => by omega) (fun _ _ _ => .inl rfl) fun _ hl => by omega

/-- "-300" -/
example : ∃ m, State m demo ∧ Runs env (bintestMain [45, 51, 48, 48, 0] (List.replicate 512 0)) m fun r m' => State m' demo ∧ ∃ X Y : Bytes,
    X.length = 2 ∧ (∀ x ∈ X, x < 256) ∧ twosVal X = -300 ∧ Y.length = 2 ∧ (∀ y ∈ Y, y < 256) ∧ beVal Y = 300 ∧
    r = (0, [.code MP_OK, .len 2, .code MP_OK, .bytes X, .code MP_OK, .text [45, 51, 48, 48],
      .len 2, .code MP_OK, .bytes Y, .code MP_OK, .text [51, 48, 48]]) := by
  obtain ⟨m, h⟩ := demo_state
  have e : scanInt 10 [45, 51, 48, 48, 0] = (-300, [0]) := by decide +kernel
  have e1 : numeral 10 (-300) = [45, 51, 48, 48] := by decide +kernel
  have e2 : numeral 10 |(-300)| = [51, 48, 48] := by decide +kernel
  have e3 : binLen (-300) = 2 := by decide +kernel
  have e4 : unsLen (-300) = 2 := by decide +kernel
  have := C68_bintest_partial (env := env) (s := [45, 51, 48, 48, 0]) (buf := List.replicate 512 0) h
    (by decide +kernel) (by decide +kernel) (by decide) (by rw [e, e1]; decide)
  rw [e, e1, e2, e3, e4] at this
  refine ⟨m, h, this.mono fun r m' ⟨s', X, Y, a, b, c, d, e, f, g⟩ => ⟨s', X, Y, a, b, c, d, e, ?_, g⟩⟩
  rw [show |(-300 : Int)| = 300 by decide] at f
  omega

/-! ### C69: the round trip through the padding of PKCS#1 -/

/-- For all positive lengths that leave at least 11 bytes for the padding, `rtest` prints the message 1, 2, 3, ...
(modulo 256), its encoding, and the same message decoded.  The filler stores as many bytes as it is told, none of them
0; `C69_random_fill` shows this of the one in the program. -/
theorem C69_rtest {buf_len msg_len : Nat} {filler : Int → Bytes} (h1 : 1 ≤ msg_len) (h2 : msg_len + 11 ≤ buf_len) (h3 : buf_len < 2 ^ 31)
    (hf : (filler (buf_len - msg_len - 3)).length = buf_len - msg_len - 3) (hz : ∀ x ∈ filler (buf_len - msg_len - 3), x ≠ 0) :
    Runs env (rtestMain buf_len msg_len filler) m fun r m' => m' = m ∧
      r = (0, [.bytes ((List.range msg_len).map fun i => (i + 1) % 256),
        .bytes ([0, 2] ++ filler (buf_len - msg_len - 3) ++ [0] ++ (List.range msg_len).map fun i => (i + 1) % 256),
        .bytes ((List.range msg_len).map fun i => (i + 1) % 256)]) :=
  .of_wp (rtestMain_spec h1 h2 h3 hf hz ⟨rfl, rfl⟩)

/-- `random_fill` stores as many bytes as it is told, none of them 0, if the generator does not return multiples of 256
`f` times in succession. -/
theorem C69_random_fill {rnd : Nat → Nat} {f : Nat} (hr : ∀ p, ∃ k < f, rnd (p + k) % 256 ≠ 0) (n p : Nat) :
    Runs env (random_fill rnd f n p) m fun bs m' => m' = m ∧ bs.length = n ∧ ∀ x ∈ bs, x ≠ 0 ∧ x < 256 := by
  refine .of_wp ?_
  have byte : ∀ {Q : Nat × Nat → Mem → Prop} (g p : Nat), (∃ k < g, rnd (p + k) % 256 ≠ 0) → (∀ c q, c ≠ 0 → c < 256 → Q (c, q) m) →
      wp env (Refused env) (randByte rnd g p) Q m := by
    intro Q g
    induction g with
    | zero => rintro p ⟨k, hk, _⟩; omega
    | succ g ih =>
      rintro p ⟨k, hk, hx⟩ hQ
      unfold randByte
      refine wp_ite (fun h0 => ih (p + 1) ?_ hQ) fun h0 => wp_pure (hQ _ _ h0 (by unfold u8; omega))
      cases k with
      | zero => exact absurd h0 hx
      | succ k => exact ⟨k, by omega, by rw [show p + 1 + k = p + (k + 1) by omega]; exact hx⟩
  induction n generalizing p with
  | zero => exact wp_pure ⟨rfl, rfl, by simp⟩
  | succ n ih =>
    unfold random_fill
    refine wp_bind (byte f p (hr p) fun c q h0 h1 => wp_bind (wp_mono (ih q) ?_))
    rintro bs _ ⟨rfl, hl, hb⟩
    refine wp_pure ⟨rfl, by simp [hl], fun x hx => ?_⟩
    rcases List.mem_cons.1 hx with rfl | hx
    · exact ⟨h0, h1⟩
    · exact hb x hx

example : Runs env (random_fill (fun n => 64 * n) 2 5 0) m fun bs m' => m' = m ∧ bs.length = 5 ∧ ∀ x ∈ bs, x ≠ 0 ∧ x < 256 := by
  refine C69_random_fill (fun p => ?_) 5 0
  by_cases h : 64 * p % 256 = 0
  · exact ⟨1, by omega, by omega⟩
  · exact ⟨0, by omega, by simpa using h⟩

/-- Other lengths are refused: status 2 if one of them is not positive, status 1 with `MP_RANGE` if fewer than 11
bytes are left. -/
theorem C69_rtest_refused {buf_len msg_len : Int} {filler : Int → Bytes} :
    (buf_len ≤ 0 ∨ msg_len ≤ 0 → Runs env (rtestMain buf_len msg_len filler) m fun r m' => m' = m ∧ r = (2, [])) ∧
    (1 ≤ buf_len → 1 ≤ msg_len → buf_len < msg_len + 11 → buf_len < 2 ^ 31 →
      Runs env (rtestMain buf_len msg_len filler) m fun r m' => m' = m ∧
        r = (1, [.bytes ((List.range (min buf_len msg_len).toNat).map fun i => (i + 1) % 256), .error MP_RANGE])) := by
  refine ⟨fun h => .of_wp ?_, fun h0 h1 h2 h3 => .of_wp (rtestMain_range h0 h1 h2 h3 ⟨rfl, rfl⟩)⟩
  unfold rtestMain
  exact wp_ite (fun _ => wp_pure ⟨rfl, rfl⟩) fun h1 => wp_if_pos (by omega) (wp_pure ⟨rfl, rfl⟩)

/-- What the loop in `random_fill` is for: with a filler that stores a zero the message decoded is another one, and the
status is 0 as well. -/
theorem C69_zero_filler : outcome (rtestMain 14 3 fun k => 7 :: List.replicate (k.toNat - 1) 0) [] =
    some ((0, [.bytes [1, 2, 3], .bytes [0, 2, 7, 0, 0, 0, 0, 0, 0, 0, 0, 1, 2, 3], .bytes [0, 0, 0, 0, 0, 0, 0, 1, 2, 3]]), []) := by
  decide +kernel

example : Runs env (rtestMain 14 3 fun k => List.replicate k.toNat 9) m fun r m' => m' = m ∧
    r = (0, [.bytes [1, 2, 3], .bytes [0, 2, 9, 9, 9, 9, 9, 9, 9, 9, 0, 1, 2, 3], .bytes [1, 2, 3]]) :=
  C69_rtest (buf_len := 14) (msg_len := 3) (by omega) (by omega) (by omega) (by simp) (by simp)

end Imath
