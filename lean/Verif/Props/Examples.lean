import Verif.Proof.Examples
import Verif.Props.Read

/-!
# C59, C60, C61: the example programs

`basecvt` and `input` print exactly the number that the reference reader of `SpecRead` finds in the text;
`rounding` the number rounded as told; `findprime` the next number that passes the test.  For each program
the limits of this are shown as well.
-/

namespace Imath

variable {env : Env} {m : Mem} {ρ : Nat → Option Int} {i o r : Nat} {s buf : Bytes} {args : List Bytes} {obuf : Nat → Bytes}

/-! ### C59: basecvt.c and input.c -/

/-- For arguments of up to 3906 characters: one line for each argument that can be read completely, until the
first with denominator zero; the status is 0 if there is none of these and the last one was read. -/
theorem C59_basecvt (h : State m ρ) (hi : 2 ≤ i ∧ i ≤ 36) (ho : 2 ≤ o ∧ o ≤ 36) (hob : ∀ n, (obuf n).length = n)
    (hs : ∀ s ∈ args, 0 ∈ s.take 3907) :
    Runs env (basecvtMain i o args obuf) m fun res m' =>
      res.1 = (if (∀ s ∈ args, (readText i s).res ≠ MP_UNDEF) ∧
        args.getLast?.elim MP_OK (fun s => (readText i s).res) = MP_OK then 0 else 1) ∧
      res.2 = (args.takeWhile fun s => (readText i s).res ≠ MP_UNDEF).flatMap (cvtLine i o) ∧ State m' ρ := by
  have hm : ∀ s ∈ args, 0 ∈ s.take 800000001 := fun s h => List.mem_of_mem_take (i := 3907) (by
    rw [List.take_take, Nat.min_eq_left (by omega)]; exact hs s h)
  exact .of_wp (basecvtMain_spec (ref_refused env) hi ho hob hm (fun s h1 h2 => printable_short (.inr hi) (hs s h1) h2) h.r2
    fun st m' h' e => ⟨e, rfl, h'.state⟩)

/-- The same for arguments of any length, if the numbers in them are not too long for `mp_int_string_len`
in the output radix. -/
theorem C59_basecvt_partial (h : State m ρ) (hi : 2 ≤ i ∧ i ≤ 36) (ho : 2 ≤ o ∧ o ≤ 36) (hob : ∀ n, (obuf n).length = n)
    (hs : ∀ s ∈ args, 0 ∈ s.take 800000001)
    (hp : ∀ s ∈ args, (readText i s).res = MP_OK → Printable (goodRadix o) (Rat.divInt (readText i s).num (readText i s).den)) :
    Runs env (basecvtMain i o args obuf) m fun res m' =>
      res.1 = (if (∀ s ∈ args, (readText i s).res ≠ MP_UNDEF) ∧
        args.getLast?.elim MP_OK (fun s => (readText i s).res) = MP_OK then 0 else 1) ∧
      res.2 = (args.takeWhile fun s => (readText i s).res ≠ MP_UNDEF).flatMap (cvtLine i o) ∧ State m' ρ :=
  .of_wp (basecvtMain_spec (ref_refused env) hi ho hob hs hp h.r2 fun st m' h' e => ⟨e, rfl, h'.state⟩)

/-- "-255" and "1/3" and "6/0" from radix 10 into radix 16 -/
example : ∃ m, State m demo ∧ Runs env (basecvtMain 10 16 [[45, 50, 53, 53, 0], [49, 47, 51, 0], [54, 47, 48, 0], [55, 0]]
    fun n => List.replicate n 0) m fun res m' =>
      res.1 = 1 ∧ res.2 = [45, 70, 70, 10, 49, 47, 51, 10] ∧ State m' demo := by
  obtain ⟨m, h⟩ := demo_state
  refine ⟨m, h, ?_⟩
  have := C59_basecvt (env := env) (i := 10) (o := 16) (args := [[45, 50, 53, 53, 0], [49, 47, 51, 0], [54, 47, 48, 0], [55, 0]])
    (obuf := fun n => List.replicate n 0) h (by omega) (by omega) (by simp)
    (by intro s hs; simp only [List.mem_cons, List.not_mem_nil, or_false] at hs; rcases hs with rfl | rfl | rfl | rfl <;> simp)
  have e1 : readText 10 [45, 50, 53, 53, 0] = ⟨MP_OK, some [0], -255, 1⟩ := by decide +kernel
  have e2 : readText 10 [49, 47, 51, 0] = ⟨MP_OK, some [0], 1, 3⟩ := by decide +kernel
  have e3 : readText 10 [54, 47, 48, 0] = ⟨MP_UNDEF, some [0], 6, 0⟩ := by decide +kernel
  have e4 : cvtLine 10 16 [45, 50, 53, 53, 0] = [45, 70, 70, 10] := by decide +kernel
  have e5 : cvtLine 10 16 [49, 47, 51, 0] = [49, 47, 51, 10] := by decide +kernel
  refine this.mono fun res m' ⟨h1, h2, h3⟩ => ⟨?_, ?_, h3⟩
  · rw [h1, if_neg]; simp [e3]
  · rw [h2]
    simp [List.takeWhile, e1, e2, e3, e4, e5, MP_OK, MP_UNDEF]

theorem C59_basecvt_bad_radix (h : State m ρ) (hr : i < 2 ∨ 36 < i ∨ o < 2 ∨ 36 < o) :
    Runs env (basecvtMain i o args obuf) m fun res m' => res = (3, []) ∧ State m' ρ := by
  refine .of_wp ?_
  unfold basecvtMain
  by_cases h1 : i < 2 ∨ i > 36
  · exact wp_if_pos h1 (wp_pure ⟨rfl, h⟩)
  · exact wp_if_neg h1 (wp_if_pos (by omega) (wp_pure ⟨rfl, h⟩))

example : ∃ m, State m demo ∧ Runs env (basecvtMain 10 37 [[49, 0]] fun n => List.replicate n 0) m fun res m' =>
    res = (3, []) ∧ State m' demo :=
  let ⟨m, h⟩ := demo_state; ⟨m, h, C59_basecvt_bad_radix h (by omega)⟩

/-- The claim for all arguments is false.  If the first argument is a text of 13^5458 and the output radix
is 13, the program writes beyond the end of the buffer it has allocated (unless memory runs out before). -/
theorem C59_basecvt_overruns (h : State m ρ) (hi : 2 ≤ i ∧ i ≤ 36) (hob : ∀ n, (obuf n).length = n) (hs : 0 ∈ s.take 800000001)
    (h1 : (readText i s).res = MP_OK) (h2 : (readText i s).num = 13 ^ 5458) (h3 : (readText i s).den = 1) :
    FaultsOr env (basecvtMain i 13 (s :: args) obuf) m .ub :=
  .of_wp (basecvtMain_fault (ref_or env _) (.inl rfl) hi hob hs h.r2 h1 h2 h3)

theorem big_short (hi : 2 ≤ i ∧ i ≤ 36) : 0 ∈ (numeral i (13 ^ 5458) ++ [0]).take 800000001 := by
  have hp : (0 : Int) < 13 ^ 5458 := pow_pos (by norm_num) _
  have hb : ((13 : Int) ^ 5458).natAbs < 2 ^ 20197 := by
    rw [Int.natAbs_pow]; decide +kernel
  have hl : (numeral i (13 ^ 5458)).length ≤ 20197 := by
    generalize (13 : Int) ^ 5458 = x at *
    have hn : x.natAbs ≠ 0 := by omega
    unfold numeral numeralN
    rw [if_neg (by omega), if_neg hn, List.nil_append, List.length_reverse, List.length_map, Nat.digits_length_le_iff (by omega)]
    exact lt_of_lt_of_le hb (Nat.pow_le_pow_left hi.1 _)
  rw [List.take_of_length_le (by simp only [List.length_append, List.length_singleton]; omega)]
  simp

/-- The argument is the number in decimal. -/
example : ∃ m, State m demo ∧ FaultsOr env (basecvtMain 10 13 [numeral 10 (13 ^ 5458) ++ [0]] fun n => List.replicate n 0) m .ub := by
  obtain ⟨m, h⟩ := demo_state
  have e := readText_numeral (i := 10) (by omega) (13 ^ 5458) []
  exact ⟨m, h, C59_basecvt_overruns h (by omega) (by simp) (big_short (by omega)) (by rw [e]) (by rw [e]) (by rw [e])⟩

/-- `input` prints the number, in lowest terms, if it could read all of the text, and else fails. -/
theorem C59_input (h : State m ρ) (ho : 2 ≤ o ∧ o ≤ 36) (hob : ∀ n, (obuf n).length = n) (hs : 0 ∈ s.take 3907) :
    Runs env (inputMain s o obuf) m fun res m' =>
      res = (if (readText 0 s).res = MP_OK then 0 else 1, cvtLine 0 o s) ∧ State m' ρ := by
  have hm : 0 ∈ s.take 800000001 := List.mem_of_mem_take (i := 3907) (by
    rw [List.take_take, Nat.min_eq_left (by omega)]; exact hs)
  exact .of_wp (inputMain_spec (ref_refused env) ho hob hm h.r2 (fun h2 => printable_short (.inl rfl) hs h2) fun m' h' => ⟨rfl, h'.state⟩)

theorem C59_input_partial (h : State m ρ) (ho : 2 ≤ o ∧ o ≤ 36) (hob : ∀ n, (obuf n).length = n) (hs : 0 ∈ s.take 800000001)
    (hp : (readText 0 s).res = MP_OK → Printable (goodRadix o) (Rat.divInt (readText 0 s).num (readText 0 s).den)) :
    Runs env (inputMain s o obuf) m fun res m' =>
      res = (if (readText 0 s).res = MP_OK then 0 else 1, cvtLine 0 o s) ∧ State m' ρ :=
  .of_wp (inputMain_spec (ref_refused env) ho hob hs h.r2 hp fun m' h' => ⟨rfl, h'.state⟩)

/-- "-3.75" in radix 8 -/
example : ∃ m, State m demo ∧ Runs env (inputMain [45, 51, 46, 55, 53, 0] 8 fun n => List.replicate n 0) m fun res m' =>
    res = (0, [45, 49, 55, 47, 52, 10]) ∧ State m' demo := by
  obtain ⟨m, h⟩ := demo_state
  refine ⟨m, h, (C59_input h (by omega) (by simp) (by simp)).mono fun res m' ⟨h1, h2⟩ => ⟨?_, h2⟩⟩
  rw [h1]
  decide +kernel

theorem C59_input_overruns (h : State m ρ) (hob : ∀ n, (obuf n).length = n) (hs : 0 ∈ s.take 800000001)
    (h1 : (readText 0 s).res = MP_OK) (h2 : (readText 0 s).num = 13 ^ 5458) (h3 : (readText 0 s).den = 1) :
    FaultsOr env (inputMain s 13 obuf) m .ub :=
  .of_wp (inputMain_fault (ref_or env _) (.inl rfl) hob hs h.r2 h1 h2 h3)

example : ∃ m, State m demo ∧ FaultsOr env (inputMain (numeral 10 (13 ^ 5458) ++ [0]) 13 fun n => List.replicate n 0) m .ub := by
  obtain ⟨m, h⟩ := demo_state
  have e : readText 0 (numeral 10 (13 ^ 5458) ++ [0]) = readText 10 (numeral 10 (13 ^ 5458) ++ [0]) := rfl
  rw [readText_numeral (i := 10) (by omega) (13 ^ 5458) []] at e
  exact ⟨m, h, C59_input_overruns h (by simp) (big_short (by omega)) (by rw [e]) (by rw [e]) (by rw [e])⟩

/-! ### C60: rounding.c -/

/-- For the four rounding modes and as long as rounding up does not carry, the program prints the text of the
number `p` it has read, rounded to `prec` digits. -/
theorem C60_rounding_partial {mode prec : Nat} {p : ℚ} (h : State m ρ) (hr : 2 ≤ r ∧ r ≤ 36) (hm : mode ≤ 3)
    (hob : ∀ n, (obuf n).length = n) (hs : 0 ∈ s.take 800000001)
    (hp : p = Rat.divInt (readDecimal r s).num (readDecimal r s).den)
    (hx : prec = 0 ∨ goodRadix r = true ∨ |p.num| < 13 ^ 5458) (hs2 : Nat.size p.num.natAbs + prec ≤ 2147483642)
    (hc : ¬ Carries r prec (roundQ 0 (|p| * r ^ prec)) (roundQ mode (|p| * r ^ prec))) :
    Runs env (roundingMain mode prec r s obuf) m fun res m' =>
      res.1 = (readDecimal r s).res ∧
      res.2 = (if (readDecimal r s).res = MP_OK then decText r prec (p < 0) (roundQ mode (|p| * r ^ prec)) else []) ∧ State m' ρ :=
  .of_wp (roundingMain_spec (ref_refused env) hr hm hob hs h.r2 (fun _ => ⟨hp, hx, hs2, fun k => (hc k).elim⟩) fun m' h' =>
    ⟨rfl, by unfold decWritten; rw [if_neg hc], h'.state⟩)

/-- If rounding up carries, the program prints a text that is never the right one (`C40_carry_always_wrong`), with status 0.
Missing: numerators of one digit, for which the buffer may be too short (`C53_decimal_len_carry_short`). -/
theorem C60_carry_partial {mode prec : Nat} {p : ℚ} (h : State m ρ) (hr : 2 ≤ r ∧ r ≤ 36) (hm : mode ≤ 3)
    (hob : ∀ n, (obuf n).length = n) (hs : 0 ∈ s.take 800000001) (hok : (readDecimal r s).res = MP_OK)
    (hp : p = Rat.divInt (readDecimal r s).num (readDecimal r s).den)
    (hx : goodRadix r = true ∨ |p.num| < 13 ^ 5458) (hs2 : Nat.size p.num.natAbs + prec ≤ 2147483642) (hb : r ≤ p.num.natAbs)
    (hc : Carries r prec (roundQ 0 (|p| * r ^ prec)) (roundQ mode (|p| * r ^ prec))) :
    Runs env (roundingMain mode prec r s obuf) m fun res m' =>
      res.1 = MP_OK ∧ res.2 = carryText r prec (p < 0) (roundQ 0 (|p| * r ^ prec)) ∧ State m' ρ :=
  .of_wp (roundingMain_spec (ref_refused env) hr hm hob hs h.r2 (fun _ => ⟨hp, .inr hx, hs2, fun _ => hb⟩) fun m' h' =>
    ⟨hok, by rw [if_pos hok]; unfold decWritten; rw [if_pos hc], h'.state⟩)

/-- "0.095" to two digits, to the nearest -/
example : ∃ m, State m demo ∧ Runs env (roundingMain 1 2 10 [48, 46, 48, 57, 53, 0] fun n => List.replicate n 90) m fun res m' =>
    res.1 = MP_OK ∧ res.2 = [48, 46, 48, 49, 48] ∧ State m' demo := by
  obtain ⟨m, h⟩ := demo_state
  have e : readDecimal 10 [48, 46, 48, 57, 53, 0] = ⟨MP_OK, some [0], 19, 200⟩ := by decide +kernel
  have hp : (19 / 200 : ℚ) = Rat.divInt (readDecimal 10 [48, 46, 48, 57, 53, 0]).num (readDecimal 10 [48, 46, 48, 57, 53, 0]).den := by
    rw [e, Rat.divInt_eq_div]; norm_num
  have e1 : (19 / 200 : ℚ).num = 19 := by decide +kernel
  have e2 : roundQ 0 (|(19 / 200 : ℚ)| * (10 : Nat) ^ 2) = 9 := by decide +kernel
  have e3 : roundQ 1 (|(19 / 200 : ℚ)| * (10 : Nat) ^ 2) = 10 := by decide +kernel
  refine ⟨m, h, (C60_carry_partial (mode := 1) (prec := 2) h (by omega) (by omega) (by simp) (by
    rw [List.take_of_length_le (by simp)]; simp) (by rw [e]) hp (.inl (by decide)) (by rw [e1]; decide) (by rw [e1]; decide)
    (by rw [e2, e3]; exact ⟨by norm_num, by norm_num, 1, by norm_num, by norm_num⟩)).mono fun res m' ⟨h1, h2, h3⟩ => ⟨h1, ?_, h3⟩⟩
  rw [h2, e2]
  decide +kernel

/-- "-2.718" to two digits, upwards in absolute value -/
example : ∃ m, State m demo ∧ Runs env (roundingMain 2 2 10 [45, 50, 46, 55, 49, 56, 0] fun n => List.replicate n 0) m fun res m' =>
    res.1 = MP_OK ∧ res.2 = [45, 50, 46, 55, 50] ∧ State m' demo := by
  obtain ⟨m, h⟩ := demo_state
  have e : readDecimal 10 [45, 50, 46, 55, 49, 56, 0] = ⟨MP_OK, some [0], -1359, 500⟩ := by decide +kernel
  have hp : (-1359 / 500 : ℚ) = Rat.divInt (readDecimal 10 [45, 50, 46, 55, 49, 56, 0]).num (readDecimal 10 [45, 50, 46, 55, 49, 56, 0]).den := by
    rw [e, Rat.divInt_eq_div]; norm_num
  have e1 : (-1359 / 500 : ℚ).num = -1359 := by decide +kernel
  refine ⟨m, h, (C60_rounding_partial (mode := 2) (prec := 2) h (by omega) (by omega) (by simp) (by
    rw [List.take_of_length_le (by simp)]; simp) hp (.inr (.inl (by decide))) (by rw [e1]; decide) ?_).mono fun res m' ⟨h1, h2, h3⟩ => ⟨?_, ?_, h3⟩⟩
  · rw [show roundQ 0 (|(-1359 / 500 : ℚ)| * (10 : Nat) ^ 2) = 271 by decide +kernel,
      show roundQ 2 (|(-1359 / 500 : ℚ)| * (10 : Nat) ^ 2) = 272 by decide +kernel]
    rintro ⟨_, _, k, hk, hk2⟩
    have : k < 10 ∨ 10 ≤ k := by omega
    rcases this with h | h
    · interval_cases k <;> omega
    · have := Nat.pow_le_pow_right (show 0 < 10 by omega) h; omega
  · rw [h1, e]
  · rw [h2, e, show roundQ 2 (|(-1359 / 500 : ℚ)| * (10 : Nat) ^ 2) = 272 by decide +kernel]
    decide +kernel

/-- The claim is false for numbers where rounding carries: 0.095 to two digits should be 0.10, but the
program prints 0.010. -/
theorem C60_carry_wrong : outcome (roundingMain 1 2 10 [48, 46, 48, 57, 53, 0] fun n => List.replicate n 90) [] =
      some ((MP_OK, [48, 46, 48, 49, 48]), []) ∧
    decText 10 2 (95 / 1000 < (0 : ℚ)) (roundQ 1 (|(95 / 1000 : ℚ)| * 10 ^ 2)) = [48, 46, 49, 48] := by
  constructor
  · decide +kernel
  · rw [show roundQ 1 (|(95 / 1000 : ℚ)| * 10 ^ 2) = 10 by decide +kernel]
    decide +kernel

/-- With any other rounding mode the program prints the buffer though nothing has been written to it: the
text is whatever the memory contained, -/
theorem C60_bad_mode_prints_garbage : outcome (roundingMain 4 2 10 [51, 0] fun n => [72, 105, 0] ++ List.replicate (n - 3) 90) [] =
    some ((MP_BADARG, [72, 105]), []) := by
  decide +kernel

/-- and if there is no NUL in it, the program reads beyond the end. -/
theorem C60_bad_mode_overruns : faultOf (roundingMain 4 2 10 [51, 0] fun n => List.replicate n 90) [] = some .ub := by
  decide +kernel

/-- The radix is not checked by the program. -/
theorem C60_bad_radix : faultOf (roundingMain 1 2 37 [51, 0] fun n => List.replicate n 90) [] = some .assert := by
  decide +kernel

/-! ### C61: findprime.c -/

/-- The program fails with status 2 if the text is not a decimal integer, and with 1 if this is 131 or less. -/
theorem C61_findprime_refuses (h : State m ρ) (hs : 0 ∈ s.take 800000001)
    (hx : (scanInt 10 s).2.head? = some 0 → (scanInt 10 s).1 ≤ 131) :
    Runs env (findprimeMain s buf) m fun res m' =>
      res = (if (scanInt 10 s).2.head? = some 0 then 1 else 2, []) ∧ State m' ρ :=
  .of_wp (findprimeMain_step (ref_refused env) hs h.r2 (fun hk m' h' => ⟨by rw [if_neg hk], h'.state⟩)
    (fun hk _ m' h' => ⟨by rw [if_pos hk], h'.state⟩) fun hk h1 => by have := hx hk; omega)

/-- "100" and "200." -/
example : ∃ m, State m demo ∧ Runs env (findprimeMain [49, 48, 48, 0] (List.replicate 4096 0)) m (fun res m' =>
      res = (1, []) ∧ State m' demo) ∧
    Runs env (findprimeMain [50, 48, 48, 46, 0] (List.replicate 4096 0)) m fun res m' => res = (2, []) ∧ State m' demo := by
  obtain ⟨m, h⟩ := demo_state
  have e1 : scanInt 10 [49, 48, 48, 0] = (100, [0]) := by decide +kernel
  have e2 : scanInt 10 [50, 48, 48, 46, 0] = (200, [46, 0]) := by decide +kernel
  refine ⟨m, h, ?_, ?_⟩
  · have := C61_findprime_refuses (env := env) (buf := List.replicate 4096 0) (s := [49, 48, 48, 0]) h (by rw [List.take_of_length_le (by simp)]; simp)
      (by rw [e1]; decide)
    rw [e1] at this
    exact this
  · have := C61_findprime_refuses (env := env) (buf := List.replicate 4096 0) (s := [50, 48, 48, 46, 0]) h (by rw [List.take_of_length_le (by simp)]; simp)
      (by rw [e2]; decide)
    rw [e2] at this
    exact this

/-- Else it prints the least number from there on that passes the test, if one of up to 4095 digits does. -/
theorem C61_findprime_partial {y : Int} (h : State m ρ) (hs : 0 ∈ s.take 800000001) (hb : buf.length = 4096)
    (hx : (scanInt 10 s).2.head? = some 0) (hx1 : 131 < (scanInt 10 s).1)
    (hy : Accepted y) (hxy : (scanInt 10 s).1 ≤ y) (hy1 : y < 10 ^ 4095) :
    Runs env (findprimeMain s buf) m fun res m' => ∃ w, res = (0, [61, 62, 32] ++ numeral 10 w ++ [10]) ∧
      (scanInt 10 s).1 ≤ w ∧ Accepted w ∧ (∀ u, (scanInt 10 s).1 ≤ u → u < w → ¬ Accepted u) ∧ State m' ρ :=
  .of_wp (findprimeMain_ok (ref_refused env) hs h.r2 hx hx1 hb hy hxy hy1 fun w _ h' h1 h2 h3 => ⟨w, rfl, h1, h2, h3, h'.state⟩)

/-- In particular for every number of at most 4094 digits (there is a prime between `x` and `2 * x`). -/
theorem C61_findprime_4094 (h : State m ρ) (hs : 0 ∈ s.take 800000001) (hb : buf.length = 4096)
    (hx : (scanInt 10 s).2.head? = some 0) (hx1 : 131 < (scanInt 10 s).1) (hx2 : (scanInt 10 s).1 < 10 ^ 4094) :
    Runs env (findprimeMain s buf) m fun res m' => ∃ w, res = (0, [61, 62, 32] ++ numeral 10 w ++ [10]) ∧
      (scanInt 10 s).1 ≤ w ∧ Accepted w ∧ (∀ u, (scanInt 10 s).1 ≤ u → u < w → ¬ Accepted u) ∧ State m' ρ := by
  obtain ⟨p, hp, h1, h2⟩ := Nat.exists_prime_lt_and_le_two_mul (scanInt 10 s).1.toNat (by omega)
  refine C61_findprime_partial h hs hb hx hx1 (accepted_of_prime hp) (by omega) ?_
  rw [show (10 : Int) ^ 4095 = 10 ^ 4094 * 10 from pow_succ 10 4094]
  generalize (10 : Int) ^ 4094 = X at *
  omega

/-- Else the text of the number found does not fit: the program writes beyond the end of the array (unless
memory runs out before). -/
theorem C61_findprime_overruns (h : State m ρ) (hs : 0 ∈ s.take 800000001) (hb : buf.length = 4096)
    (hx : (scanInt 10 s).2.head? = some 0) (hx1 : 131 < (scanInt 10 s).1)
    (hy : ∀ y, (scanInt 10 s).1 ≤ y → y < 10 ^ 4095 → ¬ Accepted y) :
    FaultsOr env (findprimeMain s buf) m .ub :=
  .of_wp (findprimeMain_fault (ref_or env _) (.inl rfl) hs h.r2 hx hb hx1 hy)

/-- "200" -/
example : ∃ m, State m demo ∧ Runs env (findprimeMain [50, 48, 48, 0] (List.replicate 4096 0)) m fun res m' =>
    ∃ w, res = (0, [61, 62, 32] ++ numeral 10 w ++ [10]) ∧
      200 ≤ w ∧ Accepted w ∧ (∀ u, 200 ≤ u → u < w → ¬ Accepted u) ∧ State m' demo := by
  obtain ⟨m, h⟩ := demo_state
  have e : scanInt 10 [50, 48, 48, 0] = (200, [0]) := by decide +kernel
  have := C61_findprime_4094 (env := env) (s := [50, 48, 48, 0]) (buf := List.replicate 4096 0) h (by rw [List.take_of_length_le (by simp)]; simp)
    List.length_replicate (by rw [e]; rfl) (by rw [e]; decide) (by
      rw [e]; exact lt_of_lt_of_le (by norm_num : (200 : Int) < 10 ^ 3) (pow_le_pow_right₀ (by norm_num) (by norm_num)))
  rw [e] at this
  exact ⟨m, h, this⟩

/-- 10^4095 in decimal. -/
example : ∃ m, State m demo ∧ FaultsOr env (findprimeMain (numeral 10 (10 ^ 4095) ++ [0]) (List.replicate 4096 0)) m .ub := by
  obtain ⟨m, h⟩ := demo_state
  have hl : 131 < (10 : Int) ^ 4095 := lt_of_lt_of_le (by norm_num : (131 : Int) < 10 ^ 3) (pow_le_pow_right₀ (by norm_num) (by norm_num))
  have hlen := (numeral_len_le (w := 10 ^ 4095) (by omega) 4096).2 (pow_lt_pow_right₀ (by norm_num) (by norm_num))
  have hX : ∀ y, (10 : Int) ^ 4095 ≤ y → y < 10 ^ 4095 → ¬ Accepted y := fun y h1 h2 => absurd h2 (not_lt.2 h1)
  generalize hx : (10 : Int) ^ 4095 = x at *
  have e := (scanInt_numeral (r := 10) (ch := 0) (by norm_num) (by norm_num) x (fun d => not_isDigit_zero) []).1
  refine ⟨m, h, C61_findprime_overruns h ?_ List.length_replicate (by rw [e]; rfl) (by rw [e]; exact hl) (by rw [e, hx]; exact hX)⟩
  rw [List.take_of_length_le (by simp only [List.length_append, List.length_singleton]; omega)]
  simp

end Imath
