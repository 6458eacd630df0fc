import Verif.Props.Basic
import Verif.Props.Rat
import Verif.Proof.Read

/-!
# Property C58: every text is read as the reference reader reads it

The reference reader is defined in `Verif/SpecRead.lean`.  The hypothesis `0 ∈ s.take 800000001` says
that the text has at most 800000000 characters before the NUL.
-/

namespace Imath

variable {env : Env} {m : Mem} {ρ : Nat → Option Int} {c : RVar} {k r : Nat} {w : Int} {s : Bytes}

/-! ### The reference reader -/

/-- It inverts the numerals of integers. -/
theorem C58_reader_int (hr : 2 ≤ r ∧ r ≤ 36) (v : Int) (t : List Nat) : scanInt r (numeral r v ++ 0 :: t) = (v, 0 :: t) :=
  (scanInt_numeral hr.1 hr.2 v (fun _ => not_isDigit_zero) t).1

example : scanInt 16 [32, 9, 45, 55, 102, 71, 0] = (-127, [71, 0]) := by decide +kernel

/-- It inverts the text of fractions. -/
theorem C58_reader_fraction (hr : 2 ≤ r ∧ r ≤ 36) (q : ℚ) (t : List Nat) :
    readFraction r (ratText r q ++ 0 :: t) = ⟨MP_OK, some (0 :: t), q.num, q.den⟩ := readFraction_ratText hr.1 hr.2 q t

/-- " -6 / 4" -/
example : readFraction 10 [32, 45, 54, 32, 47, 32, 52, 0] = ⟨MP_OK, some [0], -3, 2⟩ := by decide +kernel

/-- It inverts positional notation. -/
theorem C58_reader_decimal (hr : 2 ≤ r ∧ r ≤ 36) (prec N : Nat) (neg : Prop) [Decidable neg] (t : List Nat) {q : ℚ}
    (hq : q = (if neg then -1 else 1) * (N / (r : ℚ) ^ prec)) :
    readDecimal r (decText r prec neg N ++ 0 :: t) = ⟨MP_OK, some (0 :: t), q.num, q.den⟩ :=
  readDecimal_decText hr.1 hr.2 prec N neg t hq

/-- "-0.050" -/
example : readDecimal 10 [45, 48, 46, 48, 53, 48, 0] = ⟨MP_OK, some [0], -1, 20⟩ := by decide +kernel

/-- A text that is read completely yields a number in lowest terms, in each of the three formats. -/
theorem C58_reader_lowest :
    ((readFraction r s).res = MP_OK → ∃ q : ℚ, (readFraction r s).num = q.num ∧ (readFraction r s).den = q.den) ∧
    (∃ q : ℚ, (readDecimal r s).num = q.num ∧ (readDecimal r s).den = q.den) ∧
    ((readText r s).res = MP_OK → ∃ q : ℚ, (readText r s).num = q.num ∧ (readText r s).den = q.den) :=
  ⟨readFraction_ok, readDecimal_q s, readText_ok⟩

/-! ### The functions of the library -/

/-- The second result is the index of `*end` in the text. -/
theorem C58_read_int (h : State m ρ) (hc : ρ k = some w) (hr : 2 ≤ r ∧ r ≤ 36) (hnul : 0 ∈ s.take 800000001) :
    Runs env (mp_int_read_cstring (.var k) r s) m fun res m' =>
      res = (endCode (scanInt r s).2, s.length - (scanInt r s).2.length) ∧ State m' (put ρ k (scanInt r s).1) :=
  .of_wp (read_cstring_total (ref_refused env) hr.1 hr.2 hnul rfl h.r2 hc fun _ h' => ⟨rfl, by rw [upd_lift] at h'; exact h'.state⟩)

example : ∃ m, State m demo ∧ Runs env (mp_int_read_cstring (.var 2) 10 [45, 49, 50, 120, 0]) m fun res m' =>
    res = (MP_TRUNC, 3) ∧ State m' (put demo 2 (-12)) := by
  obtain ⟨m, h⟩ := demo_state
  have e : scanInt 10 [45, 49, 50, 120, 0] = (-12, [120, 0]) := by decide +kernel
  have := C58_read_int (env := env) (k := 2) (r := 10) (s := [45, 49, 50, 120, 0]) h rfl (by omega)
    (by rw [List.take_of_length_le (by simp)]; simp)
  rw [e] at this
  exact ⟨m, h, this⟩

/-- `mp_rat_read_cstring`; `mp_rat_read_string` is the same without `end`. -/
theorem C58_read_fraction (h : State m ρ) (hc : ReadyQ ρ c) (hr : 2 ≤ r ∧ r ≤ 36) (hnul : 0 ∈ s.take 800000001) :
    Runs env (mp_rat_read_cstring c.p r s) m fun res m' =>
      res = ((readFraction r s).res, (readFraction r s).rest.map fun t => s.length - t.length) ∧
      State m' (put (put ρ c.num (readFraction r s).num) c.den (readFraction r s).den) :=
  .of_wp (mp_rat_read_cstring_total (ref_refused env) hr.1 hr.2 hnul h.r2 hc.l fun m' h' => ⟨rfl, by
    rw [show c.p.num = .var c.num from rfl, show c.p.den = .var c.den from rfl, upd_lift, upd_lift] at h'; exact h'.state⟩)

theorem C58_read_fraction_string (h : State m ρ) (hc : ReadyQ ρ c) (hr : 2 ≤ r ∧ r ≤ 36) (hnul : 0 ∈ s.take 800000001) :
    Runs env (mp_rat_read_string c.p r s) m fun res m' => res = (readFraction r s).res ∧
      State m' (put (put ρ c.num (readFraction r s).num) c.den (readFraction r s).den) :=
  .of_wp (wp_bind (mp_rat_read_cstring_total (ref_refused env) hr.1 hr.2 hnul h.r2 hc.l fun m' h' => wp_pure ⟨rfl, by
    rw [show c.p.num = .var c.num from rfl, show c.p.den = .var c.den from rfl, upd_lift, upd_lift] at h'; exact h'.state⟩))

/-- "2/4x": what has been read is stored without being reduced. -/
example : ∃ m, State m demoQ ∧ Runs env (mp_rat_read_cstring qa.p 10 [50, 47, 52, 120, 0]) m fun res m' =>
    res = (MP_TRUNC, some 3) ∧ State m' (put (put demoQ qa.num 2) qa.den 4) := by
  obtain ⟨m, h⟩ := demoQ_state
  have e : readFraction 10 [50, 47, 52, 120, 0] = ⟨MP_TRUNC, some [120, 0], 2, 4⟩ := by decide +kernel
  have := C58_read_fraction (env := env) (r := 10) (s := [50, 47, 52, 120, 0]) h (demoQ_a.ready (by decide)) (by omega)
    (by rw [List.take_of_length_le (by simp)]; simp)
  rw [e] at this
  exact ⟨m, h, this⟩

/-- `mp_rat_read_cdecimal`; `mp_rat_read_decimal` is the same without `end`. -/
theorem C58_read_decimal (h : State m ρ) (hc : ReadyQ ρ c) (hr : 2 ≤ r ∧ r ≤ 36) (hnul : 0 ∈ s.take 800000001) :
    Runs env (mp_rat_read_cdecimal c.p r s) m fun res m' =>
      res = ((readDecimal r s).res, (readDecimal r s).rest.map fun t => s.length - t.length) ∧
      State m' (put (put ρ c.num (readDecimal r s).num) c.den (readDecimal r s).den) :=
  .of_wp (mp_rat_read_cdecimal_total (ref_refused env) hr.1 hr.2 hnul h.r2 hc.l fun m' h' => ⟨rfl, by
    rw [show c.p.num = .var c.num from rfl, show c.p.den = .var c.den from rfl, upd_lift, upd_lift] at h'; exact h'.state⟩)

theorem C58_read_decimal_string (h : State m ρ) (hc : ReadyQ ρ c) (hr : 2 ≤ r ∧ r ≤ 36) (hnul : 0 ∈ s.take 800000001) :
    Runs env (mp_rat_read_decimal c.p r s) m fun res m' => res = (readDecimal r s).res ∧
      State m' (put (put ρ c.num (readDecimal r s).num) c.den (readDecimal r s).den) :=
  .of_wp (wp_bind (mp_rat_read_cdecimal_total (ref_refused env) hr.1 hr.2 hnul h.r2 hc.l fun m' h' => wp_pure ⟨rfl, by
    rw [show c.p.num = .var c.num from rfl, show c.p.den = .var c.den from rfl, upd_lift, upd_lift] at h'; exact h'.state⟩))

/-- "-.5" -/
example : ∃ m, State m demoQ ∧ Runs env (mp_rat_read_cdecimal qa.p 10 [45, 46, 53, 0]) m fun res m' =>
    res = (MP_OK, some 3) ∧ State m' (put (put demoQ qa.num (-1)) qa.den 2) := by
  obtain ⟨m, h⟩ := demoQ_state
  have e : readDecimal 10 [45, 46, 53, 0] = ⟨MP_OK, some [0], -1, 2⟩ := by decide +kernel
  have := C58_read_decimal (env := env) (r := 10) (s := [45, 46, 53, 0]) h (demoQ_a.ready (by decide)) (by omega)
    (by rw [List.take_of_length_le (by simp)]; simp)
  rw [e] at this
  exact ⟨m, h, this⟩

/-- `mp_rat_read_ustring`, which accepts both formats; radix 0 stands for 10. -/
theorem C58_read_text (h : State m ρ) (hc : ReadyQ ρ c) (hr : r = 0 ∨ 2 ≤ r ∧ r ≤ 36) (hnul : 0 ∈ s.take 800000001) :
    Runs env (mp_rat_read_ustring c.p r s) m fun res m' =>
      res = ((readText r s).res, (readText r s).rest.map fun t => s.length - t.length) ∧
      State m' (put (put ρ c.num (readText r s).num) c.den (readText r s).den) :=
  .of_wp (mp_rat_read_ustring_total (ref_refused env) hr hnul h.r2 hc.l fun m' h' => ⟨rfl, by
    rw [show c.p.num = .var c.num from rfl, show c.p.den = .var c.den from rfl, upd_lift, upd_lift] at h'; exact h'.state⟩)

/-- "7/2.5": the point after the denominator makes the function start again, and it then stops at the slash. -/
example : ∃ m, State m demoQ ∧ Runs env (mp_rat_read_ustring qa.p 0 [55, 47, 50, 46, 53, 0]) m fun res m' =>
    res = (MP_TRUNC, some 1) ∧ State m' (put (put demoQ qa.num 7) qa.den 1) := by
  obtain ⟨m, h⟩ := demoQ_state
  have e : readText 0 [55, 47, 50, 46, 53, 0] = ⟨MP_TRUNC, some [47, 50, 46, 53, 0], 7, 1⟩ := by decide +kernel
  have := C58_read_text (env := env) (r := 0) (s := [55, 47, 50, 46, 53, 0]) h (demoQ_a.ready (by decide)) (.inl rfl)
    (by rw [List.take_of_length_le (by simp)]; simp)
  rw [e] at this
  exact ⟨m, h, this⟩

/-- Whatever function is used: a text that is read completely leaves a number in lowest terms. -/
theorem C58_read_text_lowest (h : State m ρ) (hc : ReadyQ ρ c) (hr : r = 0 ∨ 2 ≤ r ∧ r ≤ 36) (hnul : 0 ∈ s.take 800000001) :
    Runs env (mp_rat_read_ustring c.p r s) m fun res m' => res.1 = MP_OK → ∃ q, State m' (putQ ρ c q) := by
  refine (C58_read_text h hc hr hnul).mono fun res m' ⟨e, h'⟩ hok => ?_
  rw [e] at hok
  obtain ⟨q, h1, h2⟩ := readText_ok hok
  rw [h1, h2] at h'
  exact ⟨q, h'⟩

/-- The text can be read completely and still not be a number: after the denominator zero the result is
`MP_UNDEF` and the variable has the denominator 0. -/
theorem C58_zero_denominator :
    outcome (mp_rat_read_ustring ⟨.var 0, .var 1⟩ 10 [54, 47, 48, 0]) [0, 1] = some ((MP_UNDEF, some 3), [some 6, some 0]) := by
  decide +kernel

end Imath
