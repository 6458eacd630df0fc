import Verif.Proof.GmpStr
import Verif.Props.Gmp

/-!
# Property C75: the text functions of the GMP-compatible interface

`gmpCase`, `gmpText`, `gmpScan` and `gmpScanQ` are defined in `Verif/SpecGmpStr.lean`, `numeral` in
`Verif/SpecConv.lean`.  In the functions that write text, `none` as array is `NULL`: the function allocates it.
-/

namespace Imath

variable {env : Env} {m : Mem} {ρ : Nat → Option Int} {a c : Nat} {x w : Int} {radix base : Int} {str : Option Bytes} {p : ℚ}
  {d : RVar} {A R : Bytes}

/-! ### Writing -/

/-- `impz_get_str` writes the numeral, in the case the sign of the radix asks for, and its terminator; of an array of the
caller's nothing else is changed, and no more room than that is needed.  Missing from the full property: numbers from
13^5458 on in radices other than those of `goodRadix` (false, see `C75_get_str_overrun`), and numbers of more than
2^25 bits. -/
theorem C75_get_str_partial (h : State m ρ) (ha : ρ a = some x) (hr : 2 ≤ radix.natAbs ∧ radix.natAbs ≤ 36)
    (hx : goodRadix radix.natAbs = true ∨ |x| < 13 ^ 5458) (hs : Nat.size x.natAbs ≤ 2 ^ 25)
    (hbuf : ∀ l, str = some l → (numeral radix.natAbs x).length + 1 ≤ l.length) :
    Runs env (impz_get_str str radix (.var a)) m fun s m' =>
      (∃ rest, s = gmpCase radix (numeral radix.natAbs x) ++ 0 :: rest ∧
        ∀ l, str = some l → rest = l.drop ((numeral radix.natAbs x).length + 1)) ∧ State m' ρ :=
  .of_wp (impz_get_str_spec (ref_refused env) hr h.r2 ha (len_ok hr (h.r2.size_le (z := .var a) ha) hx) hs hbuf
    fun m' rest h' hrest => ⟨⟨rest, rfl, hrest⟩, h'.state⟩)

/-- -255 in radix 16, small letters, into an array of five characters, and in radix -16, into an array of the function's. -/
example : ∃ m, State m (vars [-255]) ∧
    Runs env (impz_get_str (some [9, 9, 9, 9, 9]) 16 (.var 0)) m (fun s _ => s = [45, 102, 102, 0, 9]) ∧
    Runs env (impz_get_str none (-16) (.var 0)) m (fun s _ => ∃ rest, s = [45, 70, 70, 0] ++ rest) := by
  obtain ⟨m, h⟩ := vars_state (l := [-255]) (by simp)
  have e : numeral 16 (-255) = [45, 70, 70] := by decide +kernel
  refine ⟨m, h, ?_, ?_⟩
  · have := C75_get_str_partial (env := env) (a := 0) (radix := 16) (str := some [9, 9, 9, 9, 9]) h rfl (by decide) (.inl rfl)
      (by decide +kernel) (by rintro l ⟨⟩; show (numeral 16 (-255)).length + 1 ≤ 5; rw [e]; decide)
    refine this.mono fun s m' hs => ?_
    obtain ⟨⟨rest, h1, h2⟩, -⟩ := hs
    have h2 := h2 _ rfl
    change s = gmpCase 16 (numeral 16 (-255)) ++ 0 :: rest at h1
    change rest = [9, 9, 9, 9, 9].drop ((numeral 16 (-255)).length + 1) at h2
    rw [h1, h2, e]; rfl
  · have := C75_get_str_partial (env := env) (a := 0) (radix := -16) (str := none) h rfl (by decide) (.inl rfl)
      (by decide +kernel) (by simp)
    refine this.mono fun s m' hs => ?_
    obtain ⟨⟨rest, h1, -⟩, -⟩ := hs
    change s = gmpCase (-16) (numeral 16 (-255)) ++ 0 :: rest at h1
    rw [e] at h1
    exact ⟨rest, h1⟩

/-- For 13^5458 in radix 13 the estimated length is too small.  Into an array that the function has allocated it writes one
character too many (undefined behaviour), unless memory runs out before. -/
theorem C75_get_str_overrun (h : State m ρ) (ha : ρ a = some (13 ^ 5458)) :
    FaultsOr env (impz_get_str none 13 (.var a)) m .ub := by
  have e1 : ((13 : Int) ^ 5458).natAbs = 13 ^ 5458 := by rw [Int.natAbs_pow]; rfl
  have e2 : Nat.size (13 ^ 5458) = 20197 := by
    have a1 : 13 ^ 5458 < 2 ^ 20197 := by decide +kernel
    have a2 : 2 ^ 20196 ≤ 13 ^ 5458 := by decide +kernel
    have := Nat.size_le.2 a1
    have := Nat.lt_size.2 a2
    omega
  have hpos : (0 : Int) < 13 ^ 5458 := pow_pos (by norm_num) _
  have e3 : (numeral 13 (13 ^ 5458)).length = 5459 := by
    have hn : (13 : Nat) ^ 5458 ≠ 0 := pow_ne_zero _ (by norm_num)
    unfold numeral numeralN
    rw [if_neg (by omega), e1, if_neg hn, List.nil_append, List.length_reverse, List.length_map,
      Nat.length_digits 13 _ (by norm_num) hn, Nat.log_pow (by norm_num)]
  have hl : s_log2.getD 13 0 = 270238154 := rfl
  generalize (13 : Int) ^ 5458 = x at *
  refine FaultsOr.of_wp ?_
  unfold impz_get_str
  refine wp_bind (radix_abs (by decide) ?_)
  rw [show intU32 (((13 : Int).natAbs : Nat) : Int) = 13 from rfl]
  refine wp_bind (mp_int_string_len_spec (by norm_num) (by norm_num) h.r2 ha fun o n1 _ n3 => ?_)
  have n3 := n3 hpos
  rw [e1, e2, hl] at n3
  rw [e3] at n1
  refine wp_bind (wp_mallocBytes fun l hl => ?_)
  exact wp_bind (mp_int_to_string_fault (ref_or env _) (.inl rfl) (by norm_num) (by norm_num) (by omega) (by omega) h.r2 ha)

/-- `impq_get_str` writes numerator, slash and denominator, or the numerator only for an integer.  It changes the case of up to
two characters after the terminator, which must be characters that `toupper` accepts: they belong to the caller's array, or
to newly allocated memory (see `C75_q_get_str_junk`).  Missing from the full property as in `C75_get_str_partial`. -/
theorem C75_q_get_str_partial (h : State m ρ) (ha : HasQ ρ d p) (hr : 2 ≤ radix.natAbs ∧ radix.natAbs ≤ 36)
    (hx : goodRadix radix.natAbs = true ∨ |p.num| < 13 ^ 5458 ∧ (p.den : Int) < 13 ^ 5458)
    (hs1 : Nat.size p.num.natAbs ≤ 2 ^ 25) (hs2 : Nat.size p.den ≤ 2 ^ 25)
    (hbuf : ∀ l, str = some l → (gmpText radix.natAbs p).length + 3 ≤ l.length ∧
      ∀ c ∈ (l.drop ((gmpText radix.natAbs p).length + 1)).take 2, c < 128)
    (hj : str = none → ∀ i j, env.junk i j % 256 < 128) :
    Runs env (impq_get_str str radix d.p) m fun s m' =>
      (∃ rest, s = gmpCase radix (gmpText radix.natAbs p) ++ 0 :: rest ∧
        ∀ l, str = some l → rest.drop 2 = l.drop ((gmpText radix.natAbs p).length + 3)) ∧ State m' ρ := by
  have ha1 : lift ρ (.var d.num) = some p.num := ha.1
  have ha2 : lift ρ (.var d.den) = some (p.den : Int) := ha.2
  have hn := len_ok hr (h.r2.size_le ha1) (hx.imp id And.left)
  have hd := len_ok (x := (p.den : Int)) hr (h.r2.size_le ha2) (hx.imp id fun h => by rw [abs_of_nonneg (by omega)]; exact h.2)
  by_cases hp : p.den = 1
  · have eT : gmpText radix.natAbs p = numeral radix.natAbs p.num := by unfold gmpText; rw [if_pos hp]
    rw [eT] at hbuf ⊢
    unfold impq_get_str
    refine .of_wp (wp_bind (mp_int_compare_value_spec (by norm_num) (by norm_num) h.r2 ha2 fun m0 h0 => ?_))
    refine wp_if_pos (by rw [cmpZ_eq_zero]; exact_mod_cast hp) ?_
    refine impz_get_str_spec (ref_refused env) hr h0 ha1 hn hs1 (fun l e => by have := (hbuf l e).1; omega) fun m' rest h' hrest =>
      ⟨⟨rest, rfl, fun l e => ?_⟩, h'.state⟩
    rw [hrest l e, List.drop_drop]
  · have hp0 : p ≠ 0 := by rintro rfl; exact hp rfl
    have eT : gmpText radix.natAbs p = ratText radix.natAbs p := by unfold gmpText ratText; rw [if_neg hp, if_neg hp0]
    rw [eT] at hbuf ⊢
    exact .of_wp (impq_get_str_spec (ref_refused env) hr h.r2 ha.l hp hn hs1 hd hs2
      (fun l e => ⟨(hbuf l e).1, fun c hc => .inl ((hbuf l e).2 c hc)⟩) hj fun m' rest h' hrest => ⟨⟨rest, rfl, hrest⟩, h'.state⟩)

/-- 8/9 in radix 10 into an array that the function allocates: the text has four characters with its terminator, the array has
six; where one of the others, which have never been written, is negative as a `char`, the behaviour is undefined. -/
theorem C75_q_get_str_junk :
    impq_get_str none 10 ⟨.var 0, .var 1⟩ { env0 with junk := fun _ _ => 200 } (memOf [8, 9]) = .fault .ub := by
  have : (match impq_get_str none 10 ⟨.var 0, .var 1⟩ { env0 with junk := fun _ _ => 200 } (memOf [8, 9]) with
    | .ok _ _ => none | .fault e => some e) = some Fault.ub := by decide +kernel
  split at this
  · simp at this
  · next e he => rw [he]; simpa using this

example : ∃ m, State m demoQ ∧ Runs env (impq_get_str (some [1, 2, 3, 4, 5, 6, 7, 122, 90, 10, 11]) (-10) qa.p) m fun s _ =>
    ∃ u v, s = [45, 50, 50, 47, 55, 0, u, v, 90, 10, 11] := by
  obtain ⟨m, h⟩ := demoQ_state
  have e : gmpText 10 (-22 / 7) = [45, 50, 50, 47, 55] := by decide +kernel
  have e1 : (-22 / 7 : ℚ).num = -22 := by decide +kernel
  have e2 : (-22 / 7 : ℚ).den = 7 := by decide +kernel
  have := C75_q_get_str_partial (env := env) (radix := -10) (str := some [1, 2, 3, 4, 5, 6, 7, 122, 90, 10, 11]) h demoQ_a (by decide)
    (.inl rfl) (by rw [e1]; decide +kernel) (by rw [e2]; decide +kernel) (by
      rintro l ⟨⟩
      show (gmpText 10 (-22 / 7)).length + 3 ≤ _ ∧ ∀ c ∈ (List.drop ((gmpText 10 (-22 / 7)).length + 1) _).take 2, c < 128
      rw [e]; decide) (by simp)
  refine ⟨m, h, this.mono fun s m' hs => ?_⟩
  obtain ⟨⟨rest, h1, h2⟩, -⟩ := hs
  have h2 := h2 _ rfl
  change s = gmpCase (-10) (gmpText 10 (-22 / 7)) ++ 0 :: rest at h1
  change rest.drop 2 = [1, 2, 3, 4, 5, 6, 7, 122, 90, 10, 11].drop ((gmpText 10 (-22 / 7)).length + 3) at h2
  rw [e] at h1 h2
  match rest, h2 with
  | [], h2 => simp at h2
  | [u], h2 => simp at h2
  | u :: v :: r, h2 =>
    simp only [List.drop_succ_cons, List.drop_zero, List.length_cons, List.length_nil] at h2
    subst h2
    exact ⟨u, v, h1⟩

/-! ### Reading -/

/-- `impz_set_str` stores the number at the beginning of the text and returns 0 exactly if that is all of the text; otherwise -1,
and the variable has been changed all the same.  Missing from the full property: texts of more than 800000000 characters
(see `C31_read_cstring_overflow`). -/
theorem C75_set_str_partial (h : State m ρ) (hc : ρ c = some w) (hb : 2 ≤ base ∧ base ≤ 36) (h0 : 0 ∉ A) (hA : A.length ≤ 800000000) :
    Runs env (impz_set_str (.var c) (A ++ 0 :: R) base) m fun r m' =>
      r = (if (gmpScan base.toNat A).2 then 0 else -1) ∧ State m' (put ρ c (gmpScan base.toNat A).1) :=
  .of_wp (impz_set_str_spec (ref_refused env) hb h0 hA rfl h.r2 hc fun m' h' => ⟨rfl, by rw [upd_lift] at h'; exact h'.state⟩)

/-- "-fF" and "12x"; no digits at all are accepted as 0, which GMP refuses. -/
example : ∃ m, State m (vars [5]) ∧
    Runs env (impz_set_str (.var 0) [45, 102, 70, 0] 16) m (fun r m' => r = 0 ∧ State m' (put (vars [5]) 0 (-255))) ∧
    Runs env (impz_set_str (.var 0) [49, 50, 120, 0] 10) m (fun r m' => r = -1 ∧ State m' (put (vars [5]) 0 12)) ∧
    Runs env (impz_set_str (.var 0) [0] 10) m (fun r m' => r = 0 ∧ State m' (put (vars [5]) 0 0)) :=
  let ⟨m, h⟩ := vars_state (l := [5]) (by simp)
  ⟨m, h, C75_set_str_partial (A := [45, 102, 70]) (R := []) h rfl (by norm_num) (by decide) (by decide),
    C75_set_str_partial (A := [49, 50, 120]) (R := []) h rfl (by norm_num) (by decide) (by decide),
    C75_set_str_partial (A := []) (R := []) h rfl (by norm_num) (by decide) (by decide)⟩

/-- Other bases fail an assertion, also 0, with which GMP's function recognizes prefixes. -/
theorem C75_set_str_base {s : Bytes} {z : Id} (hb : -2 ^ 31 ≤ base ∧ base < 2 ^ 31) (hb2 : base < 2 ∨ 36 < base) :
    Faults env (impz_set_str z s base) m .assert := by
  have : ¬ (2 ≤ intU32 base ∧ intU32 base ≤ 36) := by unfold intU32; omega
  have hc : (cassert (decide (2 ≤ intU32 base ∧ intU32 base ≤ 36)) : M Unit) = fun _ _ => .fault .assert := by
    rw [decide_eq_false this]; rfl
  unfold Faults impz_set_str mp_int_read_string mp_int_read_cstring
  rw [hc]
  rfl

example : Faults env (impz_set_str (.var 0) [48, 120, 49, 0] 0) m .assert := C75_set_str_base (by norm_num) (by norm_num)

/-- What `impz_get_str` writes, `impz_set_str` reads. -/
theorem C75_round_trip_partial (h : State m ρ) (ha : ρ a = some x) (hc : ρ c = some w) (hr : 2 ≤ radix.natAbs ∧ radix.natAbs ≤ 36)
    (hx : goodRadix radix.natAbs = true ∨ |x| < 13 ^ 5458) (hs : Nat.size x.natAbs ≤ 2 ^ 25)
    (hbuf : ∀ l, str = some l → (numeral radix.natAbs x).length + 1 ≤ l.length) :
    Runs env (do
      let s ← impz_get_str str radix (.var a)
      impz_set_str (.var c) s |radix|) m fun r m' => r = 0 ∧ State m' (put ρ c x) := by
  have hasc := numeral_ascii (v := x) hr.1 hr.2
  have hb : |radix|.toNat = radix.natAbs := by rw [Int.abs_eq_natAbs]; rfl
  have hlen : (gmpCase radix (numeral radix.natAbs x)).length = (numeral radix.natAbs x).length := by unfold gmpCase; split <;> simp
  have h0 : 0 ∉ gmpCase radix (numeral radix.natAbs x) := by
    unfold gmpCase
    split
    · exact fun h => (hasc 0 h).2 rfl
    · intro h
      rw [List.mem_map] at h
      obtain ⟨c, hc, he⟩ := h
      have := (hasc c hc).2
      split at he <;> omega
  have hsz : (numeral radix.natAbs x).length ≤ 33554436 := by
    have h1 : (numeralN radix.natAbs x.natAbs).length ≤ Nat.size x.natAbs + 1 := by
      unfold numeralN
      split
      · simp
      · next hx0 =>
        rw [List.length_reverse, List.length_map]
        rcases digits_len_cert (P := 1) (Q := 1) hr.1 hx0 (Nat.lt_size_self x.natAbs) (by rw [Nat.pow_one, Nat.pow_one]; exact hr.1) with h | h <;> omega
    have h2 : (numeral radix.natAbs x).length ≤ 1 + (numeralN radix.natAbs x.natAbs).length := by
      unfold numeral; rw [List.length_append]; split <;> simp
    omega
  refine .of_wp (wp_bind (impz_get_str_spec (ref_refused env) hr h.r2 ha (len_ok hr (h.r2.size_le (z := .var a) ha) hx) hs hbuf
    fun m' rest h' hrest => ?_))
  refine impz_set_str_spec (ref_refused env) (by rw [Int.abs_eq_natAbs]; omega) h0 (by omega) rfl h' hc fun m'' h'' => ?_
  rw [hb, gmpScan_numeral hr.1 hr.2] at h'' ⊢
  exact ⟨rfl, by rw [upd_lift] at h''; exact h''.state⟩

example : ∃ m, State m demo ∧ Runs env (do
      let s ← impz_get_str none 36 (.var 0)
      impz_set_str (.var 3) s |36|) m fun r m' => r = 0 ∧ State m' (put demo 3 (2 ^ 100 + 1)) :=
  let ⟨m, h⟩ := demo_state
  ⟨m, h, C75_round_trip_partial (a := 0) (c := 3) h rfl rfl (by decide) (.inl rfl)
    (le_trans (Nat.size_le.2 (show (2 ^ 100 + 1 : Int).natAbs < 2 ^ 101 by decide)) (by norm_num)) (by simp)⟩

/-- `impq_set_str` stores what is before and after the first slash, not in lowest terms, and returns 0 exactly if both are numbers
to their ends.  A denominator that is zero or negative is accepted. -/
theorem C75_q_set_str_partial (h : State m ρ) (hc : ReadyQ ρ d) (hb : 2 ≤ base ∧ base ≤ 36) (h0 : 0 ∉ A) (hA : A.length ≤ 800000000) :
    Runs env (impq_set_str d.p (A ++ 0 :: R) base) m fun r m' =>
      r = (if (gmpScanQ base.toNat A).2.2 then 0 else -1) ∧
      State m' (put (put ρ d.num (gmpScanQ base.toNat A).1) d.den (gmpScanQ base.toNat A).2.1) := by
  obtain ⟨h1, ⟨u, hu⟩, w, hw⟩ := hc
  refine .of_wp (impq_set_str_spec (ref_refused env) hb h0 hA rfl rfl ?_ h.r2 hu hw fun m' h' => ⟨rfl, ?_⟩)
  · show Id.var d.num ≠ Id.var d.den
    simpa using h1
  · have h' : R2 m' (upd (upd (lift ρ) (.var d.num) _) (.var d.den) _) := h'
    rw [upd_lift, upd_lift] at h'; exact h'.state

/-- The texts 6/(-4), without the parentheses, 3, 1/0, 1/2/3 -/
example : ∃ m, State m demoQ ∧
    Runs env (impq_set_str qa.p [54, 47, 45, 52, 0] 10) m (fun r m' => r = 0 ∧ State m' (put (put demoQ qa.num 6) qa.den (-4))) ∧
    Runs env (impq_set_str qa.p [51, 0] 10) m (fun r m' => r = 0 ∧ State m' (put (put demoQ qa.num 3) qa.den 1)) ∧
    Runs env (impq_set_str qa.p [49, 47, 48, 0] 10) m (fun r m' => r = 0 ∧ State m' (put (put demoQ qa.num 1) qa.den 0)) ∧
    Runs env (impq_set_str qa.p [49, 47, 50, 47, 51, 0] 10) m (fun r m' => r = -1 ∧ State m' (put (put demoQ qa.num 1) qa.den 2)) :=
  let ⟨m, h⟩ := demoQ_state
  ⟨m, h, C75_q_set_str_partial (A := [54, 47, 45, 52]) (R := []) h (demoQ_a.ready (by decide)) (by norm_num) (by decide) (by decide),
    C75_q_set_str_partial (A := [51]) (R := []) h (demoQ_a.ready (by decide)) (by norm_num) (by decide) (by decide),
    C75_q_set_str_partial (A := [49, 47, 48]) (R := []) h (demoQ_a.ready (by decide)) (by norm_num) (by decide) (by decide),
    C75_q_set_str_partial (A := [49, 47, 50, 47, 51]) (R := []) h (demoQ_a.ready (by decide)) (by norm_num) (by decide) (by decide)⟩

/-! ### The number of digits -/

/-- `impz_sizeinbase` is the number of digits or one more.  Missing from the full property as in `C75_get_str_partial`; where the
estimate is too small, GMP's promise that the text fits fails (`C75_sizeinbase_short`). -/
theorem C75_sizeinbase_partial (h : State m ρ) (ha : ρ a = some x) (hx0 : x ≠ 0) (hb : 2 ≤ base ∧ base ≤ 36)
    (hx : goodRadix base.toNat = true ∨ |x| < 13 ^ 5458) (hs : Nat.size x.natAbs ≤ 2 ^ 25) :
    Runs env (impz_sizeinbase (.var a) base) m fun r m' =>
      (r = (numeralN base.toNat x.natAbs).length ∨ r = (numeralN base.toNat x.natAbs).length + 1) ∧ m' = m := by
  refine .of_wp (impz_sizeinbase_spec hb h.r2 ha hx0 (len_ok ⟨by omega, by omega⟩ (h.r2.size_le (z := .var a) ha) hx) fun s h1 h2 => ⟨?_, rfl⟩)
  have := outlen_up (o := s) (by omega : 2 ≤ base.toNat) (by omega) (by omega : x.natAbs ≠ 0) hs (by exact_mod_cast h2)
  omega

/-- In a base that is a power of two the number of digits is exact. -/
theorem C75_sizeinbase_pow2_partial {k : Nat} (h : State m ρ) (ha : ρ a = some x) (hx0 : x ≠ 0) (hk : 1 ≤ k ∧ k ≤ 5)
    (hx : k ≠ 3 ∨ |x| < 13 ^ 5458) :
    Runs env (impz_sizeinbase (.var a) (2 ^ k)) m fun r m' => r = (numeralN (2 ^ k) x.natAbs).length ∧ m' = m := by
  have e : ((2 : Int) ^ k).toNat = 2 ^ k := by rw [show ((2 : Int) ^ k) = ((2 ^ k : Nat) : Int) by push_cast; rfl]; rfl
  have hr : 2 ≤ (2 : Nat) ^ k ∧ (2 : Nat) ^ k ≤ 36 :=
    ⟨le_trans (by norm_num) (Nat.pow_le_pow_right (by norm_num : 0 < 2) hk.1), le_trans (Nat.pow_le_pow_right (by norm_num : 0 < 2) hk.2) (by norm_num)⟩
  have hg : goodRadix (2 ^ k) = true ∨ |x| < 13 ^ 5458 := hx.imp (fun h3 => by
    have : k = 1 ∨ k = 2 ∨ k = 4 ∨ k = 5 := by omega
    rcases this with rfl | rfl | rfl | rfl <;> rfl) id
  refine .of_wp (impz_sizeinbase_spec ?_ h.r2 ha hx0 (by rw [e]; exact len_ok hr (h.r2.size_le (z := .var a) ha) hg) fun s h1 h2 => ⟨?_, rfl⟩)
  · exact ⟨by exact_mod_cast hr.1, by exact_mod_cast hr.2⟩
  · rw [e] at h1 h2
    have := outlen_pow2 ⟨hk.1, by omega⟩ (by omega : x.natAbs ≠ 0) h2
    omega

/-- Zero has one digit in every base. -/
theorem C75_sizeinbase_zero (h : State m ρ) (ha : ρ a = some 0) :
    Runs env (impz_sizeinbase (.var a) base) m fun r m' => r = 1 ∧ m' = m := by
  unfold impz_sizeinbase
  exact .of_wp (wp_bind (mp_int_compare_zero_spec h.r2 ha (wp_if_pos rfl (wp_pure ⟨rfl, rfl⟩))))

/-- 13^5458 has 5459 digits in base 13; the result is 5458. -/
theorem C75_sizeinbase_short (h : State m ρ) (ha : ρ a = some (13 ^ 5458)) :
    (numeralN 13 (13 ^ 5458)).length = 5459 ∧ Runs env (impz_sizeinbase (.var a) 13) m fun r m' => r = 5458 ∧ m' = m := by
  have e1 : ((13 : Int) ^ 5458).natAbs = 13 ^ 5458 := by rw [Int.natAbs_pow]; rfl
  have e2 : Nat.size (13 ^ 5458) = 20197 := by
    have a1 : 13 ^ 5458 < 2 ^ 20197 := by decide +kernel
    have a2 : 2 ^ 20196 ≤ 13 ^ 5458 := by decide +kernel
    have := Nat.size_le.2 a1
    have := Nat.lt_size.2 a2
    omega
  have hpos : (0 : Int) < 13 ^ 5458 := pow_pos (by norm_num) _
  have e3 : (numeralN 13 (13 ^ 5458)).length = 5459 := by
    have hn : (13 : Nat) ^ 5458 ≠ 0 := pow_ne_zero _ (by norm_num)
    unfold numeralN
    rw [if_neg hn, List.length_reverse, List.length_map, Nat.length_digits 13 _ (by norm_num) hn, Nat.log_pow (by norm_num)]
  refine ⟨e3, ?_⟩
  have e4 : (numeral 13 (13 ^ 5458)).length = 5459 := by
    unfold numeral; rw [if_neg (by omega), e1, List.nil_append, e3]
  have hl : s_log2.getD 13 0 = 270238154 := rfl
  generalize (13 : Int) ^ 5458 = x at *
  unfold impz_sizeinbase
  refine .of_wp (wp_bind (mp_int_compare_zero_spec h.r2 ha ?_))
  refine wp_if_neg (by rw [Int.sign_eq_zero_iff_zero]; omega) ?_
  show wp env _ (mp_int_string_len (.var a) 13 >>= _) _ m
  refine wp_bind (mp_int_string_len_spec (by norm_num) (by norm_num) h.r2 ha fun o n1 _ n3 => ?_)
  have n3 := n3 hpos
  rw [e1, e2, hl] at n3
  rw [e4] at n1
  obtain rfl : o = 5459 := by omega
  refine wp_bind (CHECK_spec (wp_pure ⟨by decide, ?_⟩))
  refine wp_bind (mp_int_compare_zero_spec h.r2 ha (wp_pure ?_))
  rw [if_neg (by rw [Int.sign_neg_iff]; omega)]
  exact ⟨rfl, rfl⟩

example : ∃ m, State m (vars [-255, 0]) ∧
    Runs env (impz_sizeinbase (.var 0) 10) m (fun r m' => (r = 3 ∨ r = 4) ∧ m' = m) ∧
    Runs env (impz_sizeinbase (.var 0) (2 ^ 4)) m (fun r m' => r = 2 ∧ m' = m) ∧
    Runs env (impz_sizeinbase (.var 1) 10) m (fun r m' => r = 1 ∧ m' = m) := by
  obtain ⟨m, h⟩ := vars_state (l := [-255, 0]) (by simp)
  have e1 : (numeralN 10 (-255 : Int).natAbs).length = 3 := by decide +kernel
  have e2 : (numeralN (2 ^ 4) (-255 : Int).natAbs).length = 2 := by decide +kernel
  refine ⟨m, h, ?_, ?_, C75_sizeinbase_zero h rfl⟩
  · have := C75_sizeinbase_partial (env := env) (a := 0) (base := 10) h rfl (by norm_num) (by norm_num) (.inl rfl) (by decide +kernel)
    rw [show ((10 : Int).toNat) = 10 from rfl, e1] at this
    exact this
  · have := C75_sizeinbase_pow2_partial (env := env) (a := 0) (k := 4) h rfl (by norm_num) (by norm_num) (.inl (by norm_num))
    rw [e2] at this
    exact this

end Imath
