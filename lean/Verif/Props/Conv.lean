import Verif.Props.Expt
import Verif.Proof.ConvProps
import Verif.Proof.Overrun

/-! # Properties C28 to C36: strings and byte arrays -/

namespace Imath

variable {env : Env} {m : Mem} {ρ : Nat → Option Int} {a b c r : Nat} {x y w : Int} {str buf : Bytes} {limit : Int}

/-! ### C28 conversion to strings -/

theorem C28_to_string (h : State m ρ) (ha : ρ a = some x) (hr : 2 ≤ r ∧ r ≤ 36)
    (hlim : 2 ≤ limit) (hfit : (numeral r x).length + 1 ≤ limit) (hbuf : (numeral r x).length + 1 ≤ str.length) :
    Runs env (mp_int_to_string (.var a) r str limit) m fun res m' =>
      res = (MP_OK, numeral r x ++ 0 :: str.drop ((numeral r x).length + 1)) ∧ State m' ρ :=
  .of_wp (mp_int_to_string_spec (ref_refused env) hr.1 hr.2 hlim (by omega) h.r2 ha
    (fun _ h' _ => ⟨rfl, h'.state⟩) (fun _ _ _ h1 => by omega))

/-- If the limit is too small the result is `MP_TRUNC`.  As for what is written see C29. -/
theorem C28_to_string_trunc (h : State m ρ) (ha : ρ a = some x) (hr : 2 ≤ r ∧ r ≤ 36)
    (hlim : 2 ≤ limit) (hfit : limit < (numeral r x).length + 1) (hbuf : limit + 1 ≤ str.length) :
    Runs env (mp_int_to_string (.var a) r str limit) m fun res m' => res.1 = MP_TRUNC ∧ State m' ρ :=
  .of_wp (mp_int_to_string_spec (ref_refused env) hr.1 hr.2 hlim (by omega) h.r2 ha
    (fun _ h' h1 => by omega) (fun _ _ h' _ _ _ _ => ⟨rfl, h'.state⟩))

example : numeral 16 (-43981) = [45, 65, 66, 67, 68] := by simp [numeral, numeralN, digitChar]

example : ∃ m, State m demo ∧ Runs env (mp_int_to_string (.var 3) 10 [1, 2, 3, 4, 5] 4) m fun res m' =>
      res = (MP_OK, [45, 55, 0, 4, 5]) ∧ State m' demo :=
  have e : numeral 10 (-7) = [45, 55] := by simp [numeral, numeralN, digitChar]
  let ⟨m, h⟩ := demo_state
  ⟨m, h, by
    have := C28_to_string (env := env) (a := 3) (r := 10) (str := [1, 2, 3, 4, 5]) (limit := 4) h rfl (by omega) (by omega)
      (by rw [e]; decide) (by rw [e]; decide)
    rw [e] at this; exact this⟩

example : outcome (mp_int_to_string (.var 0) 36 (List.replicate 9 1) 9) [-(36 ^ 6 - 1)] =
    some ((MP_OK, [45, 90, 90, 90, 90, 90, 90, 0, 1]), [some (-(36 ^ 6 - 1))]) := by decide +kernel

/-! ### C29 the limit -/

/-- Up to one character after the limit is written. -/
theorem C29_to_string_limit_partial (h : State m ρ) (ha : ρ a = some x) (hr : 2 ≤ r ∧ r ≤ 36)
    (hlim : 2 ≤ limit) (hbuf : limit + 1 ≤ str.length) :
    Runs env (mp_int_to_string (.var a) r str limit) m fun res _ =>
      res.2.length = str.length ∧ res.2.drop (limit.toNat + 1) = str.drop (limit.toNat + 1) ∧
      ((numeral r x).length + 1 ≤ limit → res.2.drop limit.toNat = str.drop limit.toNat) := by
  refine .of_wp (mp_int_to_string_spec (ref_refused env) hr.1 hr.2 hlim (by omega) h.r2 ha
    (fun _ h' h1 => ?_) (fun _ s' h' h1 h2 h3 h4 => ⟨h2, h3, fun h5 => by omega⟩))
  have e : ∀ k, (numeral r x).length + 1 ≤ k →
      (numeral r x ++ 0 :: str.drop ((numeral r x).length + 1)).drop k = str.drop k := by
    intro k hk
    rw [List.drop_append, List.drop_eq_nil_of_le (by omega), List.nil_append]
    obtain ⟨j, hj⟩ : ∃ j, k - (numeral r x).length = j + 1 := ⟨k - (numeral r x).length - 1, by omega⟩
    rw [hj, List.drop_succ_cons, List.drop_drop]
    congr 1; omega
  refine ⟨?_, e _ (by omega), fun _ => e _ (by omega)⟩
  simp; omega

/-- The property fails whenever the output does not fit: a NUL is written at index `limit`, after the
`limit` characters that the caller allowed. -/
theorem C29_to_string_overrun (h : State m ρ) (ha : ρ a = some x) (hr : 2 ≤ r ∧ r ≤ 36)
    (hlim : 2 ≤ limit) (hfit : limit < (numeral r x).length + 1) (hbuf : limit + 1 ≤ str.length) :
    Runs env (mp_int_to_string (.var a) r str limit) m fun res _ => res.2[limit.toNat]? = some 0 :=
  .of_wp (mp_int_to_string_spec (ref_refused env) hr.1 hr.2 hlim (by omega) h.r2 ha
    (fun _ h' h1 => by omega) (fun _ _ h' _ _ _ h3 => h3))

/-- What is written in that case: as much of the numeral as fills `limit` characters - the sign and the
digits of lowest order - and the NUL after them. -/
theorem C29_to_string_truncated (h : State m ρ) (ha : ρ a = some x) (hr : 2 ≤ r ∧ r ≤ 36)
    (hlim : 2 ≤ limit) (hfit : limit < (numeral r x).length + 1) (hbuf : limit + 1 ≤ str.length) :
    Runs env (mp_int_to_string (.var a) r str limit) m fun res m' =>
      res = (MP_TRUNC, numeralTail r x limit.toNat ++ 0 :: str.drop (limit.toNat + 1)) ∧ State m' ρ :=
  .of_wp (mp_int_to_string_full (ref_refused env) hr.1 hr.2 hlim (by omega) h.r2 ha
    (fun _ h' h1 => by omega) (fun _ h' _ => ⟨rfl, h'.state⟩))

example : numeralTail 10 (-12345) 3 = [45, 52, 53] := by simp [numeralTail, numeral, numeralN, digitChar]

example : ∃ m, State m (put demo 3 (-12345)) ∧ Runs env (mp_int_to_string (.var 3) 10 [1, 2, 3, 4, 5] 3) m fun res m' =>
      res = (MP_TRUNC, numeralTail 10 (-12345) 3 ++ [0, 5]) ∧ State m' (put demo 3 (-12345)) := by
  have e : (numeral 10 (-12345)).length = 6 := by simp [numeral, numeralN]
  obtain ⟨m, h⟩ := exists_state (put demo 3 (-12345)) 4 (fun n hn => by
    rcases n with _ | _ | _ | _ | n <;> simp [put, demo] at hn ⊢) fun n v hv => by
    have big : ∀ k : Nat, k < 2 ^ 101 → k < (2 ^ 32) ^ MAXD := fun k hk => by
      rw [← Nat.pow_mul]
      exact lt_of_lt_of_le hk (Nat.pow_le_pow_right (by norm_num) (by norm_num))
    refine big _ ?_
    rcases n with _ | _ | _ | _ | n <;> simp [put, demo] at hv <;> subst hv <;> norm_num
  exact ⟨m, h, C29_to_string_truncated (str := [1, 2, 3, 4, 5]) h rfl (by omega) (by omega) (by rw [e]; omega) (by simp)⟩

/-- Whenever the array is not longer than `limit` and than the numeral, something is written outside of
it (undefined behaviour).  Together with `C29_to_string_limit_partial` this says for every array whether
it is long enough. -/
theorem C29_no_room (h : State m ρ) (ha : ρ a = some x) (hr : 2 ≤ r ∧ r ≤ 36) (hlim : 2 ≤ limit)
    (hfit : (str.length : Int) ≤ limit) (hbuf : str.length ≤ (numeral r x).length) :
    FaultsOr env (mp_int_to_string (.var a) r str limit) m .ub :=
  .of_wp (mp_int_to_string_fault (ref_or env _) (.inl rfl) hr.1 hr.2 hlim (by omega) h.r2 ha)

/-- An array of `limit` characters for a numeral that does not fit, as in the typical call. -/
example (h : State m demo) : FaultsOr env (mp_int_to_string (.var 3) 2 [1, 2, 3] 3) m .ub :=
  C29_no_room h (x := -7) rfl (by omega) (by omega) (by simp) (by decide +kernel)

/-- A concrete case. -/
theorem C29_witness : State (memOf [100]) (fun n => [(100 : Int)][n]?) ∧
    faultOf (mp_int_to_string (.var 0) 10 [1, 1] 2) [100] = some .ub :=
  ⟨memOf_state _ (by simp), by decide +kernel⟩

example : outcome (mp_int_to_string (.var 0) 10 [1, 1, 1, 1] 2) [100] = some ((MP_TRUNC, [48, 48, 0, 1]), [some 100]) := by
  decide +kernel

/-! ### C30 the length estimate -/

/-- For these radices the estimate is sufficient for all integers. -/
def goodRadix (r : Nat) : Bool := r ∈ [2, 3, 4, 9, 10, 12, 15, 16, 18, 21, 24, 26, 27, 28, 31, 32, 35, 36]

theorem len_ok {r : Nat} {x : Int} (hr : 2 ≤ r ∧ r ≤ 36) (hs : Nat.size x.natAbs ≤ 2147483584)
    (hx : goodRadix r = true ∨ |x| < 13 ^ 5458) : LenOk r x.natAbs := by
  have t1 : ∀ r < 37, goodRadix r = true → 2147483584 ≤ lenBits r := by decide +kernel
  rcases hx with hx | hx
  · exact .inl (le_trans hs (t1 r (by omega) hx))
  · refine .inr ?_
    rw [Int.abs_eq_natAbs] at hx; exact_mod_cast hx

/-- Missing from the full property: integers from 13^5458 on in the other radices.  For each of these there are
integers for which it is false (`C30_string_len_insufficient_radix`), and 13^5458 is the smallest in absolute value
(`C30_string_len_insufficient`). -/
theorem C30_string_len_partial (h : State m ρ) (ha : ρ a = some x) (hr : 2 ≤ r ∧ r ≤ 36)
    (hx : goodRadix r = true ∨ |x| < 13 ^ 5458) :
    Runs env (mp_int_string_len (.var a) r) m fun res m' => (numeral r x).length + 1 ≤ res ∧ m' = m := by
  refine .of_wp (mp_int_string_len_spec hr.1 hr.2 h.r2 ha fun o h1 h2 _ => ⟨h2 ?_, rfl⟩)
  exact len_ok hr (h.r2.size_le (z := .var a) ha) hx

/-- One character more than the estimate is sufficient for all integers and radices. -/
theorem C30_string_len_plus_one (h : State m ρ) (ha : ρ a = some x) (hr : 2 ≤ r ∧ r ≤ 36) :
    Runs env (mp_int_string_len (.var a) r) m fun res m' => (numeral r x).length + 1 ≤ res + 1 ∧ m' = m :=
  .of_wp (mp_int_string_len_spec hr.1 hr.2 h.r2 ha fun _ h1 _ _ => ⟨by omega, rfl⟩)

/-- The program the property is about. -/
def stringOf (a r : Nat) : M (Int × Bytes) := do
  let l ← mp_int_string_len (.var a) r
  mp_int_to_string (.var a) r (List.replicate l.toNat 0) l

theorem C30_string_of_partial (h : State m ρ) (ha : ρ a = some x) (hr : 2 ≤ r ∧ r ≤ 36)
    (hx : goodRadix r = true ∨ |x| < 13 ^ 5458) :
    Runs env (stringOf a r) m fun res m' => res.1 = MP_OK ∧ (numeral r x ++ [0]).isPrefixOf res.2 = true ∧ State m' ρ := by
  unfold stringOf
  have hsz : LenOk r x.natAbs := len_ok hr (h.r2.size_le (z := .var a) ha) hx
  have hn1 : 1 ≤ (numeral r x).length := by
    have : numeralN r x.natAbs ≠ [] := by
      unfold numeralN; split
      · simp
      · next hx0 =>
        have := digits_len_pos hr.1 hx0
        intro h0
        have := congrArg List.length h0
        simp only [List.length_reverse, List.length_map, List.length_nil] at this; omega
    have := List.length_pos_of_ne_nil this
    unfold numeral; rw [List.length_append]; omega
  refine .of_wp (wp_bind (mp_int_string_len_spec hr.1 hr.2 h.r2 ha fun o h1 h2 _ => ?_))
  have := h2 hsz
  refine mp_int_to_string_spec (ref_refused env) hr.1 hr.2 (by omega) (by simp; omega) h.r2 ha
    (fun _ h' _ => ⟨rfl, ?_, h'.state⟩) (fun _ _ _ h3 => by omega)
  rw [List.isPrefixOf_iff_prefix]
  exact ⟨List.drop ((numeral r x).length + 1) (List.replicate o.toNat 0), by simp⟩

/-- Ask for the length, then convert with that limit, into an array with one character more. -/
def stringOf1 (a r : Nat) : M (Int × Bytes) := do
  let l ← mp_int_string_len (.var a) r
  mp_int_to_string (.var a) r (List.replicate (l.toNat + 1) 0) l

/-- Exponents `k` and bit lengths of `r ^ k` for which the estimate is too small -/
def badPow : Nat → Nat × Nat
  | 5 => (97879, 227268) | 6 => (47468, 122703) | 7 => (91313, 256348) | 8 => (333333333, 1000000000)
  | 11 => (21359, 73890) | 13 => (5458, 20197) | 14 => (91313, 347661) | 17 => (28595, 116881)
  | 19 => (22075, 93773) | 20 => (21306, 92083) | 22 => (21359, 95249) | 23 => (20966, 94841)
  | 25 => (97879, 454536) | 29 => (10738, 52165) | 30 => (35904, 176177) | 33 => (18989, 95788)
  | 34 => (20523, 104410) | _ => (0, 0)

theorem badPow_ok : ∀ r < 37, 2 ≤ r → goodRadix r = false → r = 8 ∨
    2 ^ ((badPow r).2 - 1) ≤ r ^ (badPow r).1 ∧ r ^ (badPow r).1 < 2 ^ (badPow r).2 := by decide +kernel

theorem badPow_len : ∀ r < 37, 2 ≤ r → goodRadix r = false →
    (badPow r).2 * s_log2.getD r 0 ≤ (badPow r).1 * 1000000000 ∧ 2 ≤ (badPow r).2 ∧ (badPow r).2 ≤ 2147483584 := by decide +kernel

theorem badPow_size (hr : 2 ≤ r ∧ r ≤ 36) (hg : goodRadix r = false) :
    2 ^ ((badPow r).2 - 1) ≤ r ^ (badPow r).1 ∧ r ^ (badPow r).1 < 2 ^ (badPow r).2 := by
  rcases badPow_ok r (by omega) hr.1 hg with rfl | h
  · have e : (8 : Nat) ^ 333333333 = 2 ^ 999999999 := by
      rw [show (8 : Nat) = 2 ^ 3 from rfl, ← Nat.pow_mul]
    show 2 ^ (1000000000 - 1) ≤ 8 ^ 333333333 ∧ 8 ^ 333333333 < 2 ^ 1000000000
    rw [e]
    exact ⟨le_refl _, Nat.pow_lt_pow_right (by norm_num) (by norm_num)⟩
  · exact h

theorem string_len_insufficient (hr : 2 ≤ r ∧ r ≤ 36) {k b : Nat} (h1 : 2 ^ (b - 1) ≤ r ^ k) (h2 : r ^ k < 2 ^ b)
    (hl : b * s_log2.getD r 0 ≤ k * 1000000000) (hb : 2 ≤ b) (h : State m ρ) (ha : ρ a = some ((r : Int) ^ k)) :
    Runs env (stringOf1 a r) m fun res _ => res.1 = MP_TRUNC := by
  have e1 : ((r : Int) ^ k).natAbs = r ^ k := by rw [Int.natAbs_pow, Int.natAbs_natCast]
  have e2 : Nat.size (r ^ k) = b := by
    have := Nat.size_le.2 h2
    have := Nat.lt_size.2 h1
    omega
  have hn : r ^ k ≠ 0 := pow_ne_zero _ (by omega)
  have hpos : (0 : Int) < (r : Int) ^ k := pow_pos (by omega) _
  have e3 : (numeral r ((r : Int) ^ k)).length = k + 1 := by
    unfold numeral numeralN
    rw [if_neg (by omega), e1, if_neg hn, List.nil_append, List.length_reverse, List.length_map,
      Nat.length_digits r _ (by omega) hn, Nat.log_pow (by omega)]
  have hk : 1 ≤ k := by
    by_contra hc
    obtain rfl : k = 0 := by omega
    rw [Nat.pow_zero] at h1
    have : 2 ^ 1 ≤ 2 ^ (b - 1) := Nat.pow_le_pow_right (by norm_num) (by omega)
    omega
  unfold stringOf1
  refine .of_wp (wp_bind (mp_int_string_len_spec hr.1 hr.2 h.r2 ha fun o h1 _ h3 => ?_))
  have h4 := h3 hpos
  rw [e1, e2] at h4
  rw [e3] at h1
  have h5 : o ≤ k + 1 := by
    have : (o - 1) * 1000000000 < (k * 1000000000 + 1000000000 : Nat) := lt_of_lt_of_le h4 (by exact_mod_cast Nat.add_le_add_right hl _)
    push_cast at this
    omega
  refine mp_int_to_string_spec (ref_refused env) hr.1 hr.2 (by omega) (by rw [e3]; simp) h.r2 ha
    (fun _ _ h6 => ?_) (fun _ _ _ _ _ _ _ => rfl)
  rw [e3] at h6
  omega

/-- In every radix other than those of `goodRadix` there is an integer (that can be a value) for which the estimate
is too small: `mp_int_to_string` with a limit of `mp_int_string_len` reports that the output does not fit, in every
environment. -/
theorem C30_string_len_insufficient_radix (hr : 2 ≤ r ∧ r ≤ 36) (hg : goodRadix r = false) :
    ∃ x : Int, x.natAbs < (2 ^ 32) ^ MAXD ∧ ∀ (env : Env) (m : Mem) (ρ : Nat → Option Int) (a : Nat), State m ρ → ρ a = some x →
      Runs env (stringOf1 a r) m fun res _ => res.1 = MP_TRUNC := by
  obtain ⟨l1, l2, l3⟩ := badPow_len r (by omega) hr.1 hg
  obtain ⟨s1, s2⟩ := badPow_size hr hg
  refine ⟨(r : Int) ^ (badPow r).1, ?_, fun env m ρ a h ha => string_len_insufficient hr s1 s2 l1 l2 h ha⟩
  rw [Int.natAbs_pow, Int.natAbs_natCast, ← Nat.pow_mul]
  exact lt_of_lt_of_le s2 (Nat.pow_le_pow_right (by norm_num) (by show _ ≤ 32 * 67108862; omega))

example : ∃ x : Int, x.natAbs < (2 ^ 32) ^ MAXD ∧ ∀ (env : Env) (m : Mem) (ρ : Nat → Option Int) (a : Nat), State m ρ → ρ a = some x →
      Runs env (stringOf1 a 8) m fun res _ => res.1 = MP_TRUNC :=
  C30_string_len_insufficient_radix (by omega) rfl

/-- The smallest integer for which the estimate is too small in some radix (`C30_string_len_partial`): 13^5458, in radix
13. -/
theorem C30_string_len_insufficient (h : State m ρ) (ha : ρ a = some (13 ^ 5458)) :
    Runs env (stringOf1 a 13) m fun res _ => res.1 = MP_TRUNC :=
  string_len_insufficient (k := 5458) (b := 20197) (by omega) (by decide +kernel) (by decide +kernel) (by decide +kernel) (by omega)
    h ha

example : ∃ m, State m (put demo 0 (13 ^ 5458)) := by
  refine exists_state _ 4 (fun n hn => ?_) fun n v hv => ?_
  · rcases n with _ | _ | _ | _ | n <;> simp [put, demo] at hn ⊢
  · unfold put at hv
    have big : ∀ k : Nat, k < 2 ^ 20197 → k < (2 ^ 32) ^ MAXD := fun k hk => by
      rw [← Nat.pow_mul]
      exact lt_of_lt_of_le hk (Nat.pow_le_pow_right (by norm_num) (by norm_num))
    split at hv
    · simp only [Option.some.injEq] at hv
      rw [← hv, Int.natAbs_pow]
      exact big _ (by decide +kernel)
    · refine big _ ?_
      rcases n with _ | _ | _ | _ | n <;> simp [demo] at hv <;> subst hv <;> decide +kernel

example : ∃ m, State m demo ∧ Runs env (stringOf 0 10) m fun res m' =>
      res.1 = MP_OK ∧ (numeral 10 (2 ^ 100 + 1) ++ [0]).isPrefixOf res.2 = true ∧ State m' demo :=
  let ⟨m, h⟩ := demo_state; ⟨m, h, C30_string_of_partial h rfl (by omega) (.inl rfl)⟩

/-! ### C31 reading strings -/

/-- White space, sign, digits, and the rest, which begins with the character `c`.  Every
NUL-terminated string is of this form (`split_string`).  Missing from the full property: strings of
more than 800000000 characters; see `C31_read_cstring_overflow`. -/
theorem C31_read_cstring_partial {ch : Nat} {sp sg ds rest : Bytes} {vs : List Nat}
    (h : State m ρ) (hc : ρ c = some w) (hr : 2 ≤ r ∧ r ≤ 36)
    (hsp : ∀ x ∈ sp, IsSpace x) (hsg : sg = [] ∨ sg = [43] ∨ sg = [45])
    (hds : List.Forall₂ (IsDigit r) ds vs) (hch : ∀ d, ¬ IsDigit r ch d)
    (hhead : sg = [] → ds = [] → ¬ IsSpace ch ∧ ch ≠ 43 ∧ ch ≠ 45)
    (hnul : 0 ∈ (sp ++ sg ++ ds ++ ch :: rest).take 800000001) :
    Runs env (mp_int_read_cstring (.var c) r (sp ++ sg ++ ds ++ ch :: rest)) m fun res m' =>
      res = (if ch = 0 then MP_OK else MP_TRUNC, (sp ++ sg ++ ds).length) ∧
      State m' (put ρ c ((if sg = [45] then -1 else 1) * ((Nat.ofDigits r vs.reverse : Nat) : Int))) := by
  obtain ⟨-, hl1, -⟩ := s_log2_range r (by omega) hr.1
  have h0 : 0 ∈ (ds ++ ch :: rest).take (800000000 + 1) := by
    rw [List.append_assoc (sp ++ sg), List.take_append] at hnul
    rcases List.mem_append.1 hnul with hm | hm
    · have := List.mem_of_mem_take hm
      rcases List.mem_append.1 this with hm | hm
      · have := hsp 0 hm; unfold IsSpace at this; omega
      · rcases hsg with rfl | rfl | rfl <;> simp at hm
    · refine List.mem_of_mem_take (i := 800000001 - (sp ++ sg).length) ?_
      rw [List.take_take, show min (800000001 - (sp ++ sg).length) (800000000 + 1) = 800000001 - (sp ++ sg).length by omega]
      exact hm
  refine .of_wp (mp_int_read_cstring_spec (K := 800000000) (ref_refused env) hr.1 hr.2 hsp hsg hds hch hhead (by omega) (by omega) h0 rfl h.r2 hc
    fun m' h' => ⟨rfl, ?_⟩)
  rw [upd_lift] at h'; exact h'.state

/-- The theorem applies to every string. -/
theorem C31_every_string (r : Nat) (str : Bytes) (h : 0 ∈ str) : ∃ sp sg ds vs ch rest, str = sp ++ sg ++ ds ++ ch :: rest ∧
    (∀ x ∈ sp, IsSpace x) ∧ (sg = [] ∨ sg = [43] ∨ sg = [45]) ∧ List.Forall₂ (IsDigit r) ds vs ∧ (∀ d, ¬ IsDigit r ch d) ∧
    (sg = [] → ds = [] → ¬ IsSpace ch ∧ ch ≠ 43 ∧ ch ≠ 45) ∧ 0 ∈ ch :: rest := split_string r str h

/-- `s_inlen` converts to an unsigned 32-bit integer a `double` that does not fit. -/
theorem s_inlen_overflow {n : Nat} (h1 : 900000000 ≤ n) (h2 : n ≤ 2147483647) : Faults env (s_inlen n 36) m .ub := by
  unfold s_inlen
  refine faults_bind (Q := fun x m' => x = (n : Int) ∧ m = m') (wp_cint (Q := fun x m' => x = (n : Int) ∧ m = m') (by omega) (by omega) ⟨rfl, rfl⟩) ?_
  rintro _ _ ⟨rfl, rfl⟩
  refine faults_bind (Q := fun x m' => x = env.fl ∧ m = m') (wp_getFl ⟨rfl, rfl⟩) ?_
  rintro _ _ ⟨rfl, rfl⟩
  refine faults_bind (Q := fun x m' => x = 193426404 ∧ m = m') (wp_bget (x := 193426404) rfl ⟨rfl, rfl⟩) ?_
  rintro _ _ ⟨rfl, rfl⟩
  have hn : (900000000 : Rat) ≤ n := by exact_mod_cast h1
  obtain ⟨e1, e2⟩ := env.fl_err (193426404 / 1000000000) (by norm_num)
  have hX : (4294967296 : Rat) ≤ env.fl (env.fl (((n : Int) : Rat) / env.fl (((193426404 : Nat) : Rat) / 1000000000)) + 1 / 2) := by
    rw [show (((193426404 : Nat) : Rat)) = 193426404 by norm_num, show ((n : Int) : Rat) = (n : Rat) by simp]
    generalize env.fl (193426404 / 1000000000) = l at *
    have hl0 : 0 < l := by linarith
    have hq : 4500000000 ≤ (n : Rat) / l := by rw [le_div_iff₀ hl0]; nlinarith
    obtain ⟨e3, -⟩ := env.fl_err ((n : Rat) / l) (by linarith)
    generalize env.fl ((n : Rat) / l) = q at *
    generalize (n : Rat) / l = y at *
    obtain ⟨e5, -⟩ := env.fl_err (q + 1 / 2) (by linarith)
    linarith
  have hf : (4294967296 : Int) ≤ (env.fl (env.fl (((n : Int) : Rat) / env.fl (((193426404 : Nat) : Rat) / 1000000000)) + 1 / 2)).floor := by
    rw [Rat.le_floor_iff]; exact_mod_cast hX
  show (if _ then _ else _ : M Nat) env m = _
  rw [if_neg (by omega)]
  rfl

theorem read_cstring_inlen {n : Nat} (h : State m ρ) (hc : ρ c = some w) (h1 : 1 ≤ n)
    (h2 : ∀ m, Faults env (s_inlen n 36) m .ub) :
    Faults env (mp_int_read_cstring (.var c) 36 (List.replicate n 49 ++ [0])) m .ub := by
  obtain ⟨k, rfl⟩ : ∃ k, n = k + 1 := ⟨n - 1, by omega⟩
  obtain ⟨S, hS⟩ : ∃ S, S = List.replicate (k + 1) 49 ++ [0] := ⟨_, rfl⟩
  have hS1 : S = 49 :: (List.replicate k 49 ++ [0]) := by rw [hS, List.replicate_succ]; rfl
  have hSl : S.length = k + 2 := by rw [hS]; simp
  rw [← hS]
  unfold mp_int_read_cstring
  refine faults_bind (Q := fun _ m' => m = m') (wp_cassert (decide_eq_true (by omega)) rfl) ?_
  rintro _ _ rfl
  have k1 := skipSpace_spec (m := m) (env := env) (E := fun _ => False) (R := List.replicate k 49 ++ [0]) (c := 49)
    (Q := fun i m' => i = 0 ∧ m = m') (by unfold IsSpace; omega) [] [] (S.length + 1) (by simp) (by simp) ⟨rfl, rfl⟩
  simp only [List.nil_append] at k1
  rw [← hS1] at k1
  refine faults_bind k1 ?_
  rintro _ _ ⟨rfl, rfl⟩
  refine faults_bind (Q := fun x m' => x = 49 ∧ m = m') (wp_bget (x := 49) (by rw [hS1]; rfl) ⟨rfl, rfl⟩) ?_
  rintro _ _ ⟨rfl, rfl⟩
  obtain ⟨s, hrp, hg⟩ := h.r2
  obtain ⟨C, hC, gC⟩ := hg.get (z := .var c) hc
  refine faults_bind (Q := fun _ _ => True) (wp_setSign hrp hC fun _ _ => trivial) ?_
  intro _ m1 _
  have k2 := skipZero_spec (m := m1) (env := env) (E := fun _ => False) (R := List.replicate k 49 ++ [0]) (c := 49) (r := 36)
    (Q := fun i m' => i = 0 ∧ m1 = m') (by decide) [] [] (S.length + 1) (by simp)
    (fun zs ds' e _ => by
      have : zs = [] := by
        rcases zs with _ | _
        · rfl
        · simp at e
      subst this; exact ⟨rfl, rfl⟩)
  simp only [List.nil_append] at k2
  rw [← hS1] at k2
  refine faults_bind k2 ?_
  rintro _ _ ⟨rfl, rfl⟩
  have h0 : 0 ∈ S := by rw [hS]; simp
  have k3 := strlen_spec (m := m1) (env := env) (E := fun _ => False) (Q := fun i m' => i = k + 1 ∧ m1 = m') S [] (S.length + 1)
    (by omega) h0 (fun n hn hD => by
      have a1 := hn (k + 2) (by rw [← hSl, List.take_length]; exact h0)
      have a2 := hD (List.replicate (k + 1) 49) [0] hS (by simp)
      simp at a2
      exact ⟨by omega, rfl⟩)
  simp only [List.nil_append, List.length_nil] at k3
  refine faults_bind k3 ?_
  rintro _ _ ⟨rfl, rfl⟩
  exact (h2 m1).bind

/-- A string of 900000000 ones and more, in radix 36, leads to undefined behaviour. -/
theorem C31_read_cstring_overflow {n : Nat} (h : State m ρ) (hc : ρ c = some w) (h1 : 900000000 ≤ n) (h2 : n ≤ 2147483647) :
    Faults env (mp_int_read_cstring (.var c) 36 (List.replicate n 49 ++ [0])) m .ub :=
  read_cstring_inlen h hc (by omega) fun _ => s_inlen_overflow h1 h2

/-- "  -7Fg" in radix 16: the value is -7F, the scan stops at the `g`. -/
example : ∃ m, State m demo ∧ Runs env (mp_int_read_cstring (.var 2) 16 [32, 32, 45, 55, 70, 103, 0]) m fun res m' =>
      res = (MP_TRUNC, 5) ∧ State m' (put demo 2 (-127)) := by
  obtain ⟨m, h⟩ := demo_state
  refine ⟨m, h, ?_⟩
  have := C31_read_cstring_partial (env := env) (c := 2) (r := 16) (sp := [32, 32]) (sg := [45]) (ds := [55, 70]) (vs := [7, 15])
    (ch := 103) (rest := [0]) h rfl (by omega) (by simp [IsSpace]) (by simp)
    (by simp [IsDigit, digitChar]) (by intro d; unfold IsDigit digitChar; split <;> omega) (by simp)
    (by rw [List.take_of_length_le (by simp)]; simp)
  simpa [Nat.ofDigits] using this

example : outcome (mp_int_read_cstring (.var 0) 10 [43, 48, 48, 49, 50, 0]) [5] = some ((MP_OK, 5), [some 12]) := by
  decide +kernel

/-! ### C32 string round trip -/

theorem C32_round_trip (h : State m ρ) (ha : ρ a = some x) (hc : ρ c = some w) (hr : 2 ≤ r ∧ r ≤ 36)
    (hlim : 2 ≤ limit) (hlim2 : limit < 2 ^ 31) (hfit : (numeral r x).length + 1 ≤ limit)
    (hbuf : (numeral r x).length + 1 ≤ str.length) :
    Runs env (do
      let p ← mp_int_to_string (.var a) r str limit
      mp_int_read_cstring (.var c) r p.2) m fun res m' =>
        res = (MP_OK, (numeral r x).length) ∧ State m' (put ρ c x) := by
  refine .of_wp (wp_bind (mp_int_to_string_spec (ref_refused env) hr.1 hr.2 hlim (by omega) h.r2 ha
    (fun m1 h' _ => ?_) (fun _ _ _ h1 => by omega)))
  obtain ⟨vs, hvs, hval⟩ := numeralN_digits hr.1 x.natAbs
  have hN : (numeralN r x.natAbs).length ≤ (numeral r x).length := by unfold numeral; rw [List.length_append]; omega
  have key := mp_int_read_cstring_spec (m := m1) (env := env) (K := (numeralN r x.natAbs).length) (w := [])
    (sg := if x < 0 then [45] else []) (c := 0) (rest := str.drop ((numeral r x).length + 1)) (z := .var c)
    (Q := fun res m' => res = (MP_OK, (numeral r x).length) ∧ State m' (put ρ c x))
    (ref_refused env) hr.1 hr.2 (by simp) (by split <;> simp) hvs (fun d => not_isDigit_zero)
    (fun _ _ => ⟨by unfold IsSpace; omega, by omega, by omega⟩) (by omega)
    (numeralN_len hr.1 hr.2 (h.r2.size_le (z := .var a) ha))
    (by rw [List.take_append]; simp) rfl h' hc (fun m' h2 => ⟨by simp [numeral], ?_⟩)
  · simpa [numeral] using key
  · rw [upd_lift] at h2
    have e : (if (if x < 0 then [45] else []) = [45] then (-1 : Int) else 1) * ((Nat.ofDigits r vs.reverse : Nat) : Int) = x := by
      rw [hval]
      clear h2
      by_cases hx : x < 0
      · simp only [hx, if_true]; omega
      · simp only [hx, if_false, List.nil_eq, List.cons_ne_nil]; omega
    rw [e] at h2
    exact h2.state

example : ∃ m, State m demo ∧ Runs env (do
      let p ← mp_int_to_string (.var 3) 10 [1, 2, 3, 4, 5] 4
      mp_int_read_cstring (.var 0) 10 p.2) m fun res m' =>
        res = (MP_OK, (numeral 10 (-7)).length) ∧ State m' (put demo 0 (-7)) :=
  have e : numeral 10 (-7) = [45, 55] := by simp [numeral, numeralN, digitChar]
  let ⟨m, h⟩ := demo_state
  ⟨m, h, C32_round_trip h rfl rfl (by omega) (by omega) (by omega) (by rw [e]; decide) (by rw [e]; decide)⟩

/-! ### C33 two's complement -/

theorem binLen_le (v : Int) {n : Nat} (hn : 1 ≤ n) : binLen v ≤ n ↔ |v| < 2 ^ (8 * n - 1) := by
  have h1 : Nat.size v.natAbs ≤ 8 * n - 1 ↔ v.natAbs < 2 ^ (8 * n - 1) := Nat.size_le
  rw [Int.abs_eq_natAbs, show (((v.natAbs : Nat) : Int) < 2 ^ (8 * n - 1)) ↔ v.natAbs < 2 ^ (8 * n - 1) by exact_mod_cast Iff.rfl, ← h1]
  unfold binLen; omega

theorem unsLen_le (v : Int) {n : Nat} (hn : 1 ≤ n) : unsLen v ≤ n ↔ |v| < 256 ^ n := by
  have h1 : Nat.size v.natAbs ≤ 8 * n ↔ v.natAbs < 2 ^ (8 * n) := Nat.size_le
  rw [Int.abs_eq_natAbs, show (((v.natAbs : Nat) : Int) < 256 ^ n) ↔ v.natAbs < 256 ^ n by exact_mod_cast Iff.rfl, pow256, ← h1]
  unfold unsLen; omega

theorem C33_binary_len (h : State m ρ) (ha : ρ a = some x) :
    Runs env (mp_int_binary_len (.var a)) m fun res m' => res = binLen x ∧ m' = m :=
  .of_wp (mp_int_binary_len_spec h.r2 ha ⟨rfl, rfl⟩)

theorem C33_to_binary (h : State m ρ) (ha : ρ a = some x) (hlim : binLen x ≤ limit) (hbuf : binLen x ≤ buf.length) :
    Runs env (mp_int_to_binary (.var a) buf limit) m fun res m' =>
      m' = m ∧ ∃ X, res = (MP_OK, X ++ buf.drop X.length) ∧ X.length = binLen x ∧ (∀ b ∈ X, b < 256) ∧ twosVal X = x := by
  unfold binLen at hlim hbuf
  exact .of_wp (mp_int_to_binary_spec (by omega) h.r2 ha (by omega) (fun X _ h2 h3 h4 => ⟨rfl, X, rfl, h2, h3, h4⟩)
    (fun _ h1 => by omega))

/-- The array is restored.  Missing from the full property: arrays of 2^28 bytes and more; see
`C33_read_binary_overflow`. -/
theorem C33_read_binary_partial {X R : Bytes} (h : State m ρ) (hc : ρ c = some w) (hX : ∀ b ∈ X, b < 256)
    (h1 : 1 ≤ X.length) (h2 : X.length < 2 ^ 28) :
    Runs env (mp_int_read_binary (.var c) (X ++ R) X.length) m fun res m' =>
      res = (MP_OK, X ++ R) ∧ State m' (put ρ c (twosVal X)) := by
  refine .of_wp (mp_int_read_binary_spec (ref_refused env) hX rfl h1 (by omega) rfl h.r2 hc fun m' h' => ⟨rfl, ?_⟩)
  rw [upd_lift] at h'; exact h'.state

/-- For 2^28 bytes the number of bits overflows `int`. -/
theorem C33_read_binary_overflow {len : Int} (h1 : 2 ^ 28 ≤ len) : Faults env (mp_int_read_binary (.var c) buf len) m .ub := by
  unfold mp_int_read_binary
  refine faults_bind (Q := fun _ m' => m' = m) (wp_cassert (decide_eq_true (by omega)) rfl) ?_
  rintro _ _ rfl
  have : cint (len * 8) = fail .ub := by unfold cint; rw [if_neg (by omega)]
  rw [this]; rfl

theorem C33_round_trip (h : State m ρ) (ha : ρ a = some x) (hc : ρ c = some w) :
    Runs env (do
      let l ← mp_int_binary_len (.var a)
      let p ← mp_int_to_binary (.var a) (List.replicate l.toNat 0) l
      let q ← mp_int_read_binary (.var c) p.2 l
      pure (p.1, q.1, decide (p.2 = q.2))) m fun res m' => res = (MP_OK, MP_OK, true) ∧ State m' (put ρ c x) := by
  have hsz := h.r2.size_le (z := .var a) ha
  refine .of_wp (wp_bind (mp_int_binary_len_spec h.r2 ha ?_))
  refine wp_bind (mp_int_to_binary_spec (by omega) h.r2 ha (by simp) (fun X _ h2 h3 h4 => ?_) (fun _ h1 => by omega))
  rw [List.drop_eq_nil_of_le (by simp; omega)]
  refine wp_bind (mp_int_read_binary_spec (ref_refused env) h3 (by rw [h2]) (by omega) (by omega) rfl h.r2 hc fun m' h' => wp_pure ⟨by simp, ?_⟩)
  rw [upd_lift, h4] at h'; exact h'.state

example : ∃ m, State m demo ∧ Runs env (mp_int_to_binary (.var 1) [1, 2, 3, 4, 5, 6, 7, 8, 9, 10] 10) m fun res m' =>
      m' = m ∧ ∃ X, res = (MP_OK, X ++ [1, 2, 3, 4, 5, 6, 7, 8, 9, 10].drop X.length) ∧ X.length = binLen (-2 ^ 70) ∧
        (∀ b ∈ X, b < 256) ∧ twosVal X = -2 ^ 70 :=
  have e : binLen (-2 ^ 70) = 9 := by decide +kernel
  let ⟨m, h⟩ := demo_state; ⟨m, h, C33_to_binary h rfl (by rw [e]; decide) (by rw [e]; decide)⟩

example : ∃ m, State m demo ∧ Runs env (mp_int_read_binary (.var 1) ([254, 7] ++ [9]) (2 : Nat)) m fun res m' =>
      res = (MP_OK, [254, 7] ++ [9]) ∧ State m' (put demo 1 (-505)) :=
  let ⟨m, h⟩ := demo_state; ⟨m, h, C33_read_binary_partial (X := [254, 7]) h rfl (by simp) (by simp) (by simp)⟩

example : ∃ m, State m demo ∧ Runs env (do
      let l ← mp_int_binary_len (.var 1)
      let p ← mp_int_to_binary (.var 1) (List.replicate l.toNat 0) l
      let q ← mp_int_read_binary (.var 2) p.2 l
      pure (p.1, q.1, decide (p.2 = q.2))) m fun res m' => res = (MP_OK, MP_OK, true) ∧ State m' (put demo 2 (-2 ^ 70)) :=
  let ⟨m, h⟩ := demo_state; ⟨m, h, C33_round_trip h rfl rfl⟩

example : outcome (mp_int_to_binary (.var 0) [7, 7, 7] 3) [-128] = some ((MP_OK, [255, 128, 7]), [some (-128)]) := by decide +kernel

/-! ### C34 unsigned -/

theorem C34_unsigned_len (h : State m ρ) (ha : ρ a = some x) :
    Runs env (mp_int_unsigned_len (.var a)) m fun res m' => res = unsLen x ∧ m' = m :=
  .of_wp (mp_int_unsigned_len_spec h.r2 ha ⟨rfl, rfl⟩)

theorem C34_to_unsigned (h : State m ρ) (ha : ρ a = some x) (hlim : unsLen x ≤ limit) (hbuf : unsLen x ≤ buf.length) :
    Runs env (mp_int_to_unsigned (.var a) buf limit) m fun res m' =>
      m' = m ∧ ∃ X, res = (MP_OK, X ++ buf.drop X.length) ∧ X.length = unsLen x ∧ (∀ b ∈ X, b < 256) ∧ (beVal X : Int) = |x| := by
  unfold unsLen at hlim hbuf
  refine .of_wp (mp_int_to_unsigned_spec (by omega) h.r2 ha (by omega) (fun X _ h2 h3 h4 => ⟨rfl, X, rfl, h2, h3, ?_⟩)
    (fun _ h1 => by omega))
  rw [h4, Int.abs_eq_natAbs]

/-- Missing from the full property: arrays of 2^28 bytes and more; see `C34_read_unsigned_overflow`. -/
theorem C34_read_unsigned_partial {X R : Bytes} (h : State m ρ) (hc : ρ c = some w) (hX : ∀ b ∈ X, b < 256)
    (h1 : 1 ≤ X.length) (h2 : X.length < 2 ^ 28) :
    Runs env (mp_int_read_unsigned (.var c) (X ++ R) X.length) m fun res m' => res = MP_OK ∧ State m' (put ρ c (beVal X)) := by
  refine .of_wp (mp_int_read_unsigned_spec (ref_refused env) hX rfl h1 (by omega) rfl h.r2 hc fun m' h' => ⟨rfl, ?_⟩)
  rw [upd_lift] at h'; exact h'.state

theorem C34_read_unsigned_overflow {len : Int} (h1 : 2 ^ 28 ≤ len) : Faults env (mp_int_read_unsigned (.var c) buf len) m .ub := by
  unfold mp_int_read_unsigned
  refine faults_bind (Q := fun _ m' => m' = m) (wp_cassert (decide_eq_true (by omega)) rfl) ?_
  rintro _ _ rfl
  have : cint (len * 8) = fail .ub := by unfold cint; rw [if_neg (by omega)]
  rw [this]; rfl

theorem C34_round_trip (h : State m ρ) (ha : ρ a = some x) (hc : ρ c = some w) :
    Runs env (do
      let l ← mp_int_unsigned_len (.var a)
      let p ← mp_int_to_unsigned (.var a) (List.replicate l.toNat 0) l
      let q ← mp_int_read_unsigned (.var c) p.2 l
      pure (p.1, q)) m fun res m' => res = (MP_OK, MP_OK) ∧ State m' (put ρ c |x|) := by
  have hsz := h.r2.size_le (z := .var a) ha
  refine .of_wp (wp_bind (mp_int_unsigned_len_spec h.r2 ha ?_))
  refine wp_bind (mp_int_to_unsigned_spec (by omega) h.r2 ha (by simp) (fun X _ h2 h3 h4 => ?_) (fun _ h1 => by omega))
  refine wp_bind (mp_int_read_unsigned_spec (ref_refused env) h3 (by rw [h2]) (by omega) (by omega) rfl h.r2 hc fun m' h' => wp_pure ⟨rfl, ?_⟩)
  rw [upd_lift, h4, ← Int.abs_eq_natAbs] at h'; exact h'.state

example : ∃ m, State m demo ∧ Runs env (mp_int_to_unsigned (.var 1) [1, 2, 3, 4, 5, 6, 7, 8, 9, 10] 10) m fun res m' =>
      m' = m ∧ ∃ X, res = (MP_OK, X ++ [1, 2, 3, 4, 5, 6, 7, 8, 9, 10].drop X.length) ∧ X.length = unsLen (-2 ^ 70) ∧
        (∀ b ∈ X, b < 256) ∧ (beVal X : Int) = |(-2 ^ 70 : Int)| :=
  have e : unsLen (-2 ^ 70) = 9 := by decide +kernel
  let ⟨m, h⟩ := demo_state; ⟨m, h, C34_to_unsigned h rfl (by rw [e]; decide) (by rw [e]; decide)⟩

example : ∃ m, State m demo ∧ Runs env (mp_int_read_unsigned (.var 1) ([254, 7] ++ [9]) (2 : Nat)) m fun res m' =>
      res = MP_OK ∧ State m' (put demo 1 65031) :=
  let ⟨m, h⟩ := demo_state; ⟨m, h, C34_read_unsigned_partial (X := [254, 7]) h rfl (by simp) (by simp) (by simp)⟩

example : ∃ m, State m demo ∧ Runs env (do
      let l ← mp_int_unsigned_len (.var 1)
      let p ← mp_int_to_unsigned (.var 1) (List.replicate l.toNat 0) l
      let q ← mp_int_read_unsigned (.var 2) p.2 l
      pure (p.1, q)) m fun res m' => res = (MP_OK, MP_OK) ∧ State m' (put demo 2 |(-2 ^ 70 : Int)|) :=
  let ⟨m, h⟩ := demo_state; ⟨m, h, C34_round_trip h rfl rfl⟩

/-! ### C35 truncation -/

/-- If the limit is too small the bytes of low order are written. -/
theorem C35_to_binary (h : State m ρ) (ha : ρ a = some x) (hlim : 1 ≤ limit) (hbuf : limit ≤ buf.length) :
    Runs env (mp_int_to_binary (.var a) buf limit) m fun res m' =>
      (res.1 = MP_TRUNC ↔ limit < binLen x) ∧ (res.1 = MP_OK ↔ binLen x ≤ limit) ∧ res.2.length = buf.length ∧
      res.2.drop limit.toNat = buf.drop limit.toNat ∧ m' = m ∧
      (limit < binLen x → ∃ X, res.2 = X ++ buf.drop limit.toNat ∧ X.length = limit ∧ (∀ b ∈ X, b < 256) ∧
        (beVal X : Int) = x % 256 ^ limit.toNat) := by
  unfold binLen
  refine .of_wp (mp_int_to_binary_spec hlim h.r2 ha (by omega)
    (fun X h1 h2 h3 h4 => ⟨⟨fun h => by simp [MP_OK, MP_TRUNC] at h, fun h => by omega⟩, ⟨fun _ => h1, fun _ => rfl⟩, by simp; omega, ?_, rfl,
      fun h => by omega⟩)
    (fun X h1 h2 h3 h4 => ?_))
  · rw [List.drop_append, List.drop_eq_nil_of_le (by omega), List.nil_append, List.drop_drop]
    congr 1; omega
  · have e : X.length = limit.toNat := by omega
    refine ⟨⟨fun _ => h1, fun _ => rfl⟩, ⟨fun h => by simp [MP_OK, MP_TRUNC] at h, fun h => by omega⟩, by simp; omega, ?_, rfl,
      fun _ => ⟨X, by rw [e], h2, h3, by rw [← e]; exact h4⟩⟩
    rw [← e, List.drop_left]

theorem C35_to_unsigned (h : State m ρ) (ha : ρ a = some x) (hlim : 1 ≤ limit) (hbuf : limit ≤ buf.length) :
    Runs env (mp_int_to_unsigned (.var a) buf limit) m fun res m' =>
      (res.1 = MP_TRUNC ↔ limit < unsLen x) ∧ (res.1 = MP_OK ↔ unsLen x ≤ limit) ∧ res.2.length = buf.length ∧
      res.2.drop limit.toNat = buf.drop limit.toNat ∧ m' = m ∧
      (limit < unsLen x → ∃ X, res.2 = X ++ buf.drop limit.toNat ∧ X.length = limit ∧ (∀ b ∈ X, b < 256) ∧
        (beVal X : Int) = |x| % 256 ^ limit.toNat) := by
  unfold unsLen
  refine .of_wp (mp_int_to_unsigned_spec hlim h.r2 ha (by omega)
    (fun X h1 h2 h3 h4 => ⟨⟨fun h => by simp [MP_OK, MP_TRUNC] at h, fun h => by omega⟩, ⟨fun _ => h1, fun _ => rfl⟩, by simp; omega, ?_, rfl,
      fun h => by omega⟩)
    (fun X h1 h2 h3 h4 => ?_))
  · rw [List.drop_append, List.drop_eq_nil_of_le (by omega), List.nil_append, List.drop_drop]
    congr 1; omega
  · have e : X.length = limit.toNat := by omega
    refine ⟨⟨fun _ => h1, fun _ => rfl⟩, ⟨fun h => by simp [MP_OK, MP_TRUNC] at h, fun h => by omega⟩, by simp; omega, ?_, rfl,
      fun _ => ⟨X, by rw [e], h2, h3, ?_⟩⟩
    · rw [← e, List.drop_left]
    · rw [← e, h4, Int.abs_eq_natAbs]; push_cast; rfl

/-- Exactly the arrays that are shorter than what is written are overrun: with `C35_to_binary` this says
for every array whether it is long enough. -/
theorem C35_no_room (h : State m ρ) (ha : ρ a = some x) (hbuf : (buf.length : Int) < limit) :
    (buf.length < binLen x → FaultsOr env (mp_int_to_binary (.var a) buf limit) m .ub) ∧
    (buf.length < unsLen x → FaultsOr env (mp_int_to_unsigned (.var a) buf limit) m .ub) := by
  refine ⟨fun h1 => .of_wp (mp_int_to_binary_fault (.inl rfl) h.r2 ha ?_), fun h1 => .of_wp (mp_int_to_unsigned_fault (.inl rfl) h.r2 ha ?_)⟩
  · unfold binLen at h1; omega
  · unfold unsLen at h1; omega

example (h : State m demo) : FaultsOr env (mp_int_to_binary (.var 1) [1, 2, 3, 4] 100) m .ub :=
  (C35_no_room h (x := -(2 ^ 70)) rfl (by simp)).1 (by decide +kernel)

/-- A limit of 0: the padding test reads before the start of the array. -/
theorem C35_limit_zero_witness : faultOf (mp_int_to_binary (.var 0) [7, 7, 7] 0) [300] = some .ub := by decide +kernel

example : ∃ m, State m demo ∧ Runs env (mp_int_to_binary (.var 0) [1, 2, 3, 4] 3) m fun res m' =>
      (res.1 = MP_TRUNC ↔ 3 < (binLen (2 ^ 100 + 1) : Int)) ∧ (res.1 = MP_OK ↔ (binLen (2 ^ 100 + 1) : Int) ≤ 3) ∧ res.2.length = 4 ∧
      res.2.drop 3 = [4] ∧ m' = m ∧ (3 < (binLen (2 ^ 100 + 1) : Int) → ∃ X, res.2 = X ++ [4] ∧ (X.length : Int) = 3 ∧ (∀ b ∈ X, b < 256) ∧
        (beVal X : Int) = (2 ^ 100 + 1) % 256 ^ 3) :=
  let ⟨m, h⟩ := demo_state; ⟨m, h, C35_to_binary (buf := [1, 2, 3, 4]) h rfl (by omega) (by simp)⟩

example : outcome (mp_int_to_binary (.var 0) [9, 9, 9] 2) [-65538] = some ((MP_TRUNC, [255, 254, 9]), [some (-65538)]) := by
  decide +kernel

example : ∃ m, State m demo ∧ Runs env (mp_int_to_unsigned (.var 0) [1, 2, 3, 4] 3) m fun res m' =>
      (res.1 = MP_TRUNC ↔ 3 < (unsLen (2 ^ 100 + 1) : Int)) ∧ (res.1 = MP_OK ↔ (unsLen (2 ^ 100 + 1) : Int) ≤ 3) ∧ res.2.length = 4 ∧
      res.2.drop 3 = [4] ∧ m' = m ∧ (3 < (unsLen (2 ^ 100 + 1) : Int) → ∃ X, res.2 = X ++ [4] ∧ (X.length : Int) = 3 ∧ (∀ b ∈ X, b < 256) ∧
        (beVal X : Int) = |2 ^ 100 + 1| % 256 ^ 3) :=
  let ⟨m, h⟩ := demo_state; ⟨m, h, C35_to_unsigned (buf := [1, 2, 3, 4]) h rfl (by omega) (by simp)⟩

/-! ### C36 error messages -/

/-- Missing from the full property: the code -2^31; see `C36_int_min`. -/
theorem C36_error_string_partial {res : Int} (h1 : -2 ^ 31 < res) (h2 : res < 2 ^ 31) :
    Runs env (mp_error_string res) m fun s m' => m' = m ∧
      s = (if res = 0 then "error code 0" else if res = -1 then "boolean true" else if res = -2 then "out of memory"
        else if res = -3 then "argument out of range" else if res = -4 then "result undefined"
        else if res = -5 then "output truncated" else if res = -6 then "invalid argument" else "unknown result code") := by
  refine .of_wp (mp_error_string_spec (by omega) (by omega) ⟨rfl, ?_⟩)
  by_cases hp : res > 0
  · rw [if_pos hp, if_neg (by omega), if_neg (by omega), if_neg (by omega), if_neg (by omega), if_neg (by omega), if_neg (by omega),
      if_neg (by omega)]
  · rw [if_neg hp]
    obtain ⟨k, rfl⟩ : ∃ k : Nat, res = -(k : Int) := ⟨(-res).toNat, by omega⟩
    rw [show (-(-(k : Int))).toNat = k by omega]
    rcases k with _ | _ | _ | _ | _ | _ | _ | k
    · rfl
    · rfl
    · rfl
    · rfl
    · rfl
    · rfl
    · rfl
    · rw [List.getElem?_eq_none (by simp), if_neg (by omega), if_neg (by omega), if_neg (by omega), if_neg (by omega), if_neg (by omega),
        if_neg (by omega), if_neg (by omega)]
      rfl

/-- `-res` overflows. -/
theorem C36_int_min : Faults env (mp_error_string (-2 ^ 31)) m .ub := rfl

example : Runs env (mp_error_string MP_UNDEF) m fun s m' => m' = m ∧ s = "result undefined" :=
  C36_error_string_partial (by decide) (by decide)

end Imath
