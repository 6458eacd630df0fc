import Verif.Props.RatQuirks
import Verif.Proof.RatRead

/-!
# C41: all terminated texts, texts without terminator, truncated output

Completes `Props/RatStr.lean`: the numerator may have no digits, the denominator may be zero or followed by other
characters, white space or a sign may follow the point.
-/

namespace Imath

variable {env : Env} {m : Mem} {ρ : Nat → Option Int} {a c : RVar} {r : Nat} {p : ℚ} {str : Bytes} {limit : Int}

/-- A fraction.  The numerator may lack digits, then it is zero; but white space that is followed by a slash is then
part of what comes before the numerator.

Missing from the full property: texts of more than 800000000 characters. -/
theorem C41_read_fraction_partial {w sg ds w2 w3 sg3 ds3 rest : Bytes} {vs vs3 : List Nat}
    (h : State m ρ) (hc : ReadyQ ρ c) (hr : 2 ≤ r ∧ r ≤ 36)
    (hw : ∀ x ∈ w, IsSpace x) (hsg : sg = [] ∨ sg = [43] ∨ sg = [45]) (hds : List.Forall₂ (IsDigit r) ds vs)
    (hne : sg = [] → ds = [] → w2 = []) (hw2 : ∀ x ∈ w2, IsSpace x)
    (hw3 : ∀ x ∈ w3, IsSpace x) (hsg3 : sg3 = [] ∨ sg3 = [43] ∨ sg3 = [45]) (hds3 : List.Forall₂ (IsDigit r) ds3 vs3)
    (hnul : 0 ∈ (w ++ sg ++ ds ++ (w2 ++ 47 :: (w3 ++ sg3 ++ ds3 ++ 0 :: rest))).take 800000001)
    (hnz : Nat.ofDigits r vs3.reverse ≠ 0) :
    Runs env (mp_rat_read_cstring c.p r (w ++ sg ++ ds ++ (w2 ++ 47 :: (w3 ++ sg3 ++ ds3 ++ 0 :: rest)))) m fun res m' =>
      res = (MP_OK, some (w ++ sg ++ ds ++ w2 ++ [47] ++ w3 ++ sg3 ++ ds3).length) ∧
      State m' (putQ ρ c (((if sg = [45] then -1 else 1) * (Nat.ofDigits r vs.reverse : Nat)) /
        ((if sg3 = [45] then -1 else 1) * (Nat.ofDigits r vs3.reverse : Nat)))) := by
  refine .of_wp (read_cstring_slash (ref_refused env) hr.1 hr.2 hw hsg hds hne hw2 hw3 hsg3 hds3 (fun d => not_isDigit_zero)
    (fun _ _ => ⟨by unfold IsSpace; omega, by omega, by omega⟩) hnul h.r2 hc.l (fun _ _ m' h' => ⟨rfl, ?_⟩) fun hh => absurd hh (by simpa using hnz))
  rw [Rat.divInt_eq_div] at h'
  generalize Nat.ofDigits r vs.reverse = N at *
  generalize Nat.ofDigits r vs3.reverse = D at *
  have := h'.stateQ
  push_cast at this ⊢
  exact this

/-- "/7" is 0 -/
example : ∃ m, State m demoQ ∧ Runs env (mp_rat_read_cstring qa.p 10 [47, 55, 0]) m fun res m' =>
    res = (MP_OK, some 2) ∧ State m' (putQ demoQ qa 0) := by
  obtain ⟨m, h⟩ := demoQ_state
  refine ⟨m, h, ?_⟩
  have := C41_read_fraction_partial (env := env) (w := []) (sg := []) (ds := []) (vs := []) (w2 := []) (w3 := [])
    (sg3 := []) (ds3 := [55]) (vs3 := [7]) (rest := []) (r := 10) h (demoQ_a.ready (by decide)) (by omega) (by simp) (by simp)
    (by simp) (by simp) (by simp) (by simp) (by simp) (by simp [IsDigit, digitChar])
    (by rw [List.take_of_length_le (by simp)]; simp) (by simp)
  norm_num [Nat.ofDigits] at this
  exact this

/-- The denominator is zero, or is followed by other characters: the result is `MP_UNDEF` or `MP_TRUNC`, and the two integers
are stored as they are, neither reduced nor with positive denominator (imrat.c:684-688).

Missing from the full property: texts of more than 800000000 characters. -/
theorem C41_read_fraction_raw_partial {w sg ds w2 w3 sg3 ds3 rest : Bytes} {vs vs3 : List Nat} {ch : Nat}
    (h : State m ρ) (hc : ReadyQ ρ c) (hr : 2 ≤ r ∧ r ≤ 36)
    (hw : ∀ x ∈ w, IsSpace x) (hsg : sg = [] ∨ sg = [43] ∨ sg = [45]) (hds : List.Forall₂ (IsDigit r) ds vs)
    (hne : sg = [] → ds = [] → w2 = []) (hw2 : ∀ x ∈ w2, IsSpace x)
    (hw3 : ∀ x ∈ w3, IsSpace x) (hsg3 : sg3 = [] ∨ sg3 = [43] ∨ sg3 = [45]) (hds3 : List.Forall₂ (IsDigit r) ds3 vs3)
    (hch : ∀ d, ¬ IsDigit r ch d) (hhead : sg3 = [] → ds3 = [] → ¬ IsSpace ch ∧ ch ≠ 43 ∧ ch ≠ 45)
    (hnul : 0 ∈ (w ++ sg ++ ds ++ (w2 ++ 47 :: (w3 ++ sg3 ++ ds3 ++ ch :: rest))).take 800000001)
    (hz : ch ≠ 0 ∨ Nat.ofDigits r vs3.reverse = 0) :
    Runs env (mp_rat_read_cstring c.p r (w ++ sg ++ ds ++ (w2 ++ 47 :: (w3 ++ sg3 ++ ds3 ++ ch :: rest)))) m fun res m' =>
      res = (if ch = 0 then MP_UNDEF else MP_TRUNC, some (w ++ sg ++ ds ++ w2 ++ [47] ++ w3 ++ sg3 ++ ds3).length) ∧
      State m' (put (put ρ c.num ((if sg = [45] then -1 else 1) * (Nat.ofDigits r vs.reverse : Nat))) c.den
        ((if sg3 = [45] then -1 else 1) * (Nat.ofDigits r vs3.reverse : Nat))) := by
  refine .of_wp (read_cstring_slash (ref_refused env) hr.1 hr.2 hw hsg hds hne hw2 hw3 hsg3 hds3 hch hhead hnul h.r2 hc.l
    (fun e1 e2 => absurd hz (by simp [e1, e2])) fun _ m' h' => ⟨rfl, ?_⟩)
  rw [show c.p.num = .var c.num from rfl, show c.p.den = .var c.den from rfl, upd_lift, upd_lift] at h'
  exact h'.state

/-- 6, a slash, -4, and a blank -/
example : ∃ m, State m demoQ ∧ Runs env (mp_rat_read_cstring qa.p 10 [54, 47, 45, 52, 32, 0]) m fun res m' =>
    res = (MP_TRUNC, some 4) ∧ State m' (put (put demoQ 0 6) 1 (-4)) := by
  obtain ⟨m, h⟩ := demoQ_state
  refine ⟨m, h, ?_⟩
  have := C41_read_fraction_raw_partial (env := env) (w := []) (sg := []) (ds := [54]) (vs := [6]) (w2 := []) (w3 := [])
    (sg3 := [45]) (ds3 := [52]) (vs3 := [4]) (ch := 32) (rest := [0]) (r := 10) h (demoQ_a.ready (by decide)) (by omega) (by simp) (by simp)
    (by simp [IsDigit, digitChar]) (by simp) (by simp) (by simp) (by simp) (by simp [IsDigit, digitChar])
    (fun d => not_isDigit_of_lt (by omega) (by omega)) (by simp)
    (by rw [List.take_of_length_le (by simp)]; simp) (by simp)
  norm_num [Nat.ofDigits] at this
  exact this

/-- A number without denominator, possibly without digits.

Missing from the full property: texts of more than 800000000 characters. -/
theorem C41_read_integer_partial {w sg ds w2 rest : Bytes} {vs : List Nat} {ch : Nat}
    (h : State m ρ) (hc : ReadyQ ρ c) (hr : 2 ≤ r ∧ r ≤ 36)
    (hw : ∀ x ∈ w, IsSpace x) (hsg : sg = [] ∨ sg = [43] ∨ sg = [45]) (hds : List.Forall₂ (IsDigit r) ds vs)
    (hne : sg = [] → ds = [] → w2 = [] ∧ ch ≠ 43 ∧ ch ≠ 45)
    (hw2 : ∀ x ∈ w2, IsSpace x) (hch : ¬ IsSpace ch) (hd : w2 = [] → ∀ d, ¬ IsDigit r ch d) (h47 : ch ≠ 47)
    (hnul : 0 ∈ (w ++ sg ++ ds ++ (w2 ++ ch :: rest)).take 800000001) :
    Runs env (mp_rat_read_cstring c.p r (w ++ sg ++ ds ++ (w2 ++ ch :: rest))) m fun res m' =>
      res = (if w2 = [] ∧ ch = 0 then MP_OK else MP_TRUNC, some (w ++ sg ++ ds).length) ∧
      State m' (putQ ρ c ((if sg = [45] then -1 else 1) * (Nat.ofDigits r vs.reverse : Nat))) := by
  refine .of_wp (read_cstring_noslash (ref_refused env) hr.1 hr.2 hw hsg hds hne hw2 hch hd h47 hnul h.r2 hc.l fun m' h' => ⟨rfl, ?_⟩)
  generalize Nat.ofDigits r vs.reverse = N at *
  have := h'.stateQ
  push_cast at this ⊢
  exact this

/-- "  x": nothing is read, and the value is zero. -/
example : ∃ m, State m demoQ ∧ Runs env (mp_rat_read_cstring qa.p 10 [32, 32, 120, 0]) m fun res m' =>
    res = (MP_TRUNC, some 2) ∧ State m' (putQ demoQ qa 0) := by
  obtain ⟨m, h⟩ := demoQ_state
  refine ⟨m, h, ?_⟩
  have := C41_read_integer_partial (env := env) (w := [32, 32]) (sg := []) (ds := []) (vs := []) (w2 := []) (ch := 120) (rest := [0])
    (r := 10) h (demoQ_a.ready (by decide)) (by omega) (by simp [IsSpace]) (by simp)
    (by simp) (by simp) (by simp) (by simp [IsSpace]) (fun _ d => by unfold IsDigit digitChar; split <;> omega) (by simp)
    (by rw [List.take_of_length_le (by simp)]; simp)
  norm_num [Nat.ofDigits] at this
  exact this

/-- White space or a sign after the point: the integer part is stored, the result is `MP_TRUNC`, and `*end` is not assigned
(imrat.c:764-765).

Missing from the full property: texts of more than 800000000 characters. -/
theorem C41_read_decimal_point_partial {w sg ds rest : Bytes} {vs : List Nat} {ch : Nat}
    (h : State m ρ) (hc : ReadyQ ρ c) (hr : 2 ≤ r ∧ r ≤ 36)
    (hw : ∀ x ∈ w, IsSpace x) (hsg : sg = [] ∨ sg = [43] ∨ sg = [45]) (hds : List.Forall₂ (IsDigit r) ds vs)
    (hch : IsSpace ch ∨ ch = 43 ∨ ch = 45) (hnul : 0 ∈ (w ++ sg ++ ds ++ 46 :: ch :: rest).take 800000001) :
    Runs env (mp_rat_read_cdecimal c.p r (w ++ sg ++ ds ++ 46 :: ch :: rest)) m fun res m' =>
      res = (MP_TRUNC, none) ∧ State m' (putQ ρ c ((if sg = [45] then -1 else 1) * (Nat.ofDigits r vs.reverse : Nat))) := by
  refine .of_wp (read_cdecimal_point (ref_refused env) hr.1 hr.2 hw hsg hds hch hnul h.r2 hc.l fun m' h' => ⟨rfl, ?_⟩)
  generalize Nat.ofDigits r vs.reverse = N at *
  have := h'.stateQ
  push_cast at this ⊢
  exact this

/-- "-5.+1" -/
example : ∃ m, State m demoQ ∧ Runs env (mp_rat_read_cdecimal qa.p 10 [45, 53, 46, 43, 49, 0]) m fun res m' =>
    res = (MP_TRUNC, none) ∧ State m' (putQ demoQ qa (-5)) := by
  obtain ⟨m, h⟩ := demoQ_state
  refine ⟨m, h, ?_⟩
  have := C41_read_decimal_point_partial (env := env) (w := []) (sg := [45]) (ds := [53]) (vs := [5]) (ch := 43) (rest := [49, 0])
    (r := 10) h (demoQ_a.ready (by decide)) (by omega) (by simp) (by simp)
    (by simp [IsDigit, digitChar]) (by simp) (by rw [List.take_of_length_le (by simp)]; simp)
  norm_num [Nat.ofDigits] at this
  exact this

/-- A text without terminator is read beyond its end. -/
theorem C41_unterminated (h : State m ρ) (hc : ReadyQ ρ c) (hr : 2 ≤ r ∧ r ≤ 36) (h0 : 0 ∉ str) :
    FaultsOr env (mp_rat_read_cstring c.p r str) m .ub ∧ FaultsOr env (mp_rat_read_cdecimal c.p r str) m .ub :=
  ⟨.of_wp (rat_read_cstring_fault (.inl rfl) hr h0 h.r2 hc.l), .of_wp (rat_read_cdecimal_fault (.inl rfl) hr h0 h.r2 hc.l)⟩

example : ∃ m, State m demoQ ∧ FaultsOr env (mp_rat_read_cdecimal qa.p 10 [49, 46, 53]) m .ub :=
  let ⟨m, h⟩ := demoQ_state
  ⟨m, h, (C41_unterminated h (demoQ_a.ready (by decide)) (by omega) (by decide)).2⟩

/-- Other radices. -/
theorem C41_read_radix (hr : r < 2 ∨ 36 < r) :
    FaultsOr env (mp_rat_read_cstring c.p r str) m .assert ∧ (0 ∈ str → FaultsOr env (mp_rat_read_cdecimal c.p r str) m .assert) := by
  have key : ∀ (z : Id) (s : Bytes) (m : Mem) (Q : Int × Nat → Mem → Prop), wp env (OrRefused env .assert) (mp_int_read_cstring z r s) Q m :=
    fun z s m Q => wp_bind (cassert_fail (decide_eq_false (by omega)) (.inl rfl))
  refine ⟨.of_wp (wp_bind (key _ _ _ _)), fun h0 => .of_wp ?_⟩
  obtain ⟨w, t, rfl, hw, ht, hs⟩ := split_space str h0
  cases t with
  | nil => simp at ht
  | cons x t =>
    refine wp_bind (skipSpace_spec (hs x t rfl) w [] _ (by simp) hw ?_)
    refine wp_bind (wp_bget (x := x) (by simp) (wp_bind (key _ _ _ _)))

/-- `mp_rat_read_cdecimal` skips white space first: in another radix, a text that has any other character, be it terminated or not, makes
the assertion fail, and one that consists of white space is read beyond its end. -/
theorem C41_read_decimal_radix (hr : r < 2 ∨ 36 < r) :
    ((∃ x ∈ str, ¬ IsSpace x) → FaultsOr env (mp_rat_read_cdecimal c.p r str) m .assert) ∧
    ((∀ x ∈ str, IsSpace x) → FaultsOr env (mp_rat_read_cdecimal c.p r str) m .ub) := by
  refine ⟨fun h => .of_wp ?_, fun h => .of_wp (wp_bind (skipSpace_end (.inl rfl) h _ _ (by omega) (by omega)))⟩
  obtain ⟨w, x, t, rfl, hw, hx⟩ := split_first_nonspace str h
  refine wp_bind (skipSpace_spec hx w [] _ (by simp) hw ?_)
  exact wp_bind (wp_bget (x := x) (by simp) (wp_bind (wp_bind (cassert_fail (decide_eq_false (by omega)) (.inl rfl)))))

example : FaultsOr env (mp_rat_read_cdecimal qa.p 37 [32, 49]) m .assert ∧ FaultsOr env (mp_rat_read_cdecimal qa.p 37 [32, 9]) m .ub :=
  ⟨(C41_read_decimal_radix (.inr (by omega))).1 ⟨49, by simp, by simp [IsSpace]⟩, (C41_read_decimal_radix (.inr (by omega))).2 (by simp [IsSpace])⟩

example : FaultsOr env (mp_rat_read_cdecimal qa.p 37 [49, 46, 53, 0]) m .assert := (C41_read_radix (.inr (by omega))).2 (by decide)

/-- What is written if the text does not fit: the sign and the last digits of the numerator, ... -/
theorem C41_to_string_trunc_num (h : State m ρ) (ha : HasQ ρ a p) (hr : 2 ≤ r ∧ r ≤ 36) (hlim : 2 ≤ limit)
    (hfit : limit ≤ (numeral r p.num).length) (hbuf : limit + 1 ≤ str.length) :
    Runs env (mp_rat_to_string a.p r str limit) m fun res m' =>
      res = (MP_TRUNC, numeralTail r p.num limit.toNat ++ 0 :: str.drop (limit.toNat + 1)) ∧ State m' ρ :=
  .of_wp (rat_to_string_trunc_num (ref_refused env) hr.1 hr.2 h.r2 ha.l hlim hfit hbuf fun _ h' => ⟨rfl, h'.state⟩)

/-- ... or the numerator and the last digits of the denominator; NUL comes after `limit` characters. -/
theorem C41_to_string_trunc_den (h : State m ρ) (ha : HasQ ρ a p) (hr : 2 ≤ r ∧ r ≤ 36)
    (hfit : limit ≤ (ratText r p).length) (hmid : (numeral r p.num).length + 3 ≤ limit) (hbuf : limit + 1 ≤ str.length) :
    Runs env (mp_rat_to_string a.p r str limit) m fun res m' =>
      res = (MP_TRUNC, numeral r p.num ++ 47 :: numeralTail r p.den (limit.toNat - (numeral r p.num).length - 1) ++
        0 :: str.drop (limit.toNat + 1)) ∧ State m' ρ :=
  .of_wp (rat_to_string_trunc_den (ref_refused env) hr.1 hr.2 h.r2 ha.l hfit hmid hbuf fun _ h' => ⟨rfl, h'.state⟩)

/-- -22/7 to radix 2, "-10110/111", with the limits 9 and 3 -/
example : ∃ m, State m demoQ ∧
    (Runs env (mp_rat_to_string qa.p 2 (List.replicate 12 88) 9) m fun res m' =>
      res = (MP_TRUNC, [45, 49, 48, 49, 49, 48, 47, 49, 49, 0, 88, 88]) ∧ State m' demoQ) ∧
    Runs env (mp_rat_to_string qa.p 2 (List.replicate 8 88) 3) m fun res m' =>
      res = (MP_TRUNC, [45, 49, 48, 0, 88, 88, 88, 88]) ∧ State m' demoQ := by
  obtain ⟨m, h⟩ := demoQ_state
  have e1 : (-22 / 7 : ℚ).num = -22 := by decide +kernel
  have e2 : (-22 / 7 : ℚ).den = 7 := by decide +kernel
  have e3 : (-22 / 7 : ℚ) ≠ 0 := by norm_num
  have d1 : numeral 2 (-22) = [45, 49, 48, 49, 49, 48] := by simp [numeral, numeralN, digitChar]
  have d2 : numeral 2 ((7 : Nat) : Int) = [49, 49, 49] := by simp [numeral, numeralN, digitChar]
  refine ⟨m, h, ?_, ?_⟩
  · have := C41_to_string_trunc_den (env := env) (r := 2) (str := List.replicate 12 88) (limit := 9) h demoQ_a (by omega)
      (by rw [ratText, if_neg e3, e1, e2, d1, d2]; simp) (by rw [e1, d1]; simp) (by simp)
    rw [e1, e2, d1] at this
    simpa [numeralTail, numeral, numeralN, digitChar, List.replicate] using this
  · have := C41_to_string_trunc_num (env := env) (r := 2) (str := List.replicate 8 88) (limit := 3) h demoQ_a (by omega) (by omega)
      (by rw [e1, d1]; simp) (by simp)
    rw [e1] at this
    simpa [numeralTail, numeral, numeralN, digitChar, List.replicate] using this

end Imath
