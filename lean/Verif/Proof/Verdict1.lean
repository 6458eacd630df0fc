import Verif.Proof.Driver
import Verif.Proof.Calc4
import Verif.Proof.Overrun
import Verif.SpecVerdict

/-! # The test driver: values in text -/

namespace Imath

variable {env : Env} {E : Fault → Prop} {m : Mem} {σ : Id → Option Int} {z : Id} {x y w v : Int} {r : Nat}

theorem digitVal_ctoi {r c : Nat} (hr : r ≤ 36) : digitVal r c = if ctoi c < r then some (ctoi c) else none := by
  unfold digitVal ctoi isdigit isalpha toupper
  simp only [decide_eq_true_eq]
  by_cases h1 : 48 ≤ c ∧ c ≤ 57
  · simp only [if_pos h1]
  simp only [if_neg h1]
  by_cases h2 : 65 ≤ c ∧ c ≤ 90
  · have h3 : ¬ (97 ≤ c ∧ c ≤ 122) := by omega
    simp only [if_pos h2, if_neg h3, if_pos (Or.inl h2 : (65 ≤ c ∧ c ≤ 90) ∨ (97 ≤ c ∧ c ≤ 122))]
  by_cases h3 : 97 ≤ c ∧ c ≤ 122
  · simp only [if_neg h2, if_pos h3, if_pos (Or.inr h3 : (65 ≤ c ∧ c ≤ 90) ∨ (97 ≤ c ∧ c ≤ 122))]
    rw [show c - 32 - 55 = c - 87 by omega]
  · simp only [if_neg h2, if_neg h3, if_neg (by omega : ¬ ((65 ≤ c ∧ c ≤ 90) ∨ (97 ≤ c ∧ c ≤ 122)))]
    rw [if_neg (by omega), if_neg (by omega)]

theorem scanDigits_len (r : Nat) : ∀ (s : List Nat) (a : Nat), (scanDigits r a s).2.length ≤ s.length
  | [], a => by simp [scanDigits]
  | c :: s, a => by
    unfold scanDigits
    split
    · rename_i d _
      have := scanDigits_len r s (a * r + d); simp only [List.length_cons]; exact Nat.le_succ_of_le this
    · exact le_rfl

theorem strtoDigits_eq (hr : r ≤ 36) : ∀ (s : Bytes) (n a : Nat),
    strtoDigits r s n a = (n + (s.length - (scanDigits r a s).2.length), (scanDigits r a s).1)
  | [], n, a => by simp [strtoDigits, scanDigits]
  | c :: s, n, a => by
    unfold strtoDigits scanDigits
    rw [digitVal_ctoi hr]
    by_cases h : ctoi c < r
    · simp only [if_pos h]
      rw [strtoDigits_eq hr s]
      have := scanDigits_len r s (a * r + ctoi c)
      simp only [List.length_cons, Prod.mk.injEq, and_true]
      omega
    · simp only [if_neg h]
      simp

theorem dropWhile_trim : ∀ s : Bytes, s.dropWhile isspace = trim s
  | [] => rfl
  | c :: s => by
    unfold trim
    rw [List.dropWhile_cons]
    by_cases h : IsSpace c
    · rw [if_pos ((isspace_iff c).2 h), if_pos h, dropWhile_trim s]
    · rw [if_neg (fun e => h ((isspace_iff c).1 e)), if_neg h]

theorem hexPrefix_eq (s : Bytes) : hexPrefix s = startsHex s := by
  unfold hexPrefix startsHex
  rcases s with _ | ⟨a, _ | ⟨b, _ | ⟨c, s⟩⟩⟩
  · simp
  · simp
  · simp
  · have : (digitVal 16 c).isSome = decide (ctoi c < 16) := by
      rw [digitVal_ctoi (by omega)]; split <;> simp [*]
    by_cases ha : a = 48
    · subst ha
      simp only [List.getElem?_cons_zero, List.getElem?_cons_succ, this]
      simp
    · simp [ha]

/-- The parts of the text of a number. -/
theorem strtoAny_eq (s : Bytes) (base : Nat) : strtoAny s base =
    (let u := unsigned s
     let hex := (base = 0 ∨ base = 16) ∧ startsHex u
     let base := if base = 0 then if hex then 16 else if u.head? = some 48 then 8 else 10 else base
     let v := if hex then u.drop 2 else u
     let p := strtoDigits base v 0 0
     (minus s, p.2, if p.1 = 0 then 0 else s.length - v.length + p.1)) := by
  unfold strtoAny unsigned minus
  dsimp only
  simp only [dropWhile_trim, hexPrefix_eq, decide_eq_true_eq]
  rw [Prod.mk.injEq]
  refine ⟨?_, rfl⟩
  cases h : (trim s).head? with
  | none => rfl
  | some c => simp [Bool.beq_eq_decide_eq, beq_eq_decide]

theorem unsigned_len (s : Bytes) : (unsigned s).length ≤ s.length := by
  unfold unsigned
  have := trim_len s
  dsimp only
  split
  · simp only [List.length_tail]; omega
  · exact this

theorem scanInt_unsigned (s : Bytes) : scanInt r s =
    (if minus s then -((scanDigits r 0 (unsigned s)).1 : Int) else (scanDigits r 0 (unsigned s)).1, (scanDigits r 0 (unsigned s)).2) := rfl

theorem atoi_val (s : Bytes) : (let p := strtoAny s 10; if p.1 then -(p.2.1 : Int) else p.2.1) = (scanInt 10 s).1 := by
  rw [strtoAny_eq, scanInt_unsigned]
  dsimp only
  rw [if_neg (by omega : ¬ ((10 : Nat) = 0)), if_neg (by omega : ¬ (((10 : Nat) = 0 ∨ (10 : Nat) = 16) ∧ startsHex (unsigned s) = true)),
    strtoDigits_eq (by omega)]

theorem atoi_spec {Q : Int → Mem → Prop} {s R : Bytes} (h0 : 0 ∉ s)
    (hu : ¬ (-2 ^ 31 ≤ (scanInt 10 s).1 ∧ (scanInt 10 s).1 < 2 ^ 31) → E .ub)
    (hQ : -2 ^ 31 ≤ (scanInt 10 s).1 → (scanInt 10 s).1 < 2 ^ 31 → Q (scanInt 10 s).1 m) : wp env E (atoi (s ++ 0 :: R)) Q m := by
  unfold atoi
  refine wp_bind (cstr_spec h0 ?_)
  have e := atoi_val s
  dsimp only at e ⊢
  rw [e]
  by_cases h : -2 ^ 31 ≤ (scanInt 10 s).1 ∧ (scanInt 10 s).1 < 2 ^ 31
  · exact wp_cint (by omega) (by omega) (hQ h.1 h.2)
  · exact wp_fault (f := .ub) (by unfold cint; rw [if_neg (by omega)]; rfl) (hu h)

theorem backRef_spec {Q : Int → Mem → Prop} {s R : Bytes} (c : Nat) (h0 : 0 ∉ s)
    (hu : 2 ^ 31 ≤ (scanInt 10 s).1.natAbs → E .ub)
    (hQ : (scanInt 10 s).1.natAbs < 2 ^ 31 → Q (((scanInt 10 s).1.natAbs : Int) - 1) m) : wp env E (backRef (c :: s ++ 0 :: R)) Q m := by
  unfold backRef
  refine wp_bind (atoi_spec h0 (fun h => hu (by omega)) fun h1 h2 => ?_)
  by_cases h : (scanInt 10 s).1.natAbs < 2 ^ 31
  · refine wp_bind (wp_cint (by have := abs_nonneg (scanInt 10 s).1; omega) (by rw [Int.abs_eq_natAbs]; omega) (wp_pure ?_))
    rw [Int.abs_eq_natAbs]; exact hQ h
  · exact wp_bind (wp_fault (f := .ub) (by unfold cint; rw [if_neg (by rw [Int.abs_eq_natAbs]; omega)]; rfl) (hu (by omega)))

theorem strtoul_eq (s : Bytes) : strtoul s 0 = ulongOf s := by
  unfold strtoul ulongOf
  rw [strtoAny_eq]
  dsimp only
  have key : ∀ n : Nat, (if n > 18446744073709551615 then 18446744073709551615 else if minus s = true then sub64 0 n else n) =
      if 2 ^ 64 ≤ n then 2 ^ 64 - 1 else if minus s = true then (2 ^ 64 - n) % 2 ^ 64 else n := by
    intro n
    unfold sub64 u64
    by_cases hm : minus s = true
    · simp only [hm, if_true]
      split
      · rw [if_pos (by omega)]; norm_num
      · rename_i h1
        rw [if_neg (show ¬ (2 ^ 64 ≤ n) by omega)]; norm_num
    · simp only [hm, Bool.false_eq_true, if_false]
      split
      · rw [if_pos (by omega)]; norm_num
      · rw [if_neg (by omega)]
  by_cases h : startsHex (unsigned s) = true
  · simp only [h, and_true, true_or, if_true]
    rw [strtoDigits_eq (by omega), key]
  · simp only [h, and_false, if_false, if_true, Bool.false_eq_true]
    rw [strtoDigits_eq (by split <;> omega), key]

theorem strtol_eq {r : Nat} (hr : r = 2 ∨ r = 8 ∨ r = 10 ∨ r = 16) (s : Bytes) :
    (if (strtol s r).2 ≠ 0 ∧ (strtol s r).2 = s.length then some (strtol s r).1 else none) =
    (let u := unsigned s
     let u := if r = 16 ∧ startsHex u then u.drop 2 else u
     let q := scanDigits r 0 u
     if u ≠ [] ∧ q.2 = [] then some (if minus s then max (-2 ^ 63) (-q.1) else min (2 ^ 63 - 1) q.1) else none : Option Int) := by
  unfold strtol
  rw [strtoAny_eq]
  dsimp only
  have h36 : r ≤ 36 := by omega
  have h0 : r ≠ 0 := by omega
  simp only [h0, false_or, if_false]
  obtain ⟨u, hu, hlen⟩ : ∃ u, (if r = 16 ∧ startsHex (unsigned s) = true then (unsigned s).drop 2 else unsigned s) = u ∧
      u.length ≤ s.length := by
    refine ⟨_, rfl, ?_⟩
    have := unsigned_len s
    split
    · rw [List.length_drop]; omega
    · exact this
  rw [hu, strtoDigits_eq h36]
  have h2 := scanDigits_len r u 0
  have hval : (if (if minus s = true then -((scanDigits r 0 u).1 : Int) else (scanDigits r 0 u).1) > 9223372036854775807 then 9223372036854775807
      else if (if minus s = true then -((scanDigits r 0 u).1 : Int) else (scanDigits r 0 u).1) < -9223372036854775808 then -9223372036854775808
      else if minus s = true then -((scanDigits r 0 u).1 : Int) else (scanDigits r 0 u).1) =
      if minus s = true then max (-2 ^ 63) (-((scanDigits r 0 u).1 : Int)) else min (2 ^ 63 - 1) ((scanDigits r 0 u).1 : Int) := by
    by_cases hm : minus s = true
    · simp only [hm, if_true]
      split
      · omega
      · split <;> omega
    · simp only [hm]
      simp only [Bool.false_eq_true, if_false]
      split
      · omega
      · split <;> omega
  dsimp only
  rw [hval]
  have hiff : ((if 0 + (u.length - (scanDigits r 0 u).2.length) = 0 then 0
      else s.length - u.length + (0 + (u.length - (scanDigits r 0 u).2.length))) ≠ 0 ∧
      (if 0 + (u.length - (scanDigits r 0 u).2.length) = 0 then 0
      else s.length - u.length + (0 + (u.length - (scanDigits r 0 u).2.length))) = s.length) ↔ (u ≠ [] ∧ (scanDigits r 0 u).2 = []) := by
    rw [← List.length_pos_iff, ← List.length_eq_zero_iff]
    split <;> omega
  simp only [hiff]

theorem radixTag_spec {Q : Option (Nat × Bytes) → Mem → Prop} {s R : Bytes} (h0 : 0 ∉ s)
    (hQ : Q ((tagged s).map fun p => (p.1, p.2 ++ 0 :: R)) m) : wp env E (radixTag (s ++ 0 :: R)) Q m := by
  unfold radixTag
  rcases s with _ | ⟨a, s⟩
  · refine wp_bind (wp_bget (x := 0) rfl (wp_if_neg (by omega) (wp_pure ?_)))
    simpa [tagged] using hQ
  refine wp_bind (wp_bget (x := a) rfl ?_)
  by_cases ha : a = 35
  · subst ha
    refine wp_if_pos rfl ?_
    rcases s with _ | ⟨c, s⟩
    · refine wp_bind (wp_bget (x := 0) rfl (wp_pure ?_))
      simpa [tagged] using hQ
    · refine wp_bind (wp_bget (x := c) rfl (wp_pure ?_))
      have e : (35 :: c :: s ++ 0 :: R).drop 2 = s ++ 0 :: R := rfl
      rw [e]
      rw [tagged] at hQ
      split at hQ
      · rename_i h; rwa [if_pos h]
      · rename_i h; rw [if_neg h]
        split at hQ
        · rename_i h; rwa [if_pos h]
        · rename_i h; rw [if_neg h]
          split at hQ
          · rename_i h; rwa [if_pos h]
          · rename_i h; rw [if_neg h]
            split at hQ
            · rename_i h; rwa [if_pos h]
            · rename_i h; rwa [if_neg h]
  · refine wp_if_neg ha (wp_pure ?_)
    have : tagged (a :: s) = some (10, a :: s) := by
      unfold tagged
      split
      · rename_i h; simp at h; exact absurd h.1 ha
      · rename_i h; simp at h; exact absurd h.1 ha
      · rfl
    rw [this] at hQ
    exact hQ

theorem tagged_some {s t : Bytes} (h : tagged s = some (r, t)) :
    (r = 2 ∨ r = 8 ∨ r = 10 ∨ r = 16) ∧ (∀ x ∈ t, x ∈ s) ∧ t.length ≤ s.length := by
  unfold tagged at h
  split at h
  · repeat' split at h
    all_goals first
      | (simp at h; done)
      | (simp only [Option.some.injEq, Prod.mk.injEq] at h
         obtain ⟨rfl, rfl⟩ := h
         refine ⟨by omega, fun x hx => by simp [hx], by simp only [List.length_cons]; omega⟩)
  · simp at h
  · simp only [Option.some.injEq, Prod.mk.injEq] at h
    obtain ⟨rfl, rfl⟩ := h
    exact ⟨by omega, fun x hx => hx, le_rfl⟩

theorem read_int_value_spec {Q : Int → Mem → Prop} {s R : Bytes} (hE : Ref env E) (h0 : 0 ∉ s) (hl : s.length ≤ 800000000)
    (h : R2 m σ) (hz : σ z = some w) (ho : z.own = true)
    (hbad : readValue s = none → ∀ e u m', e ≠ MP_OK → R2 m' (upd σ z (some u)) → Q e m')
    (hQ : ∀ v, readValue s = some v → ∀ m', R2 m' (upd σ z (some v)) → Q MP_OK m') : wp env E (read_int_value z (s ++ 0 :: R)) Q m := by
  unfold read_int_value
  refine wp_bind (radixTag_spec h0 ?_)
  unfold readValue at hbad hQ
  cases ht : tagged s with
  | none =>
    rw [ht] at hbad
    refine wp_pure (hbad rfl MP_RANGE w m (by decide) ?_)
    rwa [upd_same _ hz]
  | some p =>
    obtain ⟨r, t⟩ := p
    rw [ht] at hbad hQ
    obtain ⟨hr, ht1, ht2⟩ := tagged_some ht
    show wp env E (mp_int_read_string z r (t ++ 0 :: R)) Q m
    unfold mp_int_read_string
    have e : t ++ 0 :: R = (t ++ [0]) ++ R := by simp
    have hin : 0 ∈ (t ++ 0 :: R).take 800000001 := by
      refine List.mem_iff_getElem?.2 ⟨t.length, ?_⟩
      rw [List.getElem?_take_of_lt (by omega)]
      simp
    obtain ⟨k1, k2⟩ := scanInt_append (r := r) (s := t ++ [0]) (by simp) R
    rw [← e] at k1
    refine wp_bind (read_cstring_total hE (by omega) (by omega) hin ho h hz fun m' h' => wp_pure ?_)
    rw [k1] at h' ⊢
    dsimp only at h' ⊢
    have ee : endCode ((scanInt r (t ++ [0])).2 ++ R) = endCode (scanInt r (t ++ [0])).2 := by
      unfold endCode
      cases hh : (scanInt r (t ++ [0])).2 with
      | nil => exact absurd hh k2
      | cons a b => simp
    rw [ee]
    by_cases hc : endCode (scanInt r (t ++ [0])).2 = MP_OK
    · rw [hc]
      exact hQ _ (by simp [hc]) m' h'
    · exact hbad (by simp [hc]) _ _ m' hc h'

theorem read_long_spec {Q : Option Int → Mem → Prop} {s R : Bytes} (h0 : 0 ∉ s) (hQ : Q (longOf s) m) :
    wp env E (read_long (s ++ 0 :: R)) Q m := by
  unfold read_long
  refine wp_bind (radixTag_spec h0 ?_)
  unfold longOf at hQ
  cases ht : tagged s with
  | none => rw [ht] at hQ; exact wp_pure hQ
  | some p =>
    obtain ⟨r, t⟩ := p
    rw [ht] at hQ
    obtain ⟨hr, ht1, ht2⟩ := tagged_some ht
    refine wp_bind (cstr_spec (fun e => h0 (ht1 0 e)) (wp_pure ?_))
    rw [strtol_eq hr]
    exact hQ

theorem parse_result_code_spec {Q : Option Int → Mem → Prop} {s R : Bytes} (c : Nat) (h0 : 0 ∉ s) (hQ : Q (codeOf s) m) :
    wp env E (parse_result_code (c :: s ++ 0 :: R)) Q m := by
  unfold parse_result_code
  rcases s with _ | ⟨a, s⟩
  · refine wp_bind (wp_bget (x := 0) rfl (wp_if_neg (by omega) ?_))
    show wp env E (cstr ([] ++ 0 :: R) >>= _) _ _
    refine wp_bind (cstr_spec (by simp) (wp_pure ?_))
    exact hQ
  refine wp_bind (wp_bget (x := a) rfl ?_)
  by_cases ha : a = 35
  · subst ha
    refine wp_if_pos rfl ?_
    show wp env E (read_long (s ++ 0 :: R) >>= _) _ _
    refine wp_bind (read_long_spec (fun e => h0 (by simp [e])) (wp_pure ?_))
    rw [codeOf] at hQ
    convert hQ using 2
    funext v
    unfold toInt32 u32
    have h1 := Int.emod_nonneg v (by norm_num : (4294967296 : Int) ≠ 0)
    have h2 := Int.emod_lt_of_pos v (by norm_num : (0 : Int) < 4294967296)
    split <;> omega
  · refine wp_if_neg ha ?_
    show wp env E (cstr (a :: s ++ 0 :: R) >>= _) _ _
    refine wp_bind (cstr_spec h0 (wp_pure ?_))
    have e : codeOf (a :: s) = (codeNames.find? fun p => chars p.1 = a :: s).map Prod.snd := by
      unfold codeOf
      split
      · rename_i h; simp at h; exact absurd h.1 ha
      · rfl
    rw [e] at hQ
    convert hQ using 1
    generalize a :: s = t
    have ec : ∀ x, chars x = txt x := fun _ => rfl
    simp only [codeNames, List.find?_cons, List.find?_nil, ec]
    by_cases h1 : t = txt "MP_OK"
    · subst h1; decide
    by_cases h2 : t = txt "MP_FALSE"
    · subst h2; decide
    by_cases h3 : t = txt "MP_TRUE"
    · subst h3; decide
    by_cases h4 : t = txt "MP_MEMORY"
    · subst h4; decide
    by_cases h5 : t = txt "MP_RANGE"
    · subst h5; decide
    by_cases h6 : t = txt "MP_UNDEF"
    · subst h6; decide
    by_cases h7 : t = txt "MP_TRUNC"
    · subst h7; decide
    by_cases h8 : t = txt "MP_ROUND_UP"
    · subst h8; decide
    by_cases h9 : t = txt "MP_ROUND_DOWN"
    · subst h9; decide
    by_cases h10 : t = txt "MP_ROUND_HALF_UP"
    · subst h10; decide
    by_cases h11 : t = txt "MP_ROUND_HALF_DOWN"
    · subst h11; decide
    simp [h1, h2, h3, h4, h5, h6, h7, h8, h9, h10, h11, Ne.symm h1, Ne.symm h2, Ne.symm h3, Ne.symm h4, Ne.symm h5, Ne.symm h6,
      Ne.symm h7, Ne.symm h8, Ne.symm h9, Ne.symm h10, Ne.symm h11]

end Imath
