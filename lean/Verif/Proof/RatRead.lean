import Verif.Proof.RatStr
import Verif.Proof.RatDec
import Verif.Proof.ConvProps
import Verif.Proof.Overread

/-!
# Reading rationals: all terminated texts; truncated output
-/

namespace Imath

variable {env : Env} {E : Fault → Prop} {m : Mem} {σ : Id → Option Int} {a c : MpQ} {p : ℚ} {r : Nat} {str : Bytes} {limit : Int}

/-- A slash: numerator, white space, slash, denominator, and the character `ch` after it. -/
theorem read_cstring_slash {Q : Int × Option Nat → Mem → Prop} {w sg ds w2 w3 sg3 ds3 rest : Bytes} {vs vs3 : List Nat} {ch : Nat}
    (hE : Ref env E) (hr2 : 2 ≤ r) (hr : r ≤ 36)
    (hw : ∀ x ∈ w, IsSpace x) (hsg : sg = [] ∨ sg = [43] ∨ sg = [45]) (hF : List.Forall₂ (IsDigit r) ds vs)
    (hne : sg = [] → ds = [] → w2 = [])
    (hw2 : ∀ x ∈ w2, IsSpace x)
    (hw3 : ∀ x ∈ w3, IsSpace x) (hsg3 : sg3 = [] ∨ sg3 = [43] ∨ sg3 = [45]) (hF3 : List.Forall₂ (IsDigit r) ds3 vs3)
    (hch : ∀ d, ¬ IsDigit r ch d) (hhead : sg3 = [] → ds3 = [] → ¬ IsSpace ch ∧ ch ≠ 43 ∧ ch ≠ 45)
    (h0 : 0 ∈ (w ++ sg ++ ds ++ (w2 ++ 47 :: (w3 ++ sg3 ++ ds3 ++ ch :: rest))).take 800000001)
    (h : R2 m σ) (hc : OutQ σ c)
    (hQ : ch = 0 → Nat.ofDigits r vs3.reverse ≠ 0 →
      ∀ m', R2 m' (updQ σ c (Rat.divInt ((if sg = [45] then -1 else 1) * ((Nat.ofDigits r vs.reverse : Nat) : Int))
        ((if sg3 = [45] then -1 else 1) * ((Nat.ofDigits r vs3.reverse : Nat) : Int)))) →
      Q (MP_OK, some (w ++ sg ++ ds ++ w2 ++ [47] ++ w3 ++ sg3 ++ ds3).length) m')
    (hQ' : ch ≠ 0 ∨ Nat.ofDigits r vs3.reverse = 0 →
      ∀ m', R2 m' (upd (upd σ c.num (some ((if sg = [45] then -1 else 1) * ((Nat.ofDigits r vs.reverse : Nat) : Int)))) c.den
        (some ((if sg3 = [45] then -1 else 1) * ((Nat.ofDigits r vs3.reverse : Nat) : Int)))) →
      Q (if ch = 0 then MP_UNDEF else MP_TRUNC, some (w ++ sg ++ ds ++ w2 ++ [47] ++ w3 ++ sg3 ++ ds3).length) m') :
    wp env E (mp_rat_read_cstring c r (w ++ sg ++ ds ++ (w2 ++ 47 :: (w3 ++ sg3 ++ ds3 ++ ch :: rest)))) Q m := by
  obtain ⟨u1, hu1⟩ := hc.num
  obtain ⟨u2, hu2⟩ := hc.den
  have hds0 := digits_ne hr hF
  have z1 : 0 ∈ (ds ++ (w2 ++ 47 :: (w3 ++ sg3 ++ ds3 ++ ch :: rest))).take 800000001 := by
    rw [List.append_assoc (w ++ sg)] at h0
    exact nul_later (by simp [space_ne hw, sign_ne hsg]) h0
  have z3 : 0 ∈ (ds3 ++ ch :: rest).take 800000001 := by
    have := nul_later hds0 z1
    rw [show w2 ++ 47 :: (w3 ++ sg3 ++ ds3 ++ ch :: rest) = (w2 ++ [47] ++ w3 ++ sg3) ++ (ds3 ++ ch :: rest) by simp] at this
    exact nul_later (by simp [space_ne hw2, space_ne hw3, sign_ne hsg3]) this
  obtain ⟨c0, rest0, hc0, hc0n, hc00, hh⟩ : ∃ c0 rest0, w2 ++ 47 :: (w3 ++ sg3 ++ ds3 ++ ch :: rest) = c0 :: rest0 ∧
      (∀ d, ¬ IsDigit r c0 d) ∧ c0 ≠ 0 ∧ (sg = [] → ds = [] → ¬ IsSpace c0 ∧ c0 ≠ 43 ∧ c0 ≠ 45) := by
    cases w2 with
    | nil => exact ⟨47, _, rfl, fun d => not_isDigit_of_lt hr (by omega), by omega, fun _ _ => ⟨by unfold IsSpace; omega, by omega, by omega⟩⟩
    | cons u w2 =>
      have hu := hw2 u (by simp)
      exact ⟨u, _, rfl, fun d => not_isDigit_of_lt hr hu.lt, by unfold IsSpace at hu; omega, fun e1 e2 => absurd (hne e1 e2) (by simp)⟩
  unfold mp_rat_read_cstring
  refine wp_bind ?_
  rw [hc0] at z1 ⊢
  refine read_cstring_spec' hE hr2 hr hw hsg hF hc0n hh z1 hc.onum h hu1 fun m1 h1 => ?_
  rw [if_neg hc00]
  refine wp_if_neg (by simp) ?_
  rw [← hc0]
  refine wp_bind (skipSpace_spec (c := 47) (by unfold IsSpace; omega) w2 (w ++ sg ++ ds) _ (by simp; omega) hw2 ?_)
  rw [show w ++ sg ++ ds ++ (w2 ++ 47 :: (w3 ++ sg3 ++ ds3 ++ ch :: rest)) = (w ++ sg ++ ds ++ w2) ++ 47 :: (w3 ++ sg3 ++ ds3 ++ ch :: rest) by simp,
    ← List.length_append]
  refine wp_bind (wp_bget getElem?_append_len ?_)
  refine wp_if_neg (by simp) ?_
  have ed : ((w ++ sg ++ ds ++ w2) ++ 47 :: (w3 ++ sg3 ++ ds3 ++ ch :: rest)).drop ((w ++ sg ++ ds ++ w2).length + 1) =
      w3 ++ sg3 ++ ds3 ++ ch :: rest := by
    rw [show (w ++ sg ++ ds ++ w2) ++ 47 :: (w3 ++ sg3 ++ ds3 ++ ch :: rest) =
      ((w ++ sg ++ ds ++ w2) ++ [47]) ++ (w3 ++ sg3 ++ ds3 ++ ch :: rest) by simp,
      show (w ++ sg ++ ds ++ w2).length + 1 = ((w ++ sg ++ ds ++ w2) ++ [47]).length by simp only [List.length_append, List.length_singleton], List.drop_left]
  rw [ed]
  refine wp_bind (read_cstring_spec' hE hr2 hr hw3 hsg3 hF3 hch hhead
    z3 hc.oden h1 (by rw [upd_ne _ _ hc.ne.symm]; exact hu2) fun m2 h2 => ?_)
  have el : ∀ k, k ≠ MP_MEMORY → endOf (k, (w3 ++ sg3 ++ ds3).length) ((w ++ sg ++ ds ++ w2).length + 1) =
      some (w ++ sg ++ ds ++ w2 ++ [47] ++ w3 ++ sg3 ++ ds3).length := by
    intro k hk
    unfold endOf; rw [if_neg hk]
    congr 1
    simp only [List.length_append, List.length_singleton]
    omega
  by_cases hz : ch = 0
  · rw [if_pos hz]
    refine wp_if_neg (by simp) (wp_bind (mp_int_compare_zero_spec h2 (upd_self ..) ?_))
    by_cases hv : Nat.ofDigits r vs3.reverse = 0
    · have := hQ' (.inr hv) m2 h2
      rw [if_pos hz] at this
      refine wp_if_pos (by rw [hv]; simp) (wp_pure ?_)
      rw [el _ (by simp [MP_OK, MP_MEMORY])]
      exact this
    · have hQ := hQ hz hv
      generalize hX : (if sg = [45] then (-1 : Int) else 1) * ((Nat.ofDigits r vs.reverse : Nat) : Int) = X at *
      generalize hY : (if sg3 = [45] then (-1 : Int) else 1) * ((Nat.ofDigits r vs3.reverse : Nat) : Int) = Y at *
      have hY0 : Y ≠ 0 := by
        rw [← hY]
        have : ((Nat.ofDigits r vs3.reverse : Nat) : Int) ≠ 0 := by exact_mod_cast hv
        split <;> simpa using this
      refine wp_if_neg (by rw [Int.sign_eq_zero_iff_zero]; exact hY0) (wp_bind (s_rat_reduce_spec hE h2 (by rw [upd_ne _ _ hc.ne]; exact upd_self ..)
        (upd_self ..) (fun _ => hY0) ((hc.upd _ _).upd _ _) fun m3 h3 => wp_pure ?_))
      rw [updQ_upd2 hc.ne] at h3
      rw [el _ (by simp [MP_OK, MP_MEMORY])]
      exact hQ m3 h3
  · have := hQ' (.inl hz) m2 h2
    rw [if_neg hz] at this ⊢
    refine wp_if_pos (by simp [MP_TRUNC, MP_OK]) (wp_pure ?_)
    rw [el _ (by simp [MP_TRUNC, MP_MEMORY])]
    exact this

/-- No slash. -/
theorem read_cstring_noslash {Q : Int × Option Nat → Mem → Prop} {w sg ds w2 rest : Bytes} {vs : List Nat} {ch : Nat}
    (hE : Ref env E) (hr2 : 2 ≤ r) (hr : r ≤ 36)
    (hw : ∀ x ∈ w, IsSpace x) (hsg : sg = [] ∨ sg = [43] ∨ sg = [45]) (hF : List.Forall₂ (IsDigit r) ds vs)
    (hne : sg = [] → ds = [] → w2 = [] ∧ ch ≠ 43 ∧ ch ≠ 45)
    (hw2 : ∀ x ∈ w2, IsSpace x) (hch : ¬ IsSpace ch) (hd : w2 = [] → ∀ d, ¬ IsDigit r ch d) (h47 : ch ≠ 47)
    (h0 : 0 ∈ (w ++ sg ++ ds ++ (w2 ++ ch :: rest)).take 800000001)
    (h : R2 m σ) (hc : OutQ σ c)
    (hQ : ∀ m', R2 m' (updQ σ c (((if sg = [45] then -1 else 1) * ((Nat.ofDigits r vs.reverse : Nat) : Int) : Int) : ℚ)) →
      Q (if w2 = [] ∧ ch = 0 then MP_OK else MP_TRUNC, some (w ++ sg ++ ds).length) m') :
    wp env E (mp_rat_read_cstring c r (w ++ sg ++ ds ++ (w2 ++ ch :: rest))) Q m := by
  obtain ⟨u1, hu1⟩ := hc.num
  obtain ⟨u2, hu2⟩ := hc.den
  have hds0 := digits_ne hr hF
  have z1 : 0 ∈ (ds ++ (w2 ++ ch :: rest)).take 800000001 := by
    rw [List.append_assoc (w ++ sg)] at h0
    exact nul_later (by simp [space_ne hw, sign_ne hsg]) h0
  obtain ⟨c0, rest0, hc0, hc0n, hc00, hh⟩ : ∃ c0 rest0, w2 ++ ch :: rest = c0 :: rest0 ∧ (∀ d, ¬ IsDigit r c0 d) ∧ (c0 = 0 ↔ w2 = [] ∧ ch = 0) ∧
      (sg = [] → ds = [] → ¬ IsSpace c0 ∧ c0 ≠ 43 ∧ c0 ≠ 45) := by
    cases w2 with
    | nil => exact ⟨ch, _, rfl, hd rfl, by simp, fun e1 e2 => ⟨hch, (hne e1 e2).2⟩⟩
    | cons u w2 =>
      have hu := hw2 u (by simp)
      exact ⟨u, _, rfl, fun d => not_isDigit_of_lt hr hu.lt, by unfold IsSpace at hu; simp; omega, fun e1 e2 => absurd (hne e1 e2).1 (by simp)⟩
  unfold mp_rat_read_cstring
  refine wp_bind ?_
  rw [hc0] at z1 ⊢
  refine read_cstring_spec' hE hr2 hr hw hsg hF hc0n hh z1 hc.onum h hu1 fun m1 h1 => ?_
  refine wp_if_neg (by dsimp only; split <;> simp) ?_
  rw [← hc0]
  refine wp_bind (skipSpace_spec hch w2 (w ++ sg ++ ds) _ (by simp; omega) hw2 ?_)
  rw [show w ++ sg ++ ds ++ (w2 ++ ch :: rest) = (w ++ sg ++ ds ++ w2) ++ ch :: rest by simp, ← List.length_append]
  refine wp_bind (wp_bget getElem?_append_len ?_)
  refine wp_if_pos (by simpa using h47) (wp_bind (mp_int_set_value_spec hE (by decide) (by decide) h1
    (by rw [upd_ne _ _ hc.ne.symm]; exact hu2) hc.oden fun m2 h2 => wp_pure ?_))
  have e : (if c0 = 0 then MP_OK else MP_TRUNC) = (if w2 = [] ∧ ch = 0 then MP_OK else MP_TRUNC) := by simp only [hc00]
  rw [e]
  exact hQ m2 h2

/-- A point followed by white space or a sign. -/
theorem read_cdecimal_point {Q : Int × Option Nat → Mem → Prop} {w sg ds rest : Bytes} {vs : List Nat} {ch : Nat}
    (hE : Ref env E) (hr2 : 2 ≤ r) (hr : r ≤ 36)
    (hw : ∀ x ∈ w, IsSpace x) (hsg : sg = [] ∨ sg = [43] ∨ sg = [45]) (hF : List.Forall₂ (IsDigit r) ds vs)
    (hch : IsSpace ch ∨ ch = 43 ∨ ch = 45)
    (h0 : 0 ∈ (w ++ sg ++ ds ++ 46 :: ch :: rest).take 800000001)
    (h : R2 m σ) (hc : OutQ σ c)
    (hQ : ∀ m', R2 m' (updQ σ c (((if sg = [45] then -1 else 1) * ((Nat.ofDigits r vs.reverse : Nat) : Int) : Int) : ℚ)) →
      Q (MP_TRUNC, none) m') :
    wp env E (mp_rat_read_cdecimal c r (w ++ sg ++ ds ++ 46 :: ch :: rest)) Q m := by
  refine cdecimal_head hE hr2 hr hw hsg hF (fun d => not_isDigit_of_lt hr (by omega)) (fun _ _ => ⟨by unfold IsSpace; omega, by omega, by omega⟩)
    h0 h hc fun m1 h1 => wp_if_neg (by simp) ?_
  have ep : (w ++ sg ++ ds).length + 1 = (w ++ sg ++ ds ++ [46]).length := by
    simp only [List.length_append, List.length_singleton]
  have estr : w ++ sg ++ ds ++ 46 :: ch :: rest = (w ++ sg ++ ds ++ [46]) ++ ch :: rest := by simp
  rw [ep, estr]
  refine wp_bind (wp_bget getElem?_append_len (wp_if_neg (by unfold IsSpace at hch; omega) (wp_if_pos (by rw [isspace_iff]; tauto) (wp_pure (hQ m1 ?_)))))
  unfold updQ
  rw [Rat.num_intCast, Rat.den_intCast]
  exact h1

/-- No terminator. -/
theorem rat_read_cstring_fault {Q : Int × Option Nat → Mem → Prop} (hu : E .ub) (hr : 2 ≤ r ∧ r ≤ 36)
    (h0 : 0 ∉ str) (h : R2 m σ) (hc : OutQ σ c) : wp env E (mp_rat_read_cstring c r str) Q m := by
  obtain ⟨u1, hu1⟩ := hc.num
  exact wp_bind (mp_int_read_cstring_fault hu hr h0 h hu1)

theorem skipSpace_end {Q : Nat → Mem → Prop} (hu : E .ub) (hw : ∀ x ∈ str, IsSpace x) :
    ∀ f i, i ≤ str.length → str.length < f + i → wp env E (skipSpace str f i) Q m := by
  intro f
  induction f with
  | zero => intro i h1 h2; omega
  | succ f ih =>
    intro i h1 h2
    unfold skipSpace
    by_cases hi : i < str.length
    · refine wp_bind (wp_bget (List.getElem?_eq_getElem hi) ?_)
      have hx := hw _ (List.getElem_mem hi)
      exact wp_if_pos (by simpa [isspace, IsSpace] using hx) (ih _ (by omega) (by omega))
    · exact wp_bind (wp_bget_ub (by omega) hu)

theorem split_first_nonspace : ∀ l : Bytes, (∃ x ∈ l, ¬ IsSpace x) → ∃ w x t, l = w ++ x :: t ∧ (∀ y ∈ w, IsSpace y) ∧ ¬ IsSpace x := by
  intro l
  induction l with
  | nil => rintro ⟨x, hx, -⟩; simp at hx
  | cons y l ih =>
    rintro ⟨x, hx, hn⟩
    by_cases hy : IsSpace y
    · obtain ⟨w, z, t, e, h1, h2⟩ := ih ⟨x, (List.mem_cons.1 hx).resolve_left (by rintro rfl; exact hn hy), hn⟩
      exact ⟨y :: w, z, t, by rw [e]; rfl, by simpa using ⟨hy, h1⟩, h2⟩
    · exact ⟨[], y, l, rfl, by simp, hy⟩

theorem rat_read_cdecimal_fault {Q : Int × Option Nat → Mem → Prop} (hu : E .ub) (hr : 2 ≤ r ∧ r ≤ 36)
    (h0 : 0 ∉ str) (h : R2 m σ) (hc : OutQ σ c) : wp env E (mp_rat_read_cdecimal c r str) Q m := by
  obtain ⟨u1, hu1⟩ := hc.num
  unfold mp_rat_read_cdecimal
  refine wp_bind (skipSpace_any hu (fun j hj => ?_) _ _ (by omega) (by omega))
  refine wp_bind (wp_bget (List.getElem?_eq_getElem hj) ?_)
  exact wp_bind (mp_int_read_cstring_fault hu hr (fun hh => h0 (List.mem_of_mem_drop hh)) h hu1)

/-- Output that does not fit, with room for part of the numerator only. -/
theorem rat_to_string_trunc_num {Q : Int × Bytes → Mem → Prop} (hE : Ref env E) (hr2 : 2 ≤ r) (hr : r ≤ 36)
    (h : R2 m σ) (ha : HasQ2 σ a p) (hlim : 2 ≤ limit) (hfit : limit ≤ (numeral r p.num).length) (hbuf : limit + 1 ≤ str.length)
    (hQ : ∀ m', R2 m' σ → Q (MP_TRUNC, numeralTail r p.num limit.toNat ++ 0 :: str.drop (limit.toNat + 1)) m') :
    wp env E (mp_rat_to_string a r str limit) Q m := by
  unfold mp_rat_to_string
  exact wp_bind (mp_int_to_string_full hE hr2 hr (by omega) (by omega) h ha.1 (fun m1 h1 hlt => by omega) fun m1 h1 _ =>
    wp_if_pos (by simp [MP_TRUNC, MP_OK]) (wp_pure (hQ m1 h1)))

/-- Output that does not fit, with room for the numerator, the slash, and two characters at least. -/
theorem rat_to_string_trunc_den {Q : Int × Bytes → Mem → Prop} (hE : Ref env E) (hr2 : 2 ≤ r) (hr : r ≤ 36)
    (h : R2 m σ) (ha : HasQ2 σ a p) (hfit : limit ≤ (ratText r p).length)
    (hmid : (numeral r p.num).length + 3 ≤ limit) (hbuf : limit + 1 ≤ str.length)
    (hQ : ∀ m', R2 m' σ → Q (MP_TRUNC, numeral r p.num ++ 47 :: numeralTail r p.den (limit.toNat - (numeral r p.num).length - 1) ++
      0 :: str.drop (limit.toNat + 1)) m') :
    wp env E (mp_rat_to_string a r str limit) Q m := by
  unfold mp_rat_to_string
  refine wp_bind (mp_int_to_string_spec hE hr2 hr (by omega) (by omega) h ha.1 (fun m1 h1 hlt => ?_) fun m1 B h1 hlt hl _ _ => by omega)
  refine wp_if_neg (by simp) (wp_bind (mp_int_compare_zero_spec h1 ha.1 ?_))
  by_cases h0 : p = 0
  · exfalso
    have e : ratText r p = numeral r p.num := by simp [ratText, h0]
    rw [e] at hfit
    omega
  · have hne : p.num ≠ 0 := Rat.num_ne_zero.2 h0
    refine wp_if_neg (by rw [Int.sign_eq_zero_iff_zero]; exact hne) ?_
    have e : ratText r p = numeral r p.num ++ 47 :: numeral r p.den := by simp [ratText, h0]
    generalize hD : numeral r p.num = D at *
    have elen : (ratText r p).length = D.length + 1 + (numeral r (p.den : Int)).length := by rw [e]; simp; omega
    have h0D : 0 ∉ D := hD ▸ numeral_zero_notin hr2 hr p.num
    refine wp_bind ?_
    show wp env E (strlen ([] ++ (D ++ 0 :: str.drop (D.length + 1))) _ ([] : Bytes).length) _ m1
    refine strlen_exact h0D (by simp) ?_
    show wp env E (if limit - (D.length : Int) = 0 then pure (MP_TRUNC, _) else _) Q m1
    refine wp_if_neg (by omega) (wp_bind (wp_bset (by simp) ?_))
    rw [set_len, show D ++ 47 :: str.drop (D.length + 1) = (D ++ [47]) ++ str.drop (D.length + 1) by simp,
      show D.length + 1 = (D ++ [47]).length by simp]
    refine wp_atOff (mp_int_to_string_full hE hr2 hr (by omega) ?_ h1 ha.2 (fun m2 h2 hl => ?_) fun m2 h2 hl => ?_)
    · simp; omega
    · omega
    · have := hQ m2 h2
      have e1 : (limit - (D.length : Int) - 1).toNat = limit.toNat - D.length - 1 := by omega
      have e2 : (D ++ [47]).length + (limit.toNat - D.length - 1 + 1) = limit.toNat + 1 := by
        simp only [List.length_append, List.length_singleton]; omega
      rw [e1, List.drop_drop, e2]
      simpa using this

end Imath
