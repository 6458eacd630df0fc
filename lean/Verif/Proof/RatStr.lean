import Verif.Proof.RatOps
import Verif.Proof.ConvProps
import Verif.SpecRat

/-! # Output and input of rationals as fractions -/

namespace Imath

variable {env : Env} {E : Fault → Prop} {m : Mem} {σ : Id → Option Int} {z : Id} {a b c : MpQ} {x y w v : Int} {p q : ℚ}
  {r : Nat} {str : Bytes} {limit : Int}

theorem wp_atOff {P T : Bytes} {f : Bytes → M (Int × Bytes)} {Q : Int × Bytes → Mem → Prop}
    (h : wp env E (f T) (fun p m' => Q (p.1, P ++ p.2) m') m) : wp env E (atOff P.length (P ++ T) f) Q m := by
  unfold atOff
  rw [if_pos (by simp)]
  refine wp_bind ?_
  rw [List.drop_left]
  refine wp_mono h fun p m' h' => wp_pure ?_
  rw [List.take_left]
  exact h'

theorem strlen_exact {D R P : Bytes} {f : Nat} {Q : Nat → Mem → Prop} (h0 : 0 ∉ D) (hf : (D ++ 0 :: R).length ≤ f)
    (hQ : Q D.length m) : wp env E (strlen (P ++ (D ++ 0 :: R)) f P.length) Q m := by
  refine strlen_spec _ P f hf (by simp) fun n h1 h2 => ?_
  have e1 := h1 (D.length + 1) (by rw [List.take_append]; simp)
  have e2 := h2 D (0 :: R) rfl h0
  rw [show n = D.length by omega]
  exact hQ

theorem numeralN_range (hr : 2 ≤ r) (hr2 : r ≤ 36) {n c : Nat} (h : c ∈ numeralN r n) : 48 ≤ c ∧ c < 123 := by
  obtain ⟨vs, h1, -⟩ := numeralN_digits hr n
  obtain ⟨d, hd, -⟩ : ∃ d, IsDigit r c d ∧ True := by
    clear hr
    generalize numeralN r n = l at h h1
    induction h1 with
    | nil => simp at h
    | cons h2 _ ih =>
      rcases List.mem_cons.1 h with rfl | h
      · exact ⟨_, h2, trivial⟩
      · exact ih h
  exact hd.range hr2

theorem numeralN_pos (r n : Nat) (hr : 2 ≤ r) : 1 ≤ (numeralN r n).length := by
  unfold numeralN
  split
  · simp
  · next h =>
    rw [List.length_reverse, List.length_map]
    have := (Nat.digits_ne_nil_iff_ne_zero (b := r)).2 h
    exact List.length_pos_iff.2 this

theorem numeral_pos (hr : 2 ≤ r) (v : Int) : 1 ≤ (numeral r v).length := by
  have := numeralN_pos r v.natAbs hr
  unfold numeral; rw [List.length_append]; omega

theorem numeral_zero_notin (hr : 2 ≤ r) (hr2 : r ≤ 36) (v : Int) : 0 ∉ numeral r v := by
  intro h
  unfold numeral at h
  rcases List.mem_append.1 h with h | h
  · split at h <;> simp at h
  · have := numeralN_range hr hr2 h; omega

theorem set_len {D R : Bytes} {u x : Nat} : (D ++ u :: R).set D.length x = D ++ x :: R := by
  rw [List.set_append_right _ _ (Nat.le_refl _), Nat.sub_self, List.set_cons_zero]

theorem mp_rat_to_string_spec {Q : Int × Bytes → Mem → Prop} (hE : Ref env E) (hr2 : 2 ≤ r) (hr : r ≤ 36)
    (h : R2 m σ) (ha : HasQ2 σ a p) (hfit : ((ratText r p).length : Int) + 1 ≤ limit)
    (hbuf : (ratText r p).length + 1 ≤ str.length)
    (hQ : ∀ m', R2 m' σ → Q (MP_OK, ratText r p ++ 0 :: str.drop ((ratText r p).length + 1)) m') :
    wp env E (mp_rat_to_string a r str limit) Q m := by
  have hn1 := numeral_pos hr2 p.num
  have hn2 := numeral_pos hr2 (p.den : Int)
  have hle : (numeral r p.num).length ≤ (ratText r p).length := by unfold ratText; rw [List.length_append]; omega
  unfold mp_rat_to_string
  refine wp_bind (mp_int_to_string_spec hE hr2 hr (by omega) (by omega) h ha.1 (fun m1 h1 _ => ?_) fun _ _ _ h1 => by omega)
  refine wp_if_neg (by simp) (wp_bind (mp_int_compare_zero_spec h1 ha.1 ?_))
  by_cases h0 : p = 0
  · subst h0
    refine wp_if_pos (by simp [cmpZ]) (wp_pure ?_)
    have e : ratText r 0 = numeral r (0 : ℚ).num := by simp [ratText]
    have := hQ m1 h1
    rw [e] at this
    exact this
  · have hne : p.num ≠ 0 := Rat.num_ne_zero.2 h0
    refine wp_if_neg (by rw [Int.sign_eq_zero_iff_zero]; exact hne) ?_
    have e : ratText r p = numeral r p.num ++ 47 :: numeral r p.den := by simp [ratText, h0]
    generalize hD : numeral r p.num = D at *
    generalize hF : numeral r (p.den : Int) = F at *
    have elen : (ratText r p).length = D.length + 1 + F.length := by rw [e]; simp; omega
    have h0D : 0 ∉ D := hD ▸ numeral_zero_notin hr2 hr p.num
    refine wp_bind ?_
    show wp env E (strlen ([] ++ (D ++ 0 :: str.drop (D.length + 1))) _ ([] : Bytes).length) _ m1
    refine strlen_exact h0D (by simp) ?_
    show wp env E (if limit - (D.length : Int) = 0 then pure (MP_TRUNC, _) else _) Q m1
    refine wp_if_neg (by omega) (wp_bind (wp_bset (by simp) ?_))
    rw [set_len, show D ++ 47 :: str.drop (D.length + 1) = (D ++ [47]) ++ str.drop (D.length + 1) by simp,
      show D.length + 1 = (D ++ [47]).length by simp]
    refine wp_atOff (mp_int_to_string_spec hE hr2 hr (by omega) ?_ h1 ha.2 (fun m2 h2 _ => ?_) fun _ _ _ h1 => ?_)
    · rw [hF]; simp; omega
    · have := hQ m2 h2
      rw [e, List.length_append, List.length_cons] at this
      rw [hF, List.drop_drop]
      simp only [List.length_append, List.length_singleton, List.append_assoc, List.singleton_append, List.cons_append] at this ⊢
      rw [show D.length + 1 + (F.length + 1) = D.length + (F.length + 1) + 1 by omega]
      exact this
    · rw [hF] at h1; omega

/-- Too short a buffer: only if a single character remains after the slash, or none, is this not noticed. -/
theorem mp_rat_to_string_trunc {Q : Int × Bytes → Mem → Prop} (hE : Ref env E) (hr2 : 2 ≤ r) (hr : r ≤ 36)
    (h : R2 m σ) (ha : HasQ2 σ a p) (hlim : 2 ≤ limit) (hfit : limit < ((ratText r p).length : Int) + 1)
    (hmid : limit ≤ (numeral r p.num).length ∨ (numeral r p.num).length + 3 ≤ limit)
    (hbuf : limit + 1 ≤ str.length)
    (hQ : ∀ m' B, R2 m' σ → B.length = str.length → Q (MP_TRUNC, B) m') :
    wp env E (mp_rat_to_string a r str limit) Q m := by
  unfold mp_rat_to_string
  refine wp_bind (mp_int_to_string_spec hE hr2 hr (by omega) (by omega) h ha.1 (fun m1 h1 hlt => ?_) fun m1 B h1 _ hl _ _ =>
    wp_if_pos (by simp [MP_TRUNC, MP_OK]) (wp_pure (hQ m1 B h1 hl)))
  refine wp_if_neg (by simp) (wp_bind (mp_int_compare_zero_spec h1 ha.1 ?_))
  by_cases h0 : p = 0
  · exfalso
    have e : ratText r p = numeral r p.num := by simp [ratText, h0]
    rw [e] at hfit
    omega
  · have hne : p.num ≠ 0 := Rat.num_ne_zero.2 h0
    refine wp_if_neg (by rw [Int.sign_eq_zero_iff_zero]; exact hne) ?_
    have e : ratText r p = numeral r p.num ++ 47 :: numeral r p.den := by simp [ratText, h0]
    generalize hD : numeral r p.num = D at *
    generalize hF : numeral r (p.den : Int) = F at *
    have elen : (ratText r p).length = D.length + 1 + F.length := by rw [e]; simp; omega
    have h0D : 0 ∉ D := hD ▸ numeral_zero_notin hr2 hr p.num
    refine wp_bind ?_
    show wp env E (strlen ([] ++ (D ++ 0 :: str.drop (D.length + 1))) _ ([] : Bytes).length) _ m1
    refine strlen_exact h0D (by simp) ?_
    show wp env E (if limit - (D.length : Int) = 0 then pure (MP_TRUNC, _) else _) Q m1
    refine wp_if_neg (by omega) (wp_bind (wp_bset (by simp) ?_))
    rw [set_len, show D ++ 47 :: str.drop (D.length + 1) = (D ++ [47]) ++ str.drop (D.length + 1) by simp,
      show D.length + 1 = (D ++ [47]).length by simp]
    refine wp_atOff (mp_int_to_string_spec hE hr2 hr (by omega) ?_ h1 ha.2 (fun m2 h2 hl => ?_) fun m2 B h2 _ hl _ _ => ?_)
    · simp; omega
    · rw [hF] at hl; omega
    · refine hQ m2 _ h2 ?_
      rw [List.length_append, hl]; simp; omega

/-! ### Input -/

theorem read_cstring_spec' {Q : Int × Nat → Mem → Prop} {r c : Nat} {w sg ds rest : Bytes} {vs : List Nat}
    (hE : Ref env E) (hr2 : 2 ≤ r) (hr : r ≤ 36)
    (hw : ∀ x ∈ w, IsSpace x) (hsg : sg = [] ∨ sg = [43] ∨ sg = [45])
    (hF : List.Forall₂ (IsDigit r) ds vs) (hc : ∀ d, ¬ IsDigit r c d)
    (hhead : sg = [] → ds = [] → ¬ IsSpace c ∧ c ≠ 43 ∧ c ≠ 45)
    (h0 : 0 ∈ (ds ++ c :: rest).take 800000001)
    (ho : z.own = true) (h : R2 m σ) (hz : σ z = some v)
    (hQ : ∀ m', R2 m' (upd σ z (some ((if sg = [45] then -1 else 1) * ((Nat.ofDigits r vs.reverse : Nat) : Int)))) →
      Q (if c = 0 then MP_OK else MP_TRUNC, (w ++ sg ++ ds).length) m') :
    wp env E (mp_int_read_cstring z r (w ++ sg ++ ds ++ c :: rest)) Q m := by
  obtain ⟨-, hl1, -⟩ := s_log2_range r (by omega) hr2
  exact mp_int_read_cstring_spec (K := 800000000) hE hr2 hr hw hsg hF hc hhead (by omega) (by omega) h0 ho h hz hQ

theorem nul_later {A B : Bytes} {n : Nat} (hA : 0 ∉ A) (h : 0 ∈ (A ++ B).take n) : 0 ∈ B.take n := by
  rw [List.take_append] at h
  rcases List.mem_append.1 h with h | h
  · exact absurd (List.mem_of_mem_take h) hA
  · refine List.mem_of_mem_take (i := n - A.length) ?_
    rw [List.take_take, show min (n - A.length) n = n - A.length by omega]
    exact h

theorem space_ne {w : Bytes} (hw : ∀ x ∈ w, IsSpace x) : 0 ∉ w := fun h => by
  have := hw 0 h; unfold IsSpace at this; omega

theorem sign_ne {sg : Bytes} (hsg : sg = [] ∨ sg = [43] ∨ sg = [45]) : 0 ∉ sg := by
  rcases hsg with rfl | rfl | rfl <;> simp

theorem digits_ne {ds : Bytes} {vs : List Nat} (hr : r ≤ 36) (hF : List.Forall₂ (IsDigit r) ds vs) : 0 ∉ ds := by
  induction hF with
  | nil => simp
  | cons h _ ih =>
    have := h.range hr
    simp only [List.mem_cons, not_or]
    exact ⟨by omega, ih⟩

theorem not_isDigit_of_lt {c d : Nat} (hr : r ≤ 36) (h : c < 48) : ¬ IsDigit r c d := fun hd => by have := hd.range hr; omega

theorem IsSpace.lt {c : Nat} (h : IsSpace c) : c < 48 := by unfold IsSpace at h; omega

theorem updQ_upd2 {c : MpQ} (hne : c.num ≠ c.den) (x y : Int) (q : ℚ) :
    updQ (upd (upd σ c.num (some x)) c.den (some y)) c q = updQ σ c q := by
  unfold updQ
  rw [upd_comm (upd σ c.num (some x)) _ _ hne.symm, upd_upd, upd_upd]

/-- A fraction: numerator, white space, slash, denominator. -/
theorem mp_rat_read_cstring_spec {Q : Int × Option Nat → Mem → Prop} {w sg ds w2 w3 sg3 ds3 rest : Bytes} {vs vs3 : List Nat}
    (hE : Ref env E) (hr2 : 2 ≤ r) (hr : r ≤ 36)
    (hw : ∀ x ∈ w, IsSpace x) (hsg : sg = [] ∨ sg = [43] ∨ sg = [45]) (hF : List.Forall₂ (IsDigit r) ds vs) (hne : ds ≠ [])
    (hw2 : ∀ x ∈ w2, IsSpace x)
    (hw3 : ∀ x ∈ w3, IsSpace x) (hsg3 : sg3 = [] ∨ sg3 = [43] ∨ sg3 = [45]) (hF3 : List.Forall₂ (IsDigit r) ds3 vs3)
    (h0 : 0 ∈ (w ++ sg ++ ds ++ (w2 ++ 47 :: (w3 ++ sg3 ++ ds3 ++ 0 :: rest))).take 800000001)
    (h : R2 m σ) (hc : OutQ σ c) (hnz : Nat.ofDigits r vs3.reverse ≠ 0)
    (hQ : ∀ m', R2 m' (updQ σ c (Rat.divInt ((if sg = [45] then -1 else 1) * ((Nat.ofDigits r vs.reverse : Nat) : Int))
        ((if sg3 = [45] then -1 else 1) * ((Nat.ofDigits r vs3.reverse : Nat) : Int)))) →
      Q (MP_OK, some (w ++ sg ++ ds ++ w2 ++ [47] ++ w3 ++ sg3 ++ ds3).length) m') :
    wp env E (mp_rat_read_cstring c r (w ++ sg ++ ds ++ (w2 ++ 47 :: (w3 ++ sg3 ++ ds3 ++ 0 :: rest)))) Q m := by
  obtain ⟨u1, hu1⟩ := hc.num
  obtain ⟨u2, hu2⟩ := hc.den
  have hds0 := digits_ne hr hF
  have z1 : 0 ∈ (ds ++ (w2 ++ 47 :: (w3 ++ sg3 ++ ds3 ++ 0 :: rest))).take 800000001 := by
    rw [List.append_assoc (w ++ sg)] at h0
    exact nul_later (by simp [space_ne hw, sign_ne hsg]) h0
  have z3 : 0 ∈ (ds3 ++ 0 :: rest).take 800000001 := by
    have := nul_later hds0 z1
    rw [show w2 ++ 47 :: (w3 ++ sg3 ++ ds3 ++ 0 :: rest) = (w2 ++ [47] ++ w3 ++ sg3) ++ (ds3 ++ 0 :: rest) by simp] at this
    exact nul_later (by simp [space_ne hw2, space_ne hw3, sign_ne hsg3]) this
  obtain ⟨c0, rest0, hc0, hc0n, hc00⟩ : ∃ c0 rest0, w2 ++ 47 :: (w3 ++ sg3 ++ ds3 ++ 0 :: rest) = c0 :: rest0 ∧ (∀ d, ¬ IsDigit r c0 d) ∧ c0 ≠ 0 := by
    cases w2 with
    | nil => exact ⟨47, _, rfl, fun d => not_isDigit_of_lt hr (by omega), by omega⟩
    | cons u w2 =>
      have hu := hw2 u (by simp)
      exact ⟨u, _, rfl, fun d => not_isDigit_of_lt hr hu.lt, by unfold IsSpace at hu; omega⟩
  unfold mp_rat_read_cstring
  refine wp_bind ?_
  have hF' := hF
  rw [hc0] at z1 ⊢
  refine read_cstring_spec' hE hr2 hr hw hsg hF hc0n (fun _ e => absurd e hne) z1 hc.onum h hu1 fun m1 h1 => ?_
  rw [if_neg hc00]
  refine wp_if_neg (by simp) ?_
  rw [← hc0]
  refine wp_bind (skipSpace_spec (c := 47) (by unfold IsSpace; omega) w2 (w ++ sg ++ ds) _ (by simp; omega) hw2 ?_)
  rw [show w ++ sg ++ ds ++ (w2 ++ 47 :: (w3 ++ sg3 ++ ds3 ++ 0 :: rest)) = (w ++ sg ++ ds ++ w2) ++ 47 :: (w3 ++ sg3 ++ ds3 ++ 0 :: rest) by simp,
    ← List.length_append]
  refine wp_bind (wp_bget getElem?_append_len ?_)
  refine wp_if_neg (by simp) ?_
  have ed : ((w ++ sg ++ ds ++ w2) ++ 47 :: (w3 ++ sg3 ++ ds3 ++ 0 :: rest)).drop ((w ++ sg ++ ds ++ w2).length + 1) =
      w3 ++ sg3 ++ ds3 ++ 0 :: rest := by
    rw [show (w ++ sg ++ ds ++ w2) ++ 47 :: (w3 ++ sg3 ++ ds3 ++ 0 :: rest) =
      ((w ++ sg ++ ds ++ w2) ++ [47]) ++ (w3 ++ sg3 ++ ds3 ++ 0 :: rest) by simp,
      show (w ++ sg ++ ds ++ w2).length + 1 = ((w ++ sg ++ ds ++ w2) ++ [47]).length by simp only [List.length_append, List.length_singleton], List.drop_left]
  rw [ed]
  refine wp_bind (read_cstring_spec' hE hr2 hr hw3 hsg3 hF3 (fun d => not_isDigit_zero) (fun _ _ => ⟨by unfold IsSpace; omega, by omega, by omega⟩)
    z3 hc.oden h1 (by rw [upd_ne _ _ hc.ne.symm]; exact hu2) fun m2 h2 => ?_)
  rw [if_pos rfl]
  generalize hX : (if sg = [45] then (-1 : Int) else 1) * ((Nat.ofDigits r vs.reverse : Nat) : Int) = X at *
  generalize hY : (if sg3 = [45] then (-1 : Int) else 1) * ((Nat.ofDigits r vs3.reverse : Nat) : Int) = Y at *
  have hY0 : Y ≠ 0 := by
    rw [← hY]
    have : ((Nat.ofDigits r vs3.reverse : Nat) : Int) ≠ 0 := by exact_mod_cast hnz
    split <;> simpa using this
  refine wp_if_neg (by simp) (wp_bind (mp_int_compare_zero_spec h2 (upd_self ..) ?_))
  refine wp_if_neg (by rw [Int.sign_eq_zero_iff_zero]; exact hY0) (wp_bind (s_rat_reduce_spec hE h2 (by rw [upd_ne _ _ hc.ne]; exact upd_self ..)
    (upd_self ..) (fun _ => hY0) ((hc.upd _ _).upd _ _) fun m3 h3 => wp_pure ?_))
  rw [updQ_upd2 hc.ne] at h3
  have := hQ m3 h3
  have el : endOf (MP_OK, (w3 ++ sg3 ++ ds3).length) ((w ++ sg ++ ds ++ w2).length + 1) =
      some (w ++ sg ++ ds ++ w2 ++ [47] ++ w3 ++ sg3 ++ ds3).length := by
    unfold endOf; rw [if_neg (by simp [MP_OK, MP_MEMORY])]
    congr 1
    simp only [List.length_append, List.length_singleton]
    omega
  rw [el]
  exact this

/-- An integer without denominator. -/
theorem mp_rat_read_cstring_int {Q : Int × Option Nat → Mem → Prop} {w sg ds w2 rest : Bytes} {vs : List Nat} {ch : Nat}
    (hE : Ref env E) (hr2 : 2 ≤ r) (hr : r ≤ 36)
    (hw : ∀ x ∈ w, IsSpace x) (hsg : sg = [] ∨ sg = [43] ∨ sg = [45]) (hF : List.Forall₂ (IsDigit r) ds vs) (hne : ds ≠ [])
    (hw2 : ∀ x ∈ w2, IsSpace x) (hch : ¬ IsSpace ch) (hd : w2 = [] → ∀ d, ¬ IsDigit r ch d) (h47 : ch ≠ 47)
    (h0 : 0 ∈ (w ++ sg ++ ds ++ (w2 ++ ch :: rest)).take 800000001)
    (h : R2 m σ) (hc : OutQ σ c)
    (hQ : ∀ m', R2 m' (updQ σ c (((if sg = [45] then -1 else 1) * ((Nat.ofDigits r vs.reverse : Nat) : Int) : Int) : ℚ)) →
      Q (if w2 = [] ∧ ch = 0 then MP_OK else MP_TRUNC, some (w ++ sg ++ ds).length) m') :
    wp env E (mp_rat_read_cstring c r (w ++ sg ++ ds ++ (w2 ++ ch :: rest))) Q m := by
  obtain ⟨u1, hu1⟩ := hc.num
  obtain ⟨u2, hu2⟩ := hc.den
  have hds0 := digits_ne hr hF
  have z1 : 0 ∈ (ds ++ (w2 ++ ch :: rest)).take 800000001 := by
    rw [List.append_assoc (w ++ sg)] at h0
    exact nul_later (by simp [space_ne hw, sign_ne hsg]) h0
  obtain ⟨c0, rest0, hc0, hc0n, hc00⟩ : ∃ c0 rest0, w2 ++ ch :: rest = c0 :: rest0 ∧ (∀ d, ¬ IsDigit r c0 d) ∧ (c0 = 0 ↔ w2 = [] ∧ ch = 0) := by
    cases w2 with
    | nil => exact ⟨ch, _, rfl, hd rfl, by simp⟩
    | cons u w2 =>
      have hu := hw2 u (by simp)
      exact ⟨u, _, rfl, fun d => not_isDigit_of_lt hr hu.lt, by unfold IsSpace at hu; simp; omega⟩
  unfold mp_rat_read_cstring
  refine wp_bind ?_
  rw [hc0] at z1 ⊢
  refine read_cstring_spec' hE hr2 hr hw hsg hF hc0n (fun _ e => absurd e hne) z1 hc.onum h hu1 fun m1 h1 => ?_
  refine wp_if_neg (by dsimp only; split <;> simp) ?_
  rw [← hc0]
  refine wp_bind (skipSpace_spec hch w2 (w ++ sg ++ ds) _ (by simp; omega) hw2 ?_)
  rw [show w ++ sg ++ ds ++ (w2 ++ ch :: rest) = (w ++ sg ++ ds ++ w2) ++ ch :: rest by simp, ← List.length_append]
  refine wp_bind (wp_bget getElem?_append_len ?_)
  refine wp_if_pos (by simpa using h47) (wp_bind (mp_int_set_value_spec hE (by decide) (by decide) h1
    (by rw [upd_ne _ _ hc.ne.symm]; exact hu2) hc.oden fun m2 h2 => wp_pure ?_))
  have e : (if c0 = 0 then MP_OK else MP_TRUNC) = (if w2 = [] ∧ ch = 0 then MP_OK else MP_TRUNC) := by simp only [hc00]
  rw [e]
  exact hQ m2 h2

end Imath
