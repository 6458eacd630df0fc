import Verif.Proof.Verdict7
import Verif.Proof.Read
import Verif.SpecVerdictQ

/-! # The test driver: rational numbers -/

namespace Imath

variable {env : Env} {E : Fault → Prop} {m : Mem} {σ σ0 : Id → Option Int} {d : Drv} {p q u : ℚ} {r : Nat}

/-- The registers of rational numbers. -/
def qr (k : Nat) : MpQ := ⟨.var (16 + 2 * k), .var (17 + 2 * k)⟩

theorem Inv.outQ {k : Nat} (h : Inv σ0 σ) (hk : k < 16) : OutQ σ (qr k) :=
  ⟨by simp only [qr, ne_eq, Id.var.injEq]; omega, h.1 _ (by omega), h.1 _ (by omega), rfl, rfl⟩

theorem Inv.upd2 {k : Nat} (h : Inv σ0 σ) (hk : k < 16) (v w : Int) :
    Inv σ0 (Imath.upd (Imath.upd σ (qr k).num (some v)) (qr k).den (some w)) :=
  (h.upd (by omega) v).upd (by omega) w

theorem Inv.updQ {k : Nat} (h : Inv σ0 σ) (hk : k < 16) (v : ℚ) : Inv σ0 (updQ σ (qr k) v) := h.upd2 hk _ _

theorem sepQ (i k : Nat) : SepQ (qr i) (qr k) := by
  by_cases h : i = k
  · exact .inl (by rw [h])
  · right
    simp only [qr, ne_eq, Id.var.injEq]
    omega

theorem HasQ2.upd2 {i k : Nat} {v w : Int} (h : HasQ2 σ (qr i) p) (hi : i ≠ k) :
    HasQ2 (upd (upd σ (qr k).num (some v)) (qr k).den (some w)) (qr i) p := by
  refine ⟨?_, ?_⟩
  · rw [upd_ne _ _ (by simp only [qr, ne_eq, Id.var.injEq]; omega), upd_ne _ _ (by simp only [qr, ne_eq, Id.var.injEq]; omega)]; exact h.1
  · rw [upd_ne _ _ (by simp only [qr, ne_eq, Id.var.injEq]; omega), upd_ne _ _ (by simp only [qr, ne_eq, Id.var.injEq]; omega)]; exact h.2

theorem HasQ2.keep {i k : Nat} {v : ℚ} (h : HasQ2 σ (qr i) p) (hi : i ≠ k) : HasQ2 (updQ σ (qr k) v) (qr i) p := h.upd2 hi

/-! ### Reading -/

theorem endCode_append {s : List Nat} (h : s ≠ []) (X : List Nat) : endCode (s ++ X) = endCode s := by
  unfold endCode
  cases s with
  | nil => exact absurd rfl h
  | cons a b => simp

theorem scanDigits_zero : ∀ (s : List Nat) (a : Nat), 0 ∈ s → 0 ∈ (scanDigits r a s).2 := by
  intro s
  induction s with
  | nil => intro a h; simp at h
  | cons c s ih =>
    intro a h
    unfold scanDigits
    cases hc : digitVal r c with
    | none => exact h
    | some e =>
      refine ih _ ?_
      rcases List.mem_cons.1 h with h | h
      · subst h; simp [digitVal] at hc
      · exact h

theorem scanInt_zero {s : List Nat} (h : 0 ∈ s) : 0 ∈ (scanInt r s).2 := by
  unfold scanInt
  dsimp only
  apply scanDigits_zero
  have := (trim_append h []).2
  split
  · rename_i hh
    cases he : trim s with
    | nil => rw [he] at this; simp at this
    | cons a b =>
      rw [he] at this hh
      simp at hh
      rcases List.mem_cons.1 this with h | h
      · omega
      · exact h
  · exact this

/-- What follows the end of the text does not matter. -/
theorem readFraction_append {s : List Nat} (h : 0 ∈ s) (X : List Nat) :
    (readFraction r (s ++ X)).res = (readFraction r s).res ∧ (readFraction r (s ++ X)).num = (readFraction r s).num ∧
      (readFraction r (s ++ X)).den = (readFraction r s).den := by
  obtain ⟨k1, k2⟩ := scanInt_append (r := r) h X
  have k3 := scanInt_zero (r := r) h
  obtain ⟨t1, t3⟩ := trim_append k3 X
  have t2 := List.ne_nil_of_mem t3
  unfold readFraction
  rw [k1]
  dsimp only
  rw [t1]
  cases ht : trim (scanInt r s).2 with
  | nil => exact absurd ht t2
  | cons a b =>
    rw [ht] at t3
    by_cases ha : a = 47
    · subst ha
      have hb : 0 ∈ b := by simpa using t3
      obtain ⟨j1, j2⟩ := scanInt_append (r := r) hb X
      simp only [List.cons_append]
      rw [j1]
      dsimp only
      rw [List.head?_append_of_ne_nil _ j2]
      split
      · simp
      · split <;> simp
    · rw [List.cons_append]
      split
      · rename_i e; simp at e; exact absurd e.1 ha
      · split
        · rename_i e; simp at e; exact absurd e.1 ha
        · simp [endCode_append k2]

theorem minus_append {s : List Nat} (h : 0 ∈ s) (X : List Nat) : minus (s ++ X) = minus s := by
  obtain ⟨t1, t3⟩ := trim_append h X
  have t2 := List.ne_nil_of_mem t3
  unfold minus
  rw [t1, List.head?_append_of_ne_nil _ t2]

theorem readDecimal_append {s : List Nat} (h : 0 ∈ s) (X : List Nat) :
    (readDecimal r (s ++ X)).res = (readDecimal r s).res ∧ (readDecimal r (s ++ X)).num = (readDecimal r s).num ∧
      (readDecimal r (s ++ X)).den = (readDecimal r s).den := by
  obtain ⟨k1, k2⟩ := scanInt_append (r := r) h X
  have k3 := scanInt_zero (r := r) h
  unfold readDecimal
  rw [k1]
  dsimp only
  cases ht : (scanInt r s).2 with
  | nil => exact absurd ht k2
  | cons a b =>
    rw [ht] at k3
    by_cases ha : a = 46
    · subst ha
      have hb : 0 ∈ b := by simpa using k3
      have j1 := scanDigits_append (r := r) hb X 0
      have j2 := List.ne_nil_of_mem (scanDigits_zero (r := r) b 0 hb)
      have hbn : b ≠ [] := List.ne_nil_of_mem hb
      simp only [List.cons_append]
      rw [List.head?_append_of_ne_nil _ hbn, j1, minus_append h]
      dsimp only
      split
      · simp
      · rw [endCode_append j2, List.length_append, List.length_append]
        rw [show b.length + X.length - ((scanDigits r 0 b).2.length + X.length) = b.length - (scanDigits r 0 b).2.length by omega]
        simp
    · rw [List.cons_append]
      split
      · rename_i e; simp at e; exact absurd e.1 ha
      · split
        · rename_i e; simp at e; exact absurd e.1 ha
        · rw [ht] at k2
          rw [← List.cons_append, endCode_append k2]
          simp

theorem divInt_parts (q : ℚ) : Rat.divInt q.num q.den = q := Rat.num_divInt_den q

theorem divInt_one' (x : Int) : (Rat.divInt x 1).num = x ∧ ((Rat.divInt x 1).den : Int) = 1 := by
  rw [Rat.divInt_one]; simp

theorem readFraction_reduced {s : List Nat} (h : (readFraction r s).res = MP_OK) :
    (Rat.divInt (readFraction r s).num (readFraction r s).den).num = (readFraction r s).num ∧
      ((Rat.divInt (readFraction r s).num (readFraction r s).den).den : Int) = (readFraction r s).den := by
  revert h
  unfold readFraction
  dsimp only
  split
  · split
    · intro h; exact absurd h (by dsimp only; decide)
    · split
      · intro h; exact absurd h (by dsimp only; decide)
      · intro _; dsimp only; rw [divInt_parts]; simp
  · intro _; exact divInt_one' _

theorem readDecimal_reduced {s : List Nat} (h : (readDecimal r s).res = MP_OK) :
    (Rat.divInt (readDecimal r s).num (readDecimal r s).den).num = (readDecimal r s).num ∧
      ((Rat.divInt (readDecimal r s).num (readDecimal r s).den).den : Int) = (readDecimal r s).den := by
  revert h
  unfold readDecimal
  dsimp only
  split
  · split
    · intro h; exact absurd h (by dsimp only; decide)
    · intro _; dsimp only; rw [divInt_parts]; simp
  · intro _; exact divInt_one' _

theorem zero_mem_take {t R : Bytes} (h : t.length ≤ 800000000) : 0 ∈ (t ++ 0 :: R).take 800000001 := by
  refine List.mem_iff_getElem?.2 ⟨t.length, ?_⟩
  rw [List.getElem?_take_of_lt (by omega)]
  simp

theorem readNotation_other {t : List Nat} (h : ¬ ∃ u, t = 64 :: u) : readNotation r t = readFraction r (t ++ [0]) := by
  unfold readNotation
  split
  · exact absurd ⟨_, rfl⟩ h
  · rfl

theorem read_rat_value_spec {Q : Int → Mem → Prop} {s R : Bytes} {c : MpQ} (hE : Ref env E) (h0 : 0 ∉ s) (hl : s.length ≤ 800000000)
    (h : R2 m σ) (hc : OutQ σ c)
    (hbad : readRat s = none → ∀ e v w m', e ≠ MP_OK → R2 m' (upd (upd σ c.num (some v)) c.den (some w)) → Q e m')
    (hQ : ∀ v, readRat s = some v → ∀ m', R2 m' (updQ σ c v) → Q MP_OK m') : wp env E (read_rat_value c (s ++ 0 :: R)) Q m := by
  obtain ⟨w1, hw1⟩ := hc.num
  obtain ⟨w2, hw2⟩ := hc.den
  unfold read_rat_value
  refine wp_bind (radixTag_spec h0 ?_)
  unfold readRat at hbad hQ
  cases ht : tagged s with
  | none =>
    rw [ht] at hbad
    refine wp_pure (hbad rfl MP_RANGE w1 w2 m (by decide) ?_)
    rwa [upd_same _ hw1, upd_same _ hw2]
  | some p =>
    obtain ⟨r, t⟩ := p
    rw [ht] at hbad hQ
    obtain ⟨hr, ht1, ht2⟩ := tagged_some ht
    have r2 : 2 ≤ r := by omega
    have r36 : r ≤ 36 := by omega
    rw [Option.bind_some] at hbad hQ
    show wp env E (do
      let c' ← bget (t ++ 0 :: R) 0
      if c' = 64 then mp_rat_read_decimal c r ((t ++ 0 :: R).drop 1) else mp_rat_read_string c r (t ++ 0 :: R)) Q m
    by_cases h64 : ∃ u, t = 64 :: u
    · obtain ⟨u, rfl⟩ := h64
      dsimp only at hbad hQ
      refine wp_bind (wp_bget (x := 64) rfl (wp_if_pos rfl ?_))
      unfold mp_rat_read_decimal
      rw [show ((64 :: u) ++ 0 :: R).drop 1 = u ++ 0 :: R from rfl]
      refine wp_bind (mp_rat_read_cdecimal_total hE r2 r36 (zero_mem_take (by simp at ht2; omega)) h hc fun m1 h1 => wp_pure ?_)
      obtain ⟨a1, a2, a3⟩ := readDecimal_append (r := r) (s := u ++ [0]) (by simp) R
      rw [show u ++ 0 :: R = (u ++ [0]) ++ R by simp] at h1 ⊢
      rw [a2, a3] at h1
      rw [a1]
      by_cases hres : (readDecimal r (u ++ [0])).res = MP_OK
      · rw [hres]
        obtain ⟨b1, b2⟩ := readDecimal_reduced hres
        refine hQ _ (if_pos hres) m1 ?_
        unfold updQ
        show R2 m1 (upd (upd σ c.num (some (Rat.divInt (readDecimal r (u ++ [0])).num (readDecimal r (u ++ [0])).den).num)) c.den
          (some ((Rat.divInt (readDecimal r (u ++ [0])).num (readDecimal r (u ++ [0])).den).den : Int)))
        rwa [b1, b2]
      · exact hbad (if_neg hres) _ _ _ m1 hres h1
    · have e64 := readNotation_other (r := r) h64
      dsimp only at hbad hQ
      rw [e64] at hbad hQ
      obtain ⟨c', hcg, hcne⟩ : ∃ c, (t ++ 0 :: R)[0]? = some c ∧ c ≠ 64 := by
        cases t with
        | nil => exact ⟨0, rfl, by omega⟩
        | cons a b => exact ⟨a, rfl, fun e => h64 ⟨b, by rw [e]⟩⟩
      refine wp_bind (wp_bget hcg (wp_if_neg hcne ?_))
      unfold mp_rat_read_string
      refine wp_bind (mp_rat_read_cstring_total hE r2 r36 (zero_mem_take (by omega)) h hc fun m1 h1 => wp_pure ?_)
      obtain ⟨a1, a2, a3⟩ := readFraction_append (r := r) (s := t ++ [0]) (by simp) R
      rw [show t ++ 0 :: R = (t ++ [0]) ++ R by simp] at h1 ⊢
      rw [a2, a3] at h1
      rw [a1]
      by_cases hres : (readFraction r (t ++ [0])).res = MP_OK
      · rw [hres]
        obtain ⟨b1, b2⟩ := readFraction_reduced hres
        refine hQ _ (if_pos hres) m1 ?_
        unfold updQ
        rwa [b1, b2]
      · exact hbad (if_neg hres) _ _ _ m1 hres h1

/-- The registers of rational numbers. -/
def ratRegs (hE : Ref env E) (σ0 : Id → Option Int) : Regs MpQ ℚ env E σ0 where
  r := qr
  H := HasQ2
  reg := g_qreg
  rdv := read_rat_value
  zero := mp_rat_zero
  rd := readRat
  z := 0
  reg_lt i hi := by unfold g_qreg NUM_REGS; rw [if_pos hi]; rfl
  reg_ge i hi := by unfold g_qreg NUM_REGS; rw [if_neg (by omega)]
  rdv_spec := by
    intro m σ i s R Q hi h0 hl h hI hQ
    refine read_rat_value_spec hE h0 hl h (hI.outQ hi) ?_ ?_
    · intro hn e v w m' he hh
      exact hQ e m' _ hh (hI.upd2 hi v w) (fun j _ hj u hu => hu.upd2 hj) (fun _ => he) fun v hv => by rw [hn] at hv; simp at hv
    · intro v hv m' hh
      refine hQ _ m' _ hh (hI.updQ hi v) (fun j _ hj u hu => hu.keep hj) (fun hn => by rw [hn] at hv; simp at hv) ?_
      intro v' hv'
      obtain rfl : v = v' := by rw [hv] at hv'; simpa using hv'
      exact ⟨rfl, updQ_has (hI.outQ hi).ne⟩
  zero_spec := by
    intro m σ i Q hi h hI hQ
    exact mp_rat_zero_spec hE h (hI.outQ hi) fun m' hh => hQ m' _ hh (hI.updQ hi 0) (fun j _ hj u hu => hu.keep hj) (updQ_has (hI.outQ hi).ne)

theorem withRats_spec {t : Test} {inn out rval : Bool} {ti tq : List Bytes} {k : Parsed MpQ → M (Bool × Drv)} {Q : Bool × Drv → Mem → Prop}
    {V : List Nat → List ℚ → List ℚ → Int → Verdict} (hE : Ref env E) (hd : Buf d)
    (hi : Arrays t.input ti) (ho : Arrays t.output tq) (hti : OkTexts ti) (htq : OkTexts tq)
    (h : R2 m σ) (hI : Inv σ0 σ) (hV : VPost E σ0 d Q (withVals readRat 0 inn out rval ti tq V))
    (hk : ∀ p ss n xs os e m' σ', VPost E σ0 d Q (V ss xs os e) → R2 m' σ' →
      (ratRegs hE σ0).Read p ss n xs os e inn out t ti tq σ' → wp env E (k p) Q m') :
    wp env E (withRats t d inn out rval k) Q m := by
  unfold withRats parse_rat_values
  refine wp_bind (parseValues_spec (ratRegs hE σ0) (V := V) (P := VPost E σ0 d Q) hi ho hti htq h hI hV (fun k => k) ?_ ?_)
  · intro hv p m' σ' k1 k2 k3
    unfold FAIL
    exact wp_if_neg (by simp [k3]) (wp_pure (hv _ m' σ' k1 k2 hd rfl rfl))
  · intro p ss n xs os e m' σ' k1 k2 k3 k4
    exact wp_if_pos k4 (hk p ss n xs os e m' σ' k1 k2 k3)

/-! ### Output -/

/-- The buffer is too small for the text. -/
theorem mp_rat_to_string_ub {Q : Int × Bytes → Mem → Prop} {a : MpQ} {str : Bytes} {limit : Int} (hE : Ref env E) (hu : E .ub) (hr2 : 2 ≤ r) (hr : r ≤ 36)
    (h : R2 m σ) (ha : HasQ2 σ a p) (hl2 : 2 ≤ limit) (hlim : (str.length : Int) ≤ limit) (hlen : str.length ≤ (ratText r p).length)
    (hmid : str.length ≤ (numeral r p.num).length ∨ ((numeral r p.num).length : Int) + 3 ≤ limit) :
    wp env E (mp_rat_to_string a r str limit) Q m := by
  unfold mp_rat_to_string
  by_cases hb1 : str.length ≤ (numeral r p.num).length
  · exact wp_bind (mp_int_to_string_fault hE hu hr2 hr hl2 (by omega) h ha.1)
  refine wp_bind (mp_int_to_string_spec hE hr2 hr hl2 (by omega) h ha.1 (fun m1 h1 _ => ?_) fun _ _ _ h1 => by omega)
  refine wp_if_neg (by simp) (wp_bind (mp_int_compare_zero_spec h1 ha.1 ?_))
  have h0 : p ≠ 0 := by
    rintro rfl
    rw [show ratText r 0 = numeral r (0 : ℚ).num by simp [ratText]] at hlen
    omega
  refine wp_if_neg (by rw [Int.sign_eq_zero_iff_zero]; exact Rat.num_ne_zero.2 h0) ?_
  have e : ratText r p = numeral r p.num ++ 47 :: numeral r p.den := by simp [ratText, h0]
  have h0D : 0 ∉ numeral r p.num := numeral_zero_notin hr2 hr p.num
  generalize hD : numeral r p.num = D at *
  refine wp_bind ?_
  show wp env E (strlen ([] ++ (D ++ 0 :: str.drop (D.length + 1))) _ ([] : Bytes).length) _ m1
  refine strlen_exact h0D (by simp) ?_
  show wp env E (if limit - (D.length : Int) = 0 then pure (MP_TRUNC, _) else _) Q m1
  refine wp_if_neg (by omega) (wp_bind (wp_bset (by simp) ?_))
  rw [set_len, show D ++ 47 :: str.drop (D.length + 1) = (D ++ [47]) ++ str.drop (D.length + 1) by simp,
    show D.length + 1 = (D ++ [47]).length by simp]
  refine wp_atOff (mp_int_to_string_fault hE hu hr2 hr (by omega) ?_ h1 ha.2)
  rw [e] at hlen
  simp at hlen ⊢
  omega

/-- There is no room for the denominator. -/
theorem mp_rat_to_string_assert {Q : Int × Bytes → Mem → Prop} {a : MpQ} {str : Bytes} {limit : Int} (hE : Ref env E) (hu : E .assert) (hr2 : 2 ≤ r) (hr : r ≤ 36)
    (h : R2 m σ) (ha : HasQ2 σ a p) (hl2 : 2 ≤ limit) (h0 : p ≠ 0) (h1 : ((numeral r p.num).length : Int) < limit) (h2 : limit < (numeral r p.num).length + 3)
    (hlen : (numeral r p.num).length < str.length) :
    wp env E (mp_rat_to_string a r str limit) Q m := by
  unfold mp_rat_to_string
  refine wp_bind (mp_int_to_string_spec hE hr2 hr hl2 (by omega) h ha.1 (fun m1 h1 _ => ?_) fun _ _ _ h1 => by omega)
  refine wp_if_neg (by simp) (wp_bind (mp_int_compare_zero_spec h1 ha.1 ?_))
  refine wp_if_neg (by rw [Int.sign_eq_zero_iff_zero]; exact Rat.num_ne_zero.2 h0) ?_
  have h0D : 0 ∉ numeral r p.num := numeral_zero_notin hr2 hr p.num
  generalize hD : numeral r p.num = D at *
  refine wp_bind ?_
  show wp env E (strlen ([] ++ (D ++ 0 :: str.drop (D.length + 1))) _ ([] : Bytes).length) _ m1
  refine strlen_exact h0D (by simp) ?_
  show wp env E (if limit - (D.length : Int) = 0 then pure (MP_TRUNC, _) else _) Q m1
  refine wp_if_neg (by omega) (wp_bind (wp_bset (by simp) ?_))
  rw [set_len, show D ++ 47 :: str.drop (D.length + 1) = (D ++ [47]) ++ str.drop (D.length + 1) by simp,
    show D.length + 1 = (D ++ [47]).length by simp]
  refine wp_atOff ?_
  unfold mp_int_to_string
  refine wp_bind (wp_fault (f := .assert) ?_ hu)
  rw [show decide (2 ≤ limit - (D.length : Int) - 1) = false by simp; omega]
  rfl

theorem ratText_zero (hr2 : 2 ≤ r) (hr : r ≤ 36) (p : ℚ) : 0 ∉ ratText r p := by
  unfold ratText
  rw [List.mem_append]
  rintro (h | h)
  · exact numeral_zero_notin hr2 hr _ h
  · split at h
    · simp at h
    · rcases List.mem_cons.1 h with h | h
      · omega
      · exact numeral_zero_notin hr2 hr _ h

/-- The test failed, and the number is the message. -/
theorem failQ {z : MpQ} {Q : Bool × Drv → Mem → Prop} (hE : Ref env E) (hd : Buf d) (h : R2 m σ) (hI : Inv σ0 σ) (hz : HasQ2 σ z p)
    (hV : VPost E σ0 d Q (wrongQ p)) :
    wp env E (do
      let s ← mp_rat_to_string z 10 d.g_output OUTPUT_LIMIT
      FAIL { d with g_output := s.2 } OTHER_ERROR) Q m := by
  unfold wrongQ at hV
  dsimp only at hV
  have hg := hd.1
  unfold OUTPUT_LIMIT FAIL
  have hle : (numeral 10 p.num).length ≤ (ratText 10 p).length := by unfold ratText; rw [List.length_append]; omega
  by_cases c1 : 2048 ≤ (numeral 10 p.num).length
  · rw [if_pos c1] at hV
    exact wp_bind (mp_rat_to_string_ub hE hV (by omega) (by omega) h hz (by norm_num) (by rw [hg]) (by omega) (.inl (by omega)))
  rw [if_neg c1] at hV
  by_cases c2 : p ≠ 0 ∧ 2046 ≤ (numeral 10 p.num).length
  · rw [if_pos c2] at hV
    exact wp_bind (mp_rat_to_string_assert hE hV (by omega) (by omega) h hz (by norm_num) c2.1 (by push_cast; omega) (by push_cast; omega) (by omega))
  rw [if_neg c2] at hV
  by_cases c3 : 2048 ≤ (ratText 10 p).length
  · rw [if_pos c3] at hV
    refine wp_bind (mp_rat_to_string_ub hE hV (by omega) (by omega) h hz (by norm_num) (by rw [hg]) (by omega) (.inr ?_))
    have h0 : p ≠ 0 := by
      rintro rfl
      rw [show ratText 10 0 = numeral 10 (0 : ℚ).num by simp [ratText]] at c3
      omega
    have : ¬ 2046 ≤ (numeral 10 p.num).length := fun k => c2 ⟨h0, k⟩
    push_cast; omega
  rw [if_neg c3] at hV
  refine wp_bind (mp_rat_to_string_spec hE (by omega) (by omega) h hz (by push_cast; omega) (by omega) fun m1 h1 => ?_)
  refine wp_pure (hV _ m1 σ h1 hI ⟨?_, hd.2⟩ rfl (by show OTHER_ERROR < MP_BADARG; decide) (ratText_zero (by omega) (by omega) p) ⟨_, rfl⟩)
  simp [hg]; omega

theorem cmpQ_eq_zero : cmpQ p q = 0 ↔ p = q := by
  unfold cmpQ
  constructor
  · intro h
    split at h
    · omega
    · split at h
      · assumption
      · omega
  · rintro rfl; simp

theorem expectRat_spec {pp : Parsed MpQ} {z o : MpQ} {Q : Bool × Drv → Mem → Prop} (hE : Ref env E) (hd : Buf d) (h : R2 m σ) (hI : Inv σ0 σ)
    (hz : HasQ2 σ z p) (he : pp.expect = MP_OK) (ho : pp.outs = [o]) (hu : HasQ2 σ o u) (hV : VPost E σ0 d Q (judgeQ MP_OK (.done p) [u])) :
    wp env E (expectRat d pp z) Q m := by
  unfold judgeQ at hV
  dsimp only at hV
  rw [if_neg (by simp)] at hV
  unfold expectRat nth
  refine wp_if_pos he ?_
  rw [ho]
  refine wp_bind (wp_pure (wp_bind (mp_rat_compare_spec hE h hz hu fun m1 h1 => ?_)))
  by_cases hc : p = u
  · rw [if_pos (by rw [hc])] at hV
    exact wp_if_neg (by rw [not_not]; exact cmpQ_eq_zero.2 hc) (wp_pure (hV d m1 σ h1 hI hd (by simp)))
  · rw [if_neg (by simpa using hc)] at hV
    exact wp_if_pos (fun k => hc (cmpQ_eq_zero.1 k)) (failQ hE hd h1 hI hz hV)

/-- `x` does what `r` says; the result is in register `k`. -/
def DoesQ (env : Env) (E : Fault → Prop) (σ0 : Id → Option Int) (k : Nat) (σ : Id → Option Int) (x : M Int) (m : Mem) (r : QRes) : Prop :=
  ∀ Q : Int → Mem → Prop, (match r with
    | .done v => ∀ m', R2 m' (updQ σ (qr k) v) → Q MP_OK m'
    | .fails e => ∀ m' σ', R2 m' σ' → Inv σ0 σ' → Q e m'
    | .stop _ => True
    | .crash f => E f) → wp env E x Q m

/-- A test with one result. -/
theorem vcheckQ {x : M Int} {pp : Parsed MpQ} {n k : Nat} {Q : Bool × Drv → Mem → Prop} {e : Int} {r : QRes} (hE : Ref env E) (hd : Buf d)
    (hI : Inv σ0 σ) (hk : k < 16) (hn : n ≠ k) (he : pp.expect = e) (ho : pp.outs = [qr n]) (hu : HasQ2 σ (qr n) u)
    (hx : DoesQ env E σ0 k σ x m r) (hne : ∀ c, r = .fails c → c ≠ MP_OK) (hV : VPost E σ0 d Q (judgeQ e r [u])) :
    wp env E (VCHECK d x pp.expect (expectRat d pp (qr k))) Q m := by
  unfold VCHECK
  unfold judgeQ at hV
  cases r with
  | done v =>
    refine wp_bind (hx _ ?_)
    intro m' h'
    dsimp only at hV
    have hI' := hI.updQ hk v
    by_cases he0 : e = MP_OK
    · rw [if_neg (by simpa using he0)] at hV
      subst he0
      refine wp_if_neg (by simp [he]) (expectRat_spec hE hd h' hI' (updQ_has (hI.outQ hk).ne) he ho (hu.keep hn) ?_)
      unfold judgeQ; dsimp only; rw [if_neg (by simp)]; exact hV
    · rw [if_pos he0] at hV
      exact wp_if_pos (by rw [he]; exact fun k => he0 k.symm) (wp_pure (hV _ m' _ h' hI' hd rfl rfl))
  | fails c =>
    refine wp_bind (hx _ ?_)
    intro m' σ' h' hs
    dsimp only at hV
    by_cases hc : c = e
    · rw [if_pos hc] at hV
      have := hne c rfl
      refine wp_if_neg (by rw [he, not_not]; exact hc) ?_
      unfold expectRat
      exact wp_if_neg (by rw [he, ← hc]; exact this) (wp_pure (hV d m' σ' h' hs hd (by simp)))
    · rw [if_neg hc] at hV
      exact wp_if_pos (by rw [he]; exact hc) (wp_pure (hV _ m' σ' h' hs hd rfl rfl))
  | stop c => exact wp_bind (wp_mono (hx (fun _ _ => False) trivial) fun _ _ k => k.elim)
  | crash f => exact wp_bind (hx _ hV)

end Imath
