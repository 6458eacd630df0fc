import Verif.Proof.ConvRead

/-! # Byte arrays -/

namespace Imath

variable {env : Env} {E : Fault → Prop} {m : Mem} {s : Id → Option Cell} {σ : Id → Option Int} {z : Id} {v : Int}
  {C : Cell}

/-! ### Values of byte strings -/

def Byte (l : Bytes) : Prop := ∀ b ∈ l, b < 256

theorem beVal_append_single (X : Bytes) (x : Nat) : beVal (X ++ [x]) = 256 * beVal X + x := by
  unfold beVal; rw [List.foldl_append]; rfl

theorem beVal_nil : beVal [] = 0 := rfl

theorem Byte.append {X Y : Bytes} : Byte (X ++ Y) ↔ Byte X ∧ Byte Y := by
  unfold Byte
  constructor
  · intro h; exact ⟨fun b hb => h b (by simp [hb]), fun b hb => h b (by simp [hb])⟩
  · rintro ⟨h1, h2⟩ b hb
    rcases List.mem_append.1 hb with h | h
    exacts [h1 b h, h2 b h]

theorem Byte.single {x : Nat} : Byte [x] ↔ x < 256 := by simp [Byte]

theorem beVal_lt {X : Bytes} (h : Byte X) : beVal X < 256 ^ X.length := by
  induction X using List.reverseRecOn with
  | nil => simp [beVal]
  | append_singleton X x ih =>
    rw [Byte.append, Byte.single] at h
    have := ih h.1
    rw [beVal_append_single, List.length_append, List.length_singleton, Nat.pow_succ]
    omega

theorem beVal_inj {X : Bytes} : ∀ {Y : Bytes}, Byte X → Byte Y → X.length = Y.length → beVal X = beVal Y → X = Y := by
  induction X using List.reverseRecOn with
  | nil => intro Y _ _ hl _; exact (List.eq_nil_of_length_eq_zero hl.symm).symm
  | append_singleton X x ih =>
    intro Y hX hY hl he
    have hY0 : Y ≠ [] := by rintro rfl; simp at hl
    obtain ⟨Y', y, rfl⟩ : ∃ Y' y, Y = Y' ++ [y] := ⟨_, _, (List.dropLast_append_getLast hY0).symm⟩
    rw [beVal_append_single, beVal_append_single] at he
    rw [Byte.append, Byte.single] at hX hY
    have h1 : x = y := by omega
    have h2 : beVal X = beVal Y' := by omega
    have := ih hX.1 hY.1 (by simpa using hl) h2
    rw [this, h1]

theorem beVal_cons (x : Nat) (X : Bytes) : beVal (x :: X) = x * 256 ^ X.length + beVal X := by
  induction X using List.reverseRecOn with
  | nil => simp [beVal]
  | append_singleton X y ih =>
    rw [show x :: (X ++ [y]) = (x :: X) ++ [y] by simp, beVal_append_single, ih, beVal_append_single,
      List.length_append, List.length_singleton, Nat.pow_succ]
    ring

theorem beVal_reverse (X : Bytes) : beVal X.reverse = Nat.ofDigits 256 X := by
  induction X with
  | nil => rfl
  | cons x X ih => rw [List.reverse_cons, beVal_append_single, ih, Nat.ofDigits_cons]; omega

/-- The sign bit. -/
theorem head_ge_iff {x : Nat} {X : Bytes} (h : Byte (x :: X)) :
    128 ≤ x ↔ 128 * 256 ^ X.length ≤ beVal (x :: X) := by
  have hX : Byte X := fun b hb => h b (by simp [hb])
  have h1 := beVal_lt hX
  rw [beVal_cons]
  constructor
  · intro hx
    exact Nat.le_trans (Nat.mul_le_mul_right _ hx) (Nat.le_add_right _ _)
  · intro hx
    by_contra hcon
    have : (x + 1) * 256 ^ X.length ≤ 128 * 256 ^ X.length := Nat.mul_le_mul_right _ (by omega)
    rw [Nat.add_mul] at this
    omega

/-! ### Two's complement -/

theorem comp2Loop_spec {Q : Bytes → Mem → Prop} (n : Nat) : ∀ {X Y : Bytes} {t : Nat}, X.length = n → t ≤ 1 → Byte X →
    (∀ X' c, X'.length = n → Byte X' → 256 ^ n * c + beVal X' + beVal X + 1 = 256 ^ n + t → Q (X' ++ Y) m) →
    wp env E (comp2Loop n t (X ++ Y)) Q m := by
  induction n with
  | zero =>
    intro X Y t hl ht hX hQ
    have : X = [] := List.eq_nil_of_length_eq_zero hl
    subst this
    exact wp_pure (hQ [] t rfl hX (by simp [beVal]; omega))
  | succ n ih =>
    intro X Y t hl ht hX hQ
    have hX0 : X ≠ [] := by rintro rfl; simp at hl
    obtain ⟨X0, x, rfl⟩ : ∃ X0 x, X = X0 ++ [x] := ⟨_, _, (List.dropLast_append_getLast hX0).symm⟩
    have hl0 : X0.length = n := by simpa using hl
    rw [Byte.append, Byte.single] at hX
    have e1 : X0 ++ [x] ++ Y = X0 ++ x :: Y := by simp
    rw [e1]
    unfold comp2Loop
    refine wp_bind (wp_bget (x := x) (by rw [← hl0]; exact getElem?_append_len) ?_)
    refine wp_bind (wp_bset (by simp; omega) ?_)
    have ha : (255 - x + t) &&& 255 = (255 - x + t) % 256 := by
      rw [show (255 : Nat) = 2 ^ 8 - 1 by norm_num, Nat.and_two_pow_sub_one_eq_mod]
    have hs : (255 - x + t) >>> 8 = (255 - x + t) / 256 := by rw [Nat.shiftRight_eq_div_pow]
    rw [ha, hs]
    rw [show (X0 ++ x :: Y).set n ((255 - x + t) % 256) = X0 ++ ((255 - x + t) % 256 :: Y) by
      rw [← hl0, set_append_len]; simp]
    refine ih hl0 (by omega) hX.1 fun X' c hl' hb' he => ?_
    have := hQ (X' ++ [(255 - x + t) % 256]) c (by simp [hl']) (by
      rw [Byte.append, Byte.single]; exact ⟨hb', Nat.mod_lt _ (by norm_num)⟩) ?_
    · simpa using this
    · rw [beVal_append_single, beVal_append_single, Nat.pow_succ]
      have h1 : 256 ^ n * 256 * c = 256 * (256 ^ n * c) := by ring
      rw [h1]
      generalize 256 ^ n * c = A at *
      omega

/-- Negation of a nonzero string of bytes. -/
theorem s_2comp_spec {Q : Bytes → Mem → Prop} {X Y : Bytes} {n : Nat} (hl : X.length = n) (hX : Byte X)
    (hQ : ∀ X', X'.length = n → Byte X' → (beVal X ≠ 0 → beVal X' = 256 ^ n - beVal X) ∧ (beVal X = 0 → beVal X' = 0) → Q (X' ++ Y) m) :
    wp env E (s_2comp (X ++ Y) n) Q m := by
  unfold s_2comp
  refine comp2Loop_spec n hl (Nat.le_refl _) hX fun X' c h1 h2 h3 => hQ X' h1 h2 ⟨fun h0 => ?_, fun h0 => ?_⟩
  all_goals
    have := beVal_lt hX
    rw [hl] at this
  · have hc : c = 0 := by
      by_contra hc
      have : 256 ^ n * 1 ≤ 256 ^ n * c := Nat.mul_le_mul_left _ (by omega)
      omega
    subst hc
    omega
  · have h4 := beVal_lt h2
    rw [h1] at h4
    have hc : c ≠ 0 := by rintro rfl; omega
    have : 256 ^ n * 1 ≤ 256 ^ n * c := Nat.mul_le_mul_left _ (by omega)
    omega

/-! ### Output -/

def emit (uz : Nat) : Nat → Nat → Bytes
  | 0, _ => []
  | i + 1, d => d % 256 :: (if d / 256 = 0 ∧ uz = 1 then [] else emit uz i (d / 256))

theorem emit_byte (uz : Nat) : ∀ i d, Byte (emit uz i d) := by
  intro i
  induction i with
  | zero => intro d; simp [emit, Byte]
  | succ i ih =>
    intro d b hb
    simp only [emit, List.mem_cons] at hb
    rcases hb with hb | hb
    · rw [hb]; exact Nat.mod_lt _ (by norm_num)
    · split at hb
      · simp at hb
      · exact ih _ b hb

theorem emit_val (uz : Nat) : ∀ i d, d < 256 ^ i → Nat.ofDigits 256 (emit uz i d) = d := by
  intro i
  induction i with
  | zero => intro d hd; simp at hd; simp [emit, hd]
  | succ i ih =>
    intro d hd
    rw [Nat.pow_succ] at hd
    simp only [emit]
    rw [Nat.ofDigits_cons]
    split
    · rename_i h; simp; omega
    · rw [ih (d / 256) (by omega)]; omega

theorem emit_len {uz : Nat} (h : uz ≠ 1) : ∀ i d, (emit uz i d).length = i := by
  intro i
  induction i with
  | zero => intro d; rfl
  | succ i ih => intro d; simp [emit, h, ih]

/-- The last digit: no leading zeros. -/
theorem emit_last : ∀ i d, d < 256 ^ i → d ≠ 0 → emit 1 i d = Nat.digits 256 d := by
  intro i
  induction i with
  | zero => intro d hd; simp at hd; omega
  | succ i ih =>
    intro d hd h0
    rw [Nat.pow_succ] at hd
    rw [Nat.digits_def' (by norm_num) (by omega)]
    simp only [emit]
    by_cases h1 : d / 256 = 0
    · simp [h1]
    · rw [if_neg (by simp [h1]), ih _ (by omega) h1]

theorem val_eq_zero_mem {l : List Nat} (h : val l = 0) : ∀ x ∈ l, x = 0 := by
  induction l with
  | nil => simp
  | cons d l ih =>
    rw [val_cons] at h
    intro x hx
    rcases List.mem_cons.1 hx with rfl | hx
    · omega
    · exact ih (by omega) x hx

def tobL : List Nat → Bytes
  | [] => []
  | d :: ds => emit (ds.length + 1) 4 d ++ tobL ds

/-- Bytes of a magnitude, least significant first. -/
def leB (n : Nat) : Bytes := if n = 0 then [0] else Nat.digits 256 n

theorem leB_byte (n : Nat) : Byte (leB n) := by
  unfold leB; split
  · simp [Byte]
  · intro b hb; exact Nat.digits_lt_base (by norm_num) hb

theorem tobL_eq : ∀ (ds : List Nat), ds ≠ [] → Dig ds → (1 < ds.length → ds[ds.length - 1]? ≠ some 0) →
    tobL ds = leB (val ds) := by
  intro ds
  induction ds with
  | nil => intro h; exact absurd rfl h
  | cons d ds ih =>
    intro _ hd htop
    rw [Dig_cons] at hd
    have hd256 : d < 256 ^ 4 := by norm_num; exact hd.1
    match ds with
    | [] =>
      simp only [tobL, List.length_nil, List.append_nil, val_cons, val_nil]
      unfold leB
      split
      · rename_i h0
        have : d = 0 := by simpa using h0
        rw [this]; rfl
      · rename_i h0
        rw [emit_last 4 d hd256 (by simpa using h0)]
        simp
    | e :: ds =>
      have htop' : 1 < (e :: ds).length → (e :: ds)[(e :: ds).length - 1]? ≠ some 0 := by
        intro h1
        have := htop (by simp)
        simpa using this
      have ihh := ih (by simp) hd.2 htop'
      have hnz : val (e :: ds) ≠ 0 := by
        have h1 := htop (by simp)
        intro h0
        have hall := val_eq_zero_mem h0
        apply h1
        simp only [List.length_cons, Nat.add_sub_cancel]
        rw [List.getElem?_cons_succ, List.getElem?_eq_getElem (by simp)]
        have hm : (e :: ds)[ds.length] ∈ e :: ds := List.getElem_mem _
        rw [hall _ hm]
      rw [tobL, ihh]
      have hE := emit_len (uz := (e :: ds).length + 1) (by simp) 4 d
      have hV := emit_val ((e :: ds).length + 1) 4 d hd256
      have hB := emit_byte ((e :: ds).length + 1) 4 d
      generalize emit ((e :: ds).length + 1) 4 d = X at hE hV hB ⊢
      have hL : leB (val (e :: ds)) = Nat.digits 256 (val (e :: ds)) := by unfold leB; rw [if_neg hnz]
      have hval : val (d :: e :: ds) = Nat.ofDigits 256 (X ++ leB (val (e :: ds))) := by
        rw [Nat.ofDigits_append, hE, hV, hL, Nat.ofDigits_digits, val_cons]
        norm_num
      have hne : val (d :: e :: ds) ≠ 0 := by
        rw [val_cons]
        have := Nat.mul_pos (show 0 < 𝔹 by norm_num) (Nat.pos_of_ne_zero hnz)
        omega
      have hu : Nat.digits 256 (val (d :: e :: ds)) = X ++ leB (val (e :: ds)) := by
        rw [hval]
        refine Nat.digits_ofDigits 256 (by norm_num) _ ?_ ?_
        · intro b hb
          rcases List.mem_append.1 hb with h | h
          · exact hB b h
          · exact leB_byte _ b h
        · intro h
          simp only [hL]
          have h5 : Nat.digits 256 (val (e :: ds)) ≠ [] := Nat.digits_ne_nil_iff_ne_zero.2 hnz
          rw [List.getLast_append_of_ne_nil _ h5]
          exact Nat.getLast_digit_ne_zero 256 hnz
      unfold leB
      rw [if_neg hne, if_neg hnz, hu, hL]

theorem tobinByte_spec {Q : Bool × Bytes × Nat → Mem → Prop} {uz limit : Nat} : ∀ (i : Nat) {d : Nat} {P R : Bytes},
    P.length ≤ limit → min limit (P.length + (emit uz i d).length) ≤ P.length + R.length →
    (P.length + (emit uz i d).length ≤ limit →
      Q (false, P ++ emit uz i d ++ R.drop (emit uz i d).length, P.length + (emit uz i d).length) m) →
    (∀ R', limit < P.length + (emit uz i d).length → R'.length = R.length →
      R'.drop (limit - P.length) = R.drop (limit - P.length) → R'.take (limit - P.length) = (emit uz i d).take (limit - P.length) →
      Q (true, P ++ R', limit) m) →
    wp env E (tobinByte uz limit i d (P ++ R) P.length) Q m := by
  intro i
  induction i with
  | zero =>
    intro d P R hP hR h1 h2
    have := h1 (by simpa [emit] using hP)
    unfold tobinByte
    exact wp_pure (by simpa [emit] using this)
  | succ i ih =>
    intro d P R hP hR h1 h2
    unfold tobinByte
    refine wp_ite (fun hlt => ?_) (fun hlt => ?_)
    · have hRp : 0 < R.length := by simp [emit] at hR; omega
      obtain ⟨y, R, rfl⟩ := List.exists_cons_of_length_pos hRp
      refine wp_bind (wp_bset (by simp) ?_)
      rw [set_append_len]
      have hu : u8 d = d % 256 := rfl
      have hs : d >>> 8 = d / 256 := by rw [Nat.shiftRight_eq_div_pow]
      rw [hu]
      show wp env E (if d >>> 8 = 0 ∧ uz = 1 then pure (false, P ++ [d % 256] ++ R, P.length + 1)
        else tobinByte uz limit i (d >>> 8) (P ++ [d % 256] ++ R) (P.length + 1)) Q m
      rw [hs]
      refine wp_ite (fun hc => ?_) (fun hc => ?_)
      · have he : emit uz (i + 1) d = [d % 256] := by simp only [emit]; rw [if_pos hc]
        rw [he] at h1
        have := h1 (by simp; omega)
        exact wp_pure (by simpa using this)
      · have he : emit uz (i + 1) d = d % 256 :: emit uz i (d / 256) := by simp only [emit]; rw [if_neg hc]
        rw [he] at h1 h2 hR
        have hl : P.length + 1 = (P ++ [d % 256]).length := by simp
        rw [hl]
        refine ih (by simp; omega) (by simp at hR ⊢; omega) (fun hfull => ?_) (fun R' hlim hR' hdr hby => ?_)
        · have := h1 (by simp at hfull ⊢; omega)
          simp only [List.length_cons, List.drop_succ_cons] at this
          simp only [List.append_assoc, List.cons_append, List.nil_append, List.length_append,
            List.length_cons, List.length_nil] at this ⊢
          rw [show P.length + (0 + 1) + (emit uz i (d / 256)).length = P.length + ((emit uz i (d / 256)).length + 1) by omega]
          exact this
        · have hk : limit - P.length = (limit - (P ++ [d % 256]).length) + 1 := by simp; omega
          have := h2 (d % 256 :: R') (by simp at hlim ⊢; omega) (by simp [hR'])
            (by rw [hk, List.drop_succ_cons, List.drop_succ_cons]; exact hdr)
            (by rw [hk, List.take_succ_cons, List.take_succ_cons, hby])
          simpa using this
    · have hlim : limit = P.length := by omega
      have := h2 R (by simp [emit]; omega) rfl rfl (by rw [hlim]; simp)
      rw [hlim] at this
      exact wp_pure this

theorem tobinDigits_spec {limit : Nat} : ∀ (ds : List Nat) {dz : Ptr} {P R : Bytes}
    {Q : Nat × Bytes × Nat → Mem → Prop},
    At m dz ds →
    P.length ≤ limit → min limit (P.length + (tobL ds).length) ≤ P.length + R.length →
    (P.length + (tobL ds).length ≤ limit →
      Q (0, P ++ tobL ds ++ R.drop (tobL ds).length, P.length + (tobL ds).length) m) →
    (∀ u B, limit < P.length + (tobL ds).length → B.length = P.length + R.length → u ≠ 0 →
      B.drop limit = (P ++ R).drop limit → B.take limit = (P ++ tobL ds).take limit →
      Q (u, B, limit) m) →
    wp env E (tobinDigits limit ds.length dz (P ++ R) P.length) Q m := by
  intro ds
  induction ds with
  | nil =>
    intro dz P R Q hat hP hR h1 h2
    have := h1 (by simpa [tobL] using hP)
    unfold tobinDigits
    exact wp_pure (by simpa [tobL] using this)
  | cons d ds ih =>
    intro dz P R Q hat hP hR h1 h2
    rw [List.length_cons]
    unfold tobinDigits
    have hem : 1 ≤ (emit (ds.length + 1) 4 d).length := by simp [emit]
    simp only [tobL, List.length_append] at h1 h2 hR
    refine wp_ite (fun hlt => ?_) (fun hlt => ?_)
    · refine wp_bind (wp_rd (x := d) (by simpa using hat 0 d rfl) ?_)
      refine wp_bind (tobinByte_spec 4 hP (by omega) (fun hfull => ?_) (fun R' hlim hR' hdr hby => ?_))
      · refine wp_if_neg (by simp) ?_
        have hat' : At m (dz.add 1) ds := by
          intro i x hi
          have := hat (i + 1) x (by simpa using hi)
          simpa [Ptr.add, Nat.add_assoc, Nat.add_comm 1] using this
        generalize hX : emit (ds.length + 1) 4 d = X at *
        have hl : P.length + X.length = (P ++ X).length := by simp
        simp only [hl]
        refine ih hat' (by simp; omega) (by simp; omega) (fun hf2 => ?_) (fun u B hlim hB hu hdr hby => ?_)
        · have := h1 (by simp at hf2; omega)
          simp only [List.drop_drop, List.length_append]
          rw [Nat.add_assoc]
          simpa only [List.append_assoc] using this
        · refine h2 u B (by simp at hlim; omega) (by simp at hB; omega) hu ?_ (by rw [hby, List.append_assoc])
          rw [hdr]
          have hge : (P ++ X).length ≤ limit := by simp; omega
          rw [List.drop_append, List.drop_eq_nil_of_le hge, List.nil_append, List.drop_append,
            List.drop_eq_nil_of_le (as := P) hP, List.nil_append, List.drop_drop, List.length_append]
          congr 1
          simp at hge; omega
      · refine wp_if_pos rfl ?_
        refine wp_pure (h2 (ds.length + 1) (P ++ R') (by omega) (by simp [hR']) (by omega) ?_ ?_)
        · rw [List.drop_append, List.drop_append, hdr]
        · rw [List.take_append, List.take_append, hby, List.take_append_of_le_length (by omega)]
    · have hlim : limit = P.length := by omega
      have := h2 (ds.length + 1) (P ++ R) (by omega) (by simp) (by omega) rfl (by rw [hlim]; simp)
      rw [hlim] at this
      exact wp_pure this

/-- The bytes written by `s_tobin`, least significant first. -/
def tobOut (pad : Bool) (n : Nat) : Bytes :=
  if pad = true ∧ 128 ≤ (leB n).getLastD 0 then leB n ++ [0] else leB n

theorem leB_ne (n : Nat) : leB n ≠ [] := by
  unfold leB; split
  · simp
  · rename_i h; exact Nat.digits_ne_nil_iff_ne_zero.2 h

theorem tobOut_len (pad : Bool) (n : Nat) : (leB n).length ≤ (tobOut pad n).length ∧ 1 ≤ (leB n).length := by
  refine ⟨?_, List.length_pos_of_ne_nil (leB_ne n)⟩
  unfold tobOut; split <;> simp

theorem tobOut_byte (pad : Bool) (n : Nat) : Byte (tobOut pad n) := by
  unfold tobOut; split
  · rw [Byte.append, Byte.single]; exact ⟨leB_byte n, by norm_num⟩
  · exact leB_byte n

theorem getLast?_idx {l : Bytes} (h : l ≠ []) (R : Bytes) : (l ++ R)[l.length - 1]? = some (l.getLastD 0) := by
  have hp := List.length_pos_of_ne_nil h
  rw [List.getElem?_append_left (by omega), ← List.getLast?_eq_getElem?, List.getLastD_eq_getLast?,
    List.getLast?_eq_some_getLast h]
  rfl

theorem s_tobin_spec {Q : Int × Bytes × Nat → Mem → Prop} {buf : Bytes} {limit : Int} {pad : Bool}
    (hlim : 1 ≤ limit) (h : R2 m σ) (hz : σ z = some v)
    (hbuf : min limit ((tobOut pad v.natAbs).length : Int) ≤ buf.length)
    (hQ1 : ((tobOut pad v.natAbs).length : Int) ≤ limit →
      Q (MP_OK, (tobOut pad v.natAbs).reverse ++ buf.drop (tobOut pad v.natAbs).length, (tobOut pad v.natAbs).length) m)
    (hQ2 : limit < (tobOut pad v.natAbs).length →
      Q (MP_TRUNC, ((tobOut pad v.natAbs).take limit.toNat).reverse ++ buf.drop limit.toNat, limit.toNat) m) :
    wp env E (s_tobin z buf limit pad) Q m := by
  unfold s_tobin
  obtain ⟨s, hr, hg⟩ := h
  obtain ⟨C, hC, gC⟩ := hg.get hz
  refine wp_bind (wp_USED hr hC ?_)
  refine wp_bind (wp_DIGITS hr hC ?_)
  have hle := gC.norm.le
  have hpos := gC.norm.pos
  obtain ⟨ds, hds⟩ : ∃ ds, ds = C.buf.take C.used := ⟨_, rfl⟩
  have hdl : ds.length = C.used := by rw [hds, List.length_take]; omega
  have hat : At m C.ptr ds := by rw [hds]; exact (hr.at hC).take _
  have hL : tobL ds = leB v.natAbs := by
    rw [gC.natAbs, Cell.mag, ← hds]
    refine tobL_eq ds (by intro h0; rw [h0] at hdl; simp at hdl; omega) (by rw [hds]; exact (hr.okd hC).take _) ?_
    intro h1
    rw [hdl] at h1 ⊢
    rw [hds, List.getElem?_take, if_pos (by omega)]
    exact gC.norm.top h1
  obtain ⟨hl1, hl2⟩ := tobOut_len pad v.natAbs
  obtain ⟨lim, rfl⟩ : ∃ lim : Nat, limit = lim := ⟨limit.toNat, by omega⟩
  rw [Int.toNat_natCast] at hQ2 ⊢
  rw [← hdl]
  have fin : ∀ {X R : Bytes} {u : Nat}, X.length ≤ lim → wp env E (do
      let buf ← revLoop X.length (X ++ R) 0 X.length
      pure (if u = 0 then MP_OK else MP_TRUNC, buf, X.length)) (fun r m' => m' = m ∧ r = (if u = 0 then MP_OK else MP_TRUNC, X.reverse ++ R, X.length)) m := by
    intro X R u hX
    have := revLoop_spec (env := env) (E := E) (m := m) (Q := fun b m' => m' = m ∧ b = X.reverse ++ R) X.length
      (P := []) (X := X) (R := R) (Nat.le_refl _) ⟨rfl, by simp⟩
    simp only [List.nil_append, List.length_nil, Nat.zero_add] at this
    refine wp_bind (wp_mono this ?_)
    rintro _ _ ⟨rfl, rfl⟩
    exact wp_pure ⟨rfl, rfl⟩
  have fin' : ∀ {B : Bytes} {u : Nat}, u ≠ 0 → lim < (tobOut pad v.natAbs).length → B.length = buf.length →
      B.drop lim = buf.drop lim → B.take lim = (tobOut pad v.natAbs).take lim → wp env E (do
      let buf ← revLoop lim B 0 lim
      pure (if u = 0 then MP_OK else MP_TRUNC, buf, lim)) Q m := by
    intro B u hu hlt hBl hdr hby
    have hBl2 : (B.take lim).length = lim := by rw [List.length_take]; omega
    have := fin (X := B.take lim) (R := B.drop lim) (u := u) (by omega)
    rw [List.take_append_drop, hBl2, if_neg hu] at this
    rw [if_neg hu]
    refine wp_mono this ?_
    rintro _ _ ⟨rfl, rfl⟩
    rw [hby, hdr]
    exact hQ2 (by exact_mod_cast hlt)
  refine wp_bind ?_
  have k := tobinDigits_spec (m := m) (env := env) (E := E) (limit := lim) ds (P := []) (R := buf)
    (Q := fun r m' => wp env E (do
      let r ← tobinPad lim pad r
      let buf ← revLoop r.2.2 r.2.1 0 r.2.2
      pure (if r.1 = 0 then MP_OK else MP_TRUNC, buf, r.2.2)) Q m') hat (by simp)
    (by rw [hL]; simp; omega) ?_ ?_
  · exact k
  · -- all bytes written
    intro hfull
    rw [hL] at hfull ⊢
    simp only [List.length_nil, Nat.zero_add, List.nil_append] at hfull ⊢
    generalize hLL : leB v.natAbs = L at *
    have hLne : L ≠ [] := by rw [← hLL]; exact leB_ne _
    have done : tobOut pad v.natAbs = L → wp env E (do
        let buf ← revLoop L.length (L ++ buf.drop L.length) 0 L.length
        pure (if (0 : Nat) = 0 then MP_OK else MP_TRUNC, buf, L.length)) Q m := by
      intro he
      refine wp_mono (fin (u := 0) hfull) ?_
      rintro _ _ ⟨rfl, rfl⟩
      have := hQ1 (by rw [he]; exact_mod_cast hfull)
      rw [he] at this
      simpa using this
    unfold tobinPad
    by_cases hp : pad = true
    · rw [if_pos hp, if_neg (show ¬ L.length = 0 by omega)]
      refine wp_bind (wp_bind (wp_bget (getLast?_idx hLne _) ?_))
      have hsh : L.getLastD 0 >>> 7 ≠ 0 ↔ 128 ≤ L.getLastD 0 := by
        rw [Nat.shiftRight_eq_div_pow]; omega
      refine wp_ite (fun h1 => ?_) (fun h1 => ?_)
      · rw [hsh] at h1
        have he : tobOut pad v.natAbs = L ++ [0] := by unfold tobOut; rw [hLL, if_pos ⟨hp, h1⟩]
        refine wp_ite (fun h2 => ?_) (fun h2 => ?_)
        · have h2' : L.length < lim := h2
          rw [he] at hbuf hQ1
          simp only [List.length_append, List.length_singleton] at hbuf hQ1
          have hlb : L.length < buf.length := by omega
          refine wp_bind (wp_bset (by simp; omega) (wp_pure ?_))
          obtain ⟨y, hy⟩ : ∃ y, buf.drop L.length = y :: buf.drop (L.length + 1) :=
            ⟨buf[L.length], (List.getElem_cons_drop hlb).symm⟩
          rw [hy, set_append_len]
          have f := fin (X := L ++ [0]) (R := buf.drop (L.length + 1)) (u := 0) (by simp; omega)
          simp only [List.length_append, List.length_singleton] at f
          refine wp_mono f ?_
          rintro _ _ ⟨rfl, rfl⟩
          have := hQ1 (by omega)
          simpa using this
        · have h2' : ¬ L.length < lim := h2
          have hLl : L.length = lim := by omega
          refine wp_pure ?_
          simp only [hLl]
          refine fin' (u := 1) (by omega) (by rw [he]; simp; omega) (by simp; omega) ?_ ?_
          · rw [List.drop_append, List.drop_eq_nil_of_le (by omega), hLl]; simp
          · rw [he, List.take_append_of_le_length (by omega), List.take_append_of_le_length (by omega)]
      · rw [hsh] at h1
        refine wp_pure (done ?_)
        unfold tobOut; rw [hLL, if_neg (by tauto)]
    · rw [if_neg hp]
      refine wp_bind (wp_pure (done ?_))
      unfold tobOut; rw [hLL, if_neg (by tauto)]
  · intro u B hlt hB hu hdr hby
    rw [hL] at hlt hby
    simp only [List.length_nil, Nat.zero_add, List.nil_append] at hlt hB hdr hby
    have hpre : (leB v.natAbs).take lim = (tobOut pad v.natAbs).take lim := by
      unfold tobOut; split
      · rw [List.take_append_of_le_length (by omega)]
      · rfl
    rw [hpre] at hby
    have hlt' : lim < (tobOut pad v.natAbs).length := by omega
    unfold tobinPad
    by_cases hp : pad = true
    · rw [if_pos hp, if_neg (by simp; omega)]
      have hlb : lim - 1 < B.length := by omega
      refine wp_bind (wp_bind (wp_bget (List.getElem?_eq_getElem hlb) ?_))
      refine wp_ite (fun h1 => ?_) (fun h1 => ?_)
      · refine wp_if_neg (by simp) ?_
        exact wp_pure (fin' (u := 1) (by omega) hlt' hB hdr hby)
      · exact wp_pure (fin' hu hlt' hB hdr hby)
    · rw [if_neg hp]
      exact wp_bind (wp_pure (fin' hu hlt' hB hdr hby))

end Imath
