import Verif.Proof.ConvProps

/-!
# What the functions for output do with too short an array
-/

namespace Imath

variable {env : Env} {E : Fault → Prop} {m : Mem} {σ : Id → Option Int} {z : Id} {v : Int}

theorem wp_bset_ub {s : Bytes} {i x : Nat} {Q : Bytes → Mem → Prop} (h : s.length ≤ i) (hu : E .ub) : wp env E (bset s i x) Q m := by
  refine wp_fault (f := .ub) ?_ hu
  unfold bset
  rw [if_neg (by omega)]

theorem toStrLoop_fault {t : Id} {r : Nat} (hr2 : 2 ≤ r) (hr : r ≤ 36) (hu : E .ub) :
    ∀ (n : Nat) {m : Mem} {s : Id → Option Cell} {C : Cell} {cmp : Int} {P R : Bytes} {Q : Int × Bytes × Nat → Mem → Prop},
    Rep m s → s t = some C → Norm C → R.length < min n (Nat.digits r C.mag).length →
    wp env E (toStrLoop t r n cmp (P ++ R) P.length) Q m := by
  intro n
  induction n with
  | zero =>
    intro m s C cmp P R Q h ht nC hl
    omega
  | succ n ih =>
    intro m s C cmp P R Q h ht nC hl
    unfold toStrLoop
    refine wp_bind (CMPZ_norm h ht nC ?_)
    by_cases h0 : C.mag = 0
    · rw [h0] at hl; simp at hl
    · rw [if_neg h0]
      refine wp_if_neg (by split <;> simp) ?_
      have hdg : Nat.digits r C.mag = C.mag % r :: Nat.digits r (C.mag / r) :=
        Nat.digits_def' (by omega) (by omega)
      rw [hdg] at hl
      have hur : u32 r = r := u32_of_lt (by omega)
      rw [hur]
      refine wp_bind (s_ddiv_rep h ht nC (by omega) (by omega) fun m1 C1 h1 n1 _ _ v1 => ?_)
      rcases R with _ | ⟨y, R'⟩
      · exact wp_bind (wp_bset_ub (by simp) hu)
      · refine wp_bind (wp_bset (by simp) ?_)
        rw [set_append_len, s_val2ch_eq (by have := Nat.mod_lt C.mag (show r > 0 by omega); omega)]
        have hlen : P.length + 1 = (P ++ [digitChar (C.mag % r)]).length := by simp
        rw [hlen]
        refine ih h1 (upd_self _ _ _) n1 ?_
        rw [v1]; simp at hl; omega

theorem mp_int_to_string_fault {Q : Int × Bytes → Mem → Prop} {r : Nat} {str : Bytes} {limit : Int} (hE : Ref env E) (hu : E .ub)
    (hr2 : 2 ≤ r) (hr : r ≤ 36) (hlim : 2 ≤ limit)
    (hbuf : (str.length : Int) ≤ min limit ((numeral r v).length : Int)) (h : R2 m σ) (hz : σ z = some v) :
    wp env E (mp_int_to_string z r str limit) Q m := by
  unfold mp_int_to_string
  refine wp_bind (wp_cassert (decide_eq_true (by omega)) ?_)
  refine wp_bind (wp_cassert (decide_eq_true ⟨hr2, hr⟩) ?_)
  refine wp_bind (CMPZ_spec h hz ?_)
  by_cases hv : v = 0
  · subst hv
    refine wp_if_pos Int.sign_zero ?_
    have hn : numeral r 0 = [48] := by simp [numeral, numeralN]
    rw [hn] at hbuf
    simp only [List.length_cons, List.length_nil] at hbuf
    rcases str with _ | ⟨x, _ | ⟨y, str⟩⟩
    · exact wp_bind (wp_bset_ub (by simp) hu)
    · refine wp_bind (wp_bset (by simp) ?_)
      exact wp_bind (wp_bset_ub (by simp) hu)
    · simp at hbuf; omega
  · refine wp_if_neg (by rwa [Int.sign_eq_zero_iff_zero]) ?_
    obtain ⟨s, hrp, hg⟩ := h
    obtain ⟨C, hC, gC⟩ := hg.get hz
    refine withLocal_rep hrp fun t m1 hst hown hd h1 => ?_
    refine mp_int_init_copy_rep hE h1 hd hst hC gC.norm fun m2 T h2 hT => ⟨rfl, ?_⟩
    have hzt : z ≠ t := fun he => by rw [he, hst] at hC; simp at hC
    refine wp_bind (wp_SIGN h2 (by rw [upd_ne _ _ hzt]; exact hC) ?_)
    have hmag : T.mag = v.natAbs := by rw [hT.mag, gC.natAbs]
    have hnn : numeralN r v.natAbs = ((Nat.digits r v.natAbs).map digitChar).reverse := by
      unfold numeralN; rw [if_neg (by omega)]
    obtain ⟨P, hP, hPl⟩ : ∃ P : Bytes, P = (if v < 0 then [45] else []) ∧ P.length = if C.neg then 1 else 0 := by
      refine ⟨_, rfl, ?_⟩
      rw [gC.neg_eq]; by_cases hv0 : v < 0 <;> simp [hv0]
    have hnum : numeral r v = P ++ ((Nat.digits r v.natAbs).map digitChar).reverse := by
      unfold numeral; rw [hnn, hP]
    have hnl : (numeral r v).length = P.length + (Nat.digits r v.natAbs).length := by rw [hnum]; simp
    have hPle : P.length ≤ 1 := by rw [hPl]; split <;> omega
    rw [hnl] at hbuf
    generalize hD : Nat.digits r v.natAbs = D at *
    -- there is not even room for the sign
    by_cases hs0 : str.length < P.length
    · have hn1 : C.neg = true := by
        by_contra hn
        rw [if_neg hn] at hPl; omega
      rw [hn1] at hPl ⊢
      simp only [if_true] at hPl
      refine wp_bind (wp_cif (fun _ => wp_bset_ub (by omega) hu) fun hn => absurd rfl hn)
    obtain ⟨y, R, hstr, hlR⟩ : ∃ y R, str = y ++ R ∧ y.length = P.length :=
      ⟨str.take P.length, str.drop P.length, by simp, by rw [List.length_take]; omega⟩
    have key : wp env E (cif (C.neg = true) (bset str 0 45) (pure str)) (fun str' m' => str' = P ++ R ∧ m' = m2) m2 := by
      refine wp_cif (fun hn => ?_) (fun hn => wp_pure ?_)
      · rw [gC.neg_eq] at hn
        have hv0 : v < 0 := by simpa using hn
        rw [if_pos hv0] at hP
        subst hP
        obtain ⟨y0, rfl⟩ := List.length_eq_one_iff.1 hlR
        refine wp_bset (by rw [hstr]; simp) ?_
        rw [hstr]; simp
      · have hv0 : ¬ v < 0 := by rw [gC.neg_eq] at hn; simpa using hn
        rw [if_neg hv0] at hP
        subst hP
        have := List.eq_nil_of_length_eq_zero hlR
        rw [hstr, this]; simp
    refine wp_bind (wp_mono key ?_)
    rintro str' m' ⟨rfl, rfl⟩
    have hsl : str.length = P.length + R.length := by rw [hstr]; simp [hlR]
    simp only [← hPl]
    obtain ⟨n, hnn'⟩ : ∃ n, (limit - (P.length : Int)).toNat = n := ⟨_, rfl⟩
    rw [hnn']
    have hRle : R.length ≤ min n D.length := by omega
    rcases Nat.lt_or_ge R.length (min n D.length) with hlt | hge
    · refine wp_bind (toStrLoop_fault hr2 hr hu n h2 (upd_self _ _ _) (hT.norm gC.norm) ?_)
      rw [hmag, hD]; exact hlt
    · refine wp_bind (toStrLoop_spec hr2 hr n h2 (upd_self _ _ _) (hT.norm gC.norm) ?_ fun m3 C3 cmp' h3 hc => ?_)
      · rw [hmag, hD]; exact hge
      rw [hmag, hD]
      obtain ⟨X, hX⟩ : ∃ X, X = (D.take n).map digitChar := ⟨_, rfl⟩
      have hXl : X.length = min n D.length := by rw [hX]; simp
      rw [← hX, ← hXl]
      refine wp_bind (revLoop_spec (P.length + X.length) (by omega) ?_)
      exact wp_bind (wp_bset_ub (by simp; omega) hu)

theorem tobinByte_fault {Q : Bool × Bytes × Nat → Mem → Prop} {uz limit : Nat} (hu : E .ub) : ∀ (i : Nat) {d : Nat} {P R : Bytes},
    P.length + R.length < min limit (P.length + (emit uz i d).length) →
    wp env E (tobinByte uz limit i d (P ++ R) P.length) Q m := by
  intro i
  induction i with
  | zero =>
    intro d P R hR
    simp [emit] at hR
  | succ i ih =>
    intro d P R hR
    unfold tobinByte
    refine wp_if_pos (by omega) ?_
    rcases R with _ | ⟨y, R⟩
    · exact wp_bind (wp_bset_ub (by simp) hu)
    · refine wp_bind (wp_bset (by simp) ?_)
      rw [set_append_len]
      have hu : u8 d = d % 256 := rfl
      have hs : d >>> 8 = d / 256 := by rw [Nat.shiftRight_eq_div_pow]
      rw [hu]
      show wp env E (if d >>> 8 = 0 ∧ uz = 1 then pure (false, P ++ [d % 256] ++ R, P.length + 1)
        else tobinByte uz limit i (d >>> 8) (P ++ [d % 256] ++ R) (P.length + 1)) Q m
      rw [hs]
      refine wp_ite (fun hc => ?_) (fun hc => ?_)
      · have he : emit uz (i + 1) d = [d % 256] := by simp only [emit]; rw [if_pos hc]
        rw [he] at hR
        simp at hR
      · have he : emit uz (i + 1) d = d % 256 :: emit uz i (d / 256) := by simp only [emit]; rw [if_neg hc]
        rw [he] at hR
        rw [show P.length + 1 = (P ++ [d % 256]).length by simp]
        exact ih (by simp at hR ⊢; omega)

theorem tobinDigits_fault {limit : Nat} (hu : E .ub) : ∀ (ds : List Nat) {dz : Ptr} {P R : Bytes}
    {Q : Nat × Bytes × Nat → Mem → Prop}, At m dz ds → P.length + R.length < min limit (P.length + (tobL ds).length) →
    wp env E (tobinDigits limit ds.length dz (P ++ R) P.length) Q m := by
  intro ds
  induction ds with
  | nil =>
    intro dz P R Q hat hR
    simp [tobL] at hR
  | cons d ds ih =>
    intro dz P R Q hat hR
    rw [List.length_cons]
    unfold tobinDigits
    simp only [tobL, List.length_append] at hR
    refine wp_if_pos (by omega) ?_
    refine wp_bind (wp_rd (x := d) (by simpa using hat 0 d rfl) ?_)
    rcases Nat.lt_or_ge (P.length + R.length) (min limit (P.length + (emit (ds.length + 1) 4 d).length)) with hlt | hge
    · exact wp_bind (tobinByte_fault hu 4 hlt)
    · refine wp_bind (tobinByte_spec 4 (by omega) hge (fun hfull => ?_) (fun R' hlim hR' hdr hby => by omega))
      refine wp_if_neg (by simp) ?_
      have hat' : At m (dz.add 1) ds := by
        intro i x hi
        have := hat (i + 1) x (by simpa using hi)
        simpa [Ptr.add, Nat.add_assoc, Nat.add_comm 1] using this
      generalize hX : emit (ds.length + 1) 4 d = X at *
      have hl : P.length + X.length = (P ++ X).length := by simp
      simp only [hl]
      exact ih hat' (by simp; omega)

theorem s_tobin_fault {Q : Int × Bytes × Nat → Mem → Prop} {buf : Bytes} {limit : Int} {pad : Bool} (hu : E .ub)
    (h : R2 m σ) (hz : σ z = some v)
    (hbuf : (buf.length : Int) < min limit ((tobOut pad v.natAbs).length : Int)) :
    wp env E (s_tobin z buf limit pad) Q m := by
  unfold s_tobin
  obtain ⟨s, hr, hg⟩ := h
  obtain ⟨C, hC, gC⟩ := hg.get hz
  refine wp_bind (wp_USED hr hC ?_)
  refine wp_bind (wp_DIGITS hr hC ?_)
  have hle := gC.norm.le
  have hpos := gC.norm.pos
  obtain ⟨ds, hds⟩ : ∃ ds, ds = C.buf.take C.used := ⟨_, rfl⟩
  have hdl : ds.length = C.used := by rw [hds, List.length_take]; omega
  have hat : At m C.ptr ds := by rw [hds]; exact (hr.at hC).take _
  have hL : tobL ds = leB v.natAbs := by
    rw [gC.natAbs, Cell.mag, ← hds]
    refine tobL_eq ds (by intro h0; rw [h0] at hdl; simp at hdl; omega) (by rw [hds]; exact (hr.okd hC).take _) ?_
    intro h1
    rw [hdl] at h1 ⊢
    rw [hds, List.getElem?_take, if_pos (by omega)]
    exact gC.norm.top h1
  obtain ⟨hl1, hl2⟩ := tobOut_len pad v.natAbs
  obtain ⟨lim, rfl⟩ : ∃ lim : Nat, limit = lim := ⟨limit.toNat, by omega⟩
  rw [Int.toNat_natCast, ← hdl]
  rcases Nat.lt_or_ge buf.length (min lim (leB v.natAbs).length) with hlt | hge
  · exact wp_bind (tobinDigits_fault (P := []) hu ds hat (by rw [hL]; simpa using hlt))
  · have hp : pad = true ∧ 128 ≤ (leB v.natAbs).getLastD 0 := by
      by_contra hp
      have : tobOut pad v.natAbs = leB v.natAbs := if_neg hp
      rw [this] at hbuf; omega
    have ho : tobOut pad v.natAbs = leB v.natAbs ++ [0] := if_pos hp
    rw [ho, List.length_append] at hbuf
    simp only [List.length_cons, List.length_nil] at hbuf
    refine wp_bind (tobinDigits_spec (limit := lim) ds (P := []) (R := buf) hat (by simp) (by rw [hL]; simpa using hge)
      (fun _ => ?_) fun _ _ h1 => by rw [hL] at h1; simp at h1; omega)
    rw [hL]
    refine wp_bind ?_
    unfold tobinPad
    simp only [List.nil_append, List.length_nil, Nat.zero_add]
    refine wp_if_pos hp.1 ?_
    refine wp_if_neg (by omega) ?_
    refine wp_bind (wp_bget (getLast?_idx (leB_ne _) _) ?_)
    have h128 : (leB v.natAbs).getLastD 0 >>> 7 ≠ 0 := by
      rw [Nat.shiftRight_eq_div_pow]; have := hp.2; omega
    refine wp_if_pos h128 (wp_if_pos (by omega) ?_)
    exact wp_bind (wp_bset_ub (by simp; omega) hu)

theorem mp_int_to_binary_fault {Q : Int × Bytes → Mem → Prop} {buf : Bytes} {limit : Int} (hu : E .ub)
    (h : R2 m σ) (hz : σ z = some v) (hbuf : (buf.length : Int) < min limit ((Nat.size v.natAbs / 8 + 1 : Nat) : Int)) :
    wp env E (mp_int_to_binary z buf limit) Q m := by
  unfold mp_int_to_binary
  exact wp_bind (s_tobin_fault hu h hz (by rw [tobOut_true_length]; exact hbuf))

theorem mp_int_to_unsigned_fault {Q : Int × Bytes → Mem → Prop} {buf : Bytes} {limit : Int} (hu : E .ub)
    (h : R2 m σ) (hz : σ z = some v) (hbuf : (buf.length : Int) < min limit ((max 1 ((Nat.size v.natAbs + 7) / 8) : Nat) : Int)) :
    wp env E (mp_int_to_unsigned z buf limit) Q m := by
  unfold mp_int_to_unsigned
  exact wp_bind (s_tobin_fault hu h hz (by rw [tobOut_false, leB_length]; exact hbuf))

end Imath
