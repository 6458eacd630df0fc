import Verif.Proof.Good

/-! # Copying, signs, comparison -/

namespace Imath

variable {env : Env} {E : Fault → Prop} {m : Mem} {s : Id → Option Cell} {σ : Id → Option Int}
  {z a b c : Id} {A B C : Cell} {x y w v : Int}

/-- `C` holds the digits and the sign of `A`. -/
structure Same (A C : Cell) : Prop where
  used : C.used = A.used
  neg : C.neg = A.neg
  take : C.buf.take A.used = A.buf.take A.used
  le : A.used ≤ C.buf.length

theorem Same.refl (h : A.used ≤ A.buf.length) : Same A A := ⟨rfl, rfl, rfl, h⟩

theorem Same.mag (h : Same A C) : C.mag = A.mag := by unfold Cell.mag; rw [h.used, h.take]

theorem Same.norm (h : Same A C) (hA : Norm A) : Norm C := by
  have h1 := hA.pos
  refine ⟨by rw [h.used]; exact hA.pos, by rw [h.used]; exact h.le, ?_⟩
  rw [h.used]; intro h2
  have h3 := hA.top h2
  have h4 : (C.buf.take A.used)[A.used - 1]? = (A.buf.take A.used)[A.used - 1]? := by rw [h.take]
  rw [List.getElem?_take_of_lt (by omega), List.getElem?_take_of_lt (by omega)] at h4
  rw [h4]; exact h3

theorem Same.good (h : Same A C) (hA : Good A v) : Good C v :=
  ⟨h.norm hA.norm, by rw [h.neg, h.mag]; exact hA.sign, by rw [h.neg, h.mag]; exact hA.val⟩

theorem mp_int_copy_rep {Q : Int → Mem → Prop} (hE : Ref env E) (h : Rep m s)
    (ha : s a = some A) (hc : s c = some C) (ho : c.own = true) (hu : A.used ≤ A.buf.length)
    (hQ : ∀ m' C', Rep m' (upd s c (some C')) → Same A C' → C.buf.length ≤ C'.buf.length →
      Q MP_OK m') :
    wp env E (mp_int_copy a c) Q m := by
  unfold mp_int_copy
  have hl := (h.okl ha).2
  refine wp_ite (fun hne => ?_) (fun heq => ?_)
  · refine wp_bind (wp_USED h ha ?_)
    refine wp_bind (s_pad_spec hE h hc ho (by omega) fun m1 C1 h1 g1 l1 => ?_)
    refine wp_if_pos rfl ?_
    have ha1 : upd s c (some C1) a = some A := by rw [upd_ne _ _ hne]; exact ha
    have hc1 : upd s c (some C1) c = some C1 := upd_self _ _ _
    refine wp_bind (wp_DIGITS h1 ha1 ?_)
    refine wp_bind (wp_DIGITS h1 hc1 ?_)
    have hbne : A.base ≠ C1.base := fun hb => hne (h1.inj ha1 hc1 hb)
    have hlt : (A.buf.take A.used).length = A.used := by rw [List.length_take]; omega
    refine wp_bind (COPY_spec ((h1.at ha1).take A.used) ((h1.at hc1).take A.used) hlt
      (by rw [List.length_take]; omega) (.inl hbne) (by omega) ?_)
    have h2 := h1.write hc1 (k := 0) ((h.okd ha).take A.used)
    rw [upd_upd] at h2
    refine wp_bind (wp_setUsed h2 (upd_self _ _ _) fun m3 h3 => ?_)
    rw [upd_upd] at h3
    refine wp_bind (wp_SIGN h3 (z := a) (C := A) (by rw [upd_ne _ _ hne]; exact ha) ?_)
    refine wp_bind (wp_setSign h3 (upd_self _ _ _) fun m4 h4 => ?_)
    rw [upd_upd] at h4
    refine wp_pure (hQ m4 _ h4 ⟨rfl, rfl, ?_, ?_⟩ ?_)
    · show (spliceL C1.buf 0 (A.buf.take A.used)).take A.used = A.buf.take A.used
      rw [spliceL_zero_append _ _ (by omega), List.take_append_of_le_length (by omega),
        List.take_take, Nat.min_self]
    · simpa using l1
    · simpa using g1.len
  · have : a = c := by simpa using heq
    subst this
    rw [ha] at hc; cases hc
    refine wp_pure (hQ m A ?_ (Same.refl hu) (Nat.le_refl _))
    rw [upd_same _ ha]; exact h

theorem mp_int_copy_spec {Q : Int → Mem → Prop} (hE : Ref env E) (h : R2 m σ)
    (ha : σ a = some x) (hc : σ c = some w) (ho : c.own = true)
    (hQ : ∀ m', R2 m' (upd σ c (some x)) → Q MP_OK m') :
    wp env E (mp_int_copy a c) Q m := by
  obtain ⟨s, hr, hg⟩ := h
  obtain ⟨A, hA, gA⟩ := hg.get ha
  obtain ⟨C, hC, gC⟩ := hg.get hc
  exact mp_int_copy_rep hE hr hA hC ho gA.norm.le fun m' C' h1 h2 _ =>
    hQ m' ⟨_, h1, hg.upd (h2.good gA)⟩

theorem mp_int_zero_rep {Q : Unit → Mem → Prop} (h : Rep m s) (hc : s c = some C)
    (hQ : ∀ m' C', Rep m' (upd s c (some C')) → Good C' 0 → C'.buf.length = C.buf.length →
      C'.buf = spliceL C.buf 0 [0] → Q () m') :
    wp env E (mp_int_zero c) Q m := by
  unfold mp_int_zero
  have hl := (h.okl hc).1
  refine wp_bind (wp_DIGITS h hc ?_)
  refine wp_bind (wp_wrz h hc (i := 0) (by omega) (by decide) fun m1 h1 => ?_)
  refine wp_bind (wp_setUsed h1 (upd_self _ _ _) fun m2 h2 => ?_)
  rw [upd_upd] at h2
  refine wp_setSign h2 (upd_self _ _ _) fun m3 h3 => ?_
  rw [upd_upd] at h3
  have hz : val ((spliceL C.buf 0 [0]).take 1) = 0 := by
    rw [spliceL_zero_append _ _ (by simp; omega)]; simp
  refine hQ m3 _ h3 ⟨⟨Nat.le_refl _, by simpa using hl, by simp⟩, by simp, ?_⟩ (by simp) rfl
  simp only [Cell.mag, hz, sval]; rfl

theorem mp_int_zero_spec {Q : Unit → Mem → Prop} (h : R2 m σ) (hc : σ c = some w)
    (hQ : ∀ m', R2 m' (upd σ c (some 0)) → Q () m') : wp env E (mp_int_zero c) Q m := by
  obtain ⟨s, hr, hg⟩ := h
  obtain ⟨C, hC, gC⟩ := hg.get hc
  exact mp_int_zero_rep hr hC fun m' C' h1 h2 _ _ => hQ m' ⟨_, h1, hg.upd h2⟩

theorem Good.abs {v : Int} (h : Good C v) : Good { C with neg := false } |v| := by
  refine ⟨⟨h.norm.pos, h.norm.le, h.norm.top⟩, by simp, ?_⟩
  have := h.natAbs
  show _ = sval false C.mag
  rw [← this]; simp [sval]

/-- Setting the sign of a normalised cell. -/
theorem Norm.good (h : Norm C) (n : Bool) (hn : n = true → C.mag ≠ 0) :
    Good { C with neg := n } (sval n C.mag) :=
  ⟨⟨h.pos, h.le, h.top⟩, hn, rfl⟩

theorem mp_int_abs_spec {Q : Int → Mem → Prop} (hE : Ref env E) (h : R2 m σ)
    (ha : σ a = some x) (hc : σ c = some w) (ho : c.own = true)
    (hQ : ∀ m', R2 m' (upd σ c (some |x|)) → Q MP_OK m') :
    wp env E (mp_int_abs a c) Q m := by
  unfold mp_int_abs
  refine wp_bind (mp_int_copy_spec hE h ha hc ho fun m1 h1 => ?_)
  refine wp_if_neg (by simp) ?_
  obtain ⟨s, hr, hg⟩ := h1
  obtain ⟨C, hC, gC⟩ := hg.get (upd_self _ _ _)
  refine wp_bind (wp_setSign hr hC fun m2 h2 => ?_)
  refine wp_pure (hQ m2 ⟨_, h2, ?_⟩)
  have := hg.upd (z := c) gC.abs
  rwa [upd_upd] at this

theorem CMPZ_spec {Q : Int → Mem → Prop} (h : R2 m σ) (hz : σ z = some v)
    (hQ : Q v.sign m) : wp env E (CMPZ z) Q m := by
  obtain ⟨s, hr, hg⟩ := h
  obtain ⟨C, hC, gC⟩ := hg.get hz
  refine CMPZ_norm hr hC gC.norm ?_
  have h1 := gC.natAbs
  have h2 := gC.neg_iff
  have : v.sign = if C.mag = 0 then 0 else if C.neg = true then -1 else 1 := by
    rcases lt_trichotomy v 0 with hv | hv | hv
    · rw [Int.sign_eq_neg_one_of_neg hv, if_neg (by omega), if_pos (h2.2 hv)]
    · subst hv; rw [if_pos (by omega)]; rfl
    · rw [Int.sign_eq_one_of_pos hv, if_neg (by omega), if_neg]
      intro hn; have := h2.1 hn; omega
  rwa [this] at hQ

theorem mp_int_compare_zero_spec {Q : Int → Mem → Prop} (h : R2 m σ) (hz : σ z = some v)
    (hQ : Q v.sign m) : wp env E (mp_int_compare_zero z) Q m := by
  have := CMPZ_spec (env := env) (E := E) (Q := Q) h hz hQ
  exact this

theorem MP_SIGN_spec {Q : Bool → Mem → Prop} (h : R2 m σ) (hz : σ z = some v)
    (hQ : Q (decide (v < 0)) m) : wp env E (MP_SIGN z) Q m := by
  obtain ⟨s, hr, hg⟩ := h
  obtain ⟨C, hC, gC⟩ := hg.get hz
  refine wp_SIGN hr hC ?_
  rwa [gC.neg_eq]

/-- Number of digits of a magnitude. -/
theorem MP_USED_spec {Q : Nat → Mem → Prop} (h : R2 m σ) (hz : σ z = some v)
    (hQ : ∀ u, 1 ≤ u → u ≤ MAXD → v.natAbs < 𝔹 ^ u → (1 < u → 𝔹 ^ (u - 1) ≤ v.natAbs) → Q u m) :
    wp env E (MP_USED z) Q m := by
  obtain ⟨s, hr, hg⟩ := h
  obtain ⟨C, hC, gC⟩ := hg.get hz
  refine wp_USED hr hC (hQ _ gC.norm.pos (Nat.le_trans gC.norm.le (hr.okl hC).2) ?_ ?_)
  · rw [gC.natAbs]; exact mag_lt (hr.okd hC) gC.norm.le
  · rw [gC.natAbs]; exact gC.norm.mag_ge

/-- Changing the sign of a nonzero integer or clearing the sign. -/
theorem setSign_spec {Q : Unit → Mem → Prop} {n : Bool} (h : R2 m σ) (hz : σ z = some v)
    (hn : n = true → v ≠ 0) (hQ : ∀ m', R2 m' (upd σ z (some (sval n v.natAbs))) → Q () m') :
    wp env E (setSign z n) Q m := by
  obtain ⟨s, hr, hg⟩ := h
  obtain ⟨C, hC, gC⟩ := hg.get hz
  refine wp_setSign hr hC fun m1 h1 => hQ m1 ⟨_, h1, hg.upd ?_⟩
  rw [gC.natAbs]
  exact gC.norm.good n (fun h => by have := hn h; have := gC.natAbs; omega)

theorem mp_int_neg_spec {Q : Int → Mem → Prop} (hE : Ref env E) (h : R2 m σ)
    (ha : σ a = some x) (hc : σ c = some w) (ho : c.own = true)
    (hQ : ∀ m', R2 m' (upd σ c (some (-x))) → Q MP_OK m') :
    wp env E (mp_int_neg a c) Q m := by
  unfold mp_int_neg
  refine wp_bind (mp_int_copy_spec hE h ha hc ho fun m1 h1 => ?_)
  refine wp_if_neg (by simp) ?_
  have hc1 : upd σ c (some x) c = some x := upd_self _ _ _
  refine wp_bind (CMPZ_spec h1 hc1 ?_)
  refine wp_bind (wp_cwhen (fun hne => ?_) (fun heq => ?_))
  · have hx0 : x ≠ 0 := fun h => hne (by rw [h]; rfl)
    have ha1 : upd σ c (some x) a = some x := by
      by_cases hac : a = c
      · rw [hac]; exact hc1
      · rw [upd_ne _ _ hac]; exact ha
    refine wp_bind (MP_SIGN_spec h1 ha1 ?_)
    refine setSign_spec h1 hc1 (fun _ => hx0) fun m2 h2 => ?_
    rw [upd_upd] at h2
    refine wp_pure (hQ m2 ?_)
    have : sval (!decide (x < 0)) x.natAbs = -x := by
      unfold sval
      by_cases hx : x < 0
      · simp [hx, abs_of_neg hx]
      · simp [hx, abs_of_nonneg (not_lt.1 hx)]
    rwa [this] at h2
  · have hx0 : x = 0 := by simpa using heq
    subst hx0
    exact wp_pure (hQ m1 (by simpa using h1))

/-! ### Comparison -/

/-- -1, 0 or 1 -/
def cmpZ (x y : Int) : Int := if x < y then -1 else if x = y then 0 else 1

theorem cmpN_natAbs (x y : Int) : cmpN x.natAbs y.natAbs = cmpZ |x| |y| := by
  rw [cmpN_eq]; unfold cmpZ
  have h1 : (x.natAbs : Int) = |x| := Int.natCast_natAbs x
  have h2 : (y.natAbs : Int) = |y| := Int.natCast_natAbs y
  split <;> split <;> (try split) <;> (try split) <;> omega

theorem s_ucmp_spec {Q : Int → Mem → Prop} (h : R2 m σ) (ha : σ a = some x) (hb : σ b = some y)
    (hQ : Q (cmpZ |x| |y|) m) : wp env E (s_ucmp a b) Q m := by
  obtain ⟨s, hr, hg⟩ := h
  obtain ⟨A, hA, gA⟩ := hg.get ha
  obtain ⟨B, hB, gB⟩ := hg.get hb
  refine s_ucmp_norm hr hA hB gA.norm gB.norm ?_
  rwa [← gA.natAbs, ← gB.natAbs, cmpN_natAbs]

theorem mp_int_compare_spec {Q : Int → Mem → Prop} (h : R2 m σ) (ha : σ a = some x) (hb : σ b = some y)
    (hQ : Q (cmpZ x y) m) : wp env E (mp_int_compare a b) Q m := by
  unfold mp_int_compare
  refine wp_bind (MP_SIGN_spec h ha ?_)
  refine wp_bind (MP_SIGN_spec h hb ?_)
  refine wp_ite (fun heq => ?_) (fun hne => ?_)
  · refine wp_bind (s_ucmp_spec h ha hb ?_)
    refine wp_ite (fun hs => wp_pure ?_) (fun hs => wp_pure ?_)
    · convert hQ using 1
      unfold cmpZ
      simp at hs heq
      have hy := heq.1 hs
      rw [abs_of_neg hs, abs_of_neg hy]
      split <;> split <;> (try split) <;> (try split) <;> omega
    · convert hQ using 1
      simp only [decide_eq_decide] at heq
      simp at hs
      have hy : ¬ y < 0 := fun h => by have := heq.2 h; omega
      rw [abs_of_nonneg hs, abs_of_nonneg (by omega)]
  · simp only [decide_eq_decide] at hne
    refine wp_ite (fun hs => wp_pure ?_) (fun hs => wp_pure ?_)
    · simp at hs
      convert hQ using 1
      unfold cmpZ
      rw [if_pos]
      have : ¬ y < 0 := fun h => hne ⟨fun _ => h, fun _ => hs⟩
      omega
    · simp at hs
      convert hQ using 1
      unfold cmpZ
      have : y < 0 := by
        by_contra h'
        exact hne ⟨fun h => by omega, fun h => absurd h h'⟩
      rw [if_neg (by omega), if_neg (by omega)]

theorem mp_int_compare_unsigned_spec {Q : Int → Mem → Prop} (h : R2 m σ) (ha : σ a = some x)
    (hb : σ b = some y) (hQ : Q (cmpZ |x| |y|) m) : wp env E (mp_int_compare_unsigned a b) Q m :=
  s_ucmp_spec h ha hb hQ

theorem s_uvcmp_spec {Q : Int → Mem → Prop} {uv : Nat} (huv : uv < 18446744073709551616) (h : R2 m σ)
    (ha : σ a = some x) (hQ : ∀ m', R2 m' σ → Q (cmpZ |x| uv) m') : wp env E (s_uvcmp a uv) Q m := by
  unfold s_uvcmp
  refine withUFake_spec huv h fun t m1 ht ho h1 => ?_
  have hta := ne_of_none ht ha
  refine s_ucmp_spec h1 (x := x) (y := uv) (by rw [upd_ne _ _ (Ne.symm hta)]; exact ha) (upd_self _ _ _) ?_
  refine ⟨_, _, h1, upd_self _ _ _, fun m3 h3 => ?_⟩
  rw [upd_tmp0 _ ht] at h3
  have := hQ m3 h3
  rwa [abs_of_nonneg (Int.natCast_nonneg uv)]

theorem s_vcmp_spec {Q : Int → Mem → Prop} (hv1 : SMALL_MIN ≤ v) (hv2 : v ≤ SMALL_MAX) (h : R2 m σ)
    (ha : σ a = some x) (hQ : ∀ m', R2 m' σ → Q (cmpZ |x| |v|) m') : wp env E (s_vcmp a v) Q m := by
  unfold s_vcmp
  have : (if v < 0 then sub64 0 (v % 18446744073709551616).toNat else v.toNat) = v.natAbs := by
    split
    · unfold sub64 u64; omega
    · omega
  rw [this]
  refine s_uvcmp_spec (by omega) h ha fun m' h' => ?_
  have := hQ m' h'
  rwa [Int.natCast_natAbs]

theorem mp_int_compare_value_spec {Q : Int → Mem → Prop} (hv1 : SMALL_MIN ≤ v) (hv2 : v ≤ SMALL_MAX)
    (h : R2 m σ) (ha : σ a = some x) (hQ : ∀ m', R2 m' σ → Q (cmpZ x v) m') :
    wp env E (mp_int_compare_value a v) Q m := by
  unfold mp_int_compare_value
  refine wp_bind (MP_SIGN_spec h ha ?_)
  refine wp_ite (fun heq => ?_) (fun hne => ?_)
  · simp only [decide_eq_decide] at heq
    refine wp_bind (s_vcmp_spec hv1 hv2 h ha fun m1 h1 => ?_)
    refine wp_ite (fun hs => wp_pure ?_) (fun hs => wp_pure ?_)
    · simp at hs
      convert hQ m1 h1 using 1
      unfold cmpZ
      rw [abs_of_neg hs, abs_of_neg (heq.1 hs)]
      split <;> split <;> (try split) <;> (try split) <;> omega
    · simp at hs
      convert hQ m1 h1 using 1
      rw [abs_of_nonneg hs, abs_of_nonneg]
      by_contra h'
      have := heq.2 (by omega)
      omega
  · simp only [decide_eq_decide] at hne
    refine wp_ite (fun hs => wp_pure ?_) (fun hs => wp_pure ?_)
    · convert hQ m h using 1
      have : ¬ x < 0 := fun h => hne ⟨fun _ => h, fun _ => hs⟩
      unfold cmpZ
      rw [if_neg (by omega), if_neg (by omega)]
    · convert hQ m h using 1
      have : x < 0 := by
        by_contra h'
        exact hne ⟨fun h => absurd h hs, fun h => absurd h h'⟩
      unfold cmpZ
      rw [if_pos (by omega)]

theorem mp_int_compare_uvalue_spec {Q : Int → Mem → Prop} {uv : Nat} (huv : uv < 18446744073709551616)
    (h : R2 m σ) (ha : σ a = some x) (hQ : ∀ m', R2 m' σ → Q (cmpZ x uv) m') :
    wp env E (mp_int_compare_uvalue a uv) Q m := by
  unfold mp_int_compare_uvalue
  refine wp_bind (MP_SIGN_spec h ha ?_)
  refine wp_ite (fun hs => wp_pure ?_) (fun hs => ?_)
  · simp at hs
    convert hQ m h using 1
    unfold cmpZ; rw [if_pos (by omega)]
  · simp at hs
    refine s_uvcmp_spec huv h ha fun m' h' => ?_
    have := hQ m' h'
    rwa [abs_of_nonneg hs]

end Imath
