import Verif.Proof.Basic

/-! # Addition and subtraction -/

namespace Imath

variable {env : Env} {E : Fault → Prop} {m : Mem} {s : Id → Option Cell} {σ : Id → Option Int}
  {z a b c : Id} {A B C : Cell} {x y w v : Int}

theorem MAX_eq (a b : Nat) : MAX a b = max a b := by
  unfold MAX; split <;> omega

theorem Cell.mag_def (C : Cell) : C.mag = Imath.val (C.buf.take C.used) := rfl

theorem addMag_rep {Q : Int → Mem → Prop} (hE : Ref env E) (h : Rep m s)
    (ha : s a = some A) (hb : s b = some B) (hc : s c = some C) (ho : c.own = true)
    (nA : Norm A) (nB : Norm B)
    (hQ : ∀ m' C', Rep m' (upd s c (some C')) → Norm C' → C'.neg = A.neg →
      C'.mag = A.mag + B.mag → Q MP_OK m') :
    wp env E (addMag a b c A.used B.used (MAX A.used B.used)) Q m := by
  unfold addMag
  rw [MAX_eq]
  have lA := (h.okl ha).2
  have lB := (h.okl hb).2
  have pA := nA.pos
  have pB := nB.pos
  have uA := nA.le
  have uB := nB.le
  generalize hM : max A.used B.used = M at *
  have hM1 : 1 ≤ M := by omega
  have hM2 : M ≤ MAXD := by omega
  refine wp_bind (s_pad_spec hE h hc ho (by omega) fun m1 C1 h1 g1 l1 => ?_)
  refine wp_if_pos rfl ?_
  obtain ⟨A1, hA1, gA1⟩ := g1.get' hc ha
  obtain ⟨B1, hB1, gB1⟩ := g1.get' hc hb
  have hC1 : upd s c (some C1) c = some C1 := upd_self _ _ _
  refine wp_bind (wp_DIGITS h1 hA1 ?_)
  refine wp_bind (wp_DIGITS h1 hB1 ?_)
  refine wp_bind (wp_DIGITS h1 hC1 ?_)
  have eA : A1.buf.take A.used = A.buf.take A.used := gA1.take uA
  have eB : B1.buf.take B.used = B.buf.take B.used := gB1.take uB
  have lA1 := gA1.len
  have lB1 := gB1.len
  refine wp_bind (s_uadd_spec (xs := A1.buf.take A.used) (ys := B1.buf.take B.used)
    (os := C1.buf.take M) ((h1.at hA1).take _) ((h1.at hB1).take _) ((h1.at hC1).take _)
    (by rw [List.length_take]; omega) (by rw [List.length_take]; omega)
    (by rw [List.length_take]; omega) ((h1.okd hA1).take _) ((h1.okd hB1).take _)
    (fun _ => .inl (Nat.le_refl _)) (fun _ => .inl (Nat.le_refl _)) fun zs w' hlz hdz hw' hv => ?_)
  rw [hM] at hlz hv
  have h2 := h1.write hC1 (k := 0) hdz
  rw [upd_upd] at h2
  have hv' : val zs + 𝔹 ^ M * w' = A.mag + B.mag := by
    rw [hv, eA, eB]; rfl
  refine wp_ite (fun hcar => ?_) (fun hcar => ?_)
  · have hw1 : w' = 1 := by omega
    subst hw1
    rw [u32_of_lt (by omega)]
    refine wp_bind (s_pad_spec hE h2 (upd_self _ _ _) ho (by omega) fun m3 C3 h3 g3 l3 => ?_)
    rw [upd_upd] at h3
    refine wp_if_pos rfl ?_
    refine wp_bind (wp_DIGITS h3 (upd_self _ _ _) ?_)
    refine wp_bind (wp_wrz h3 (upd_self _ _ _) (i := M) (by omega) (by omega) fun m4 h4 => ?_)
    rw [upd_upd] at h4
    refine wp_bind (wp_setUsed h4 (upd_self _ _ _) fun m5 h5 => ?_)
    rw [upd_upd] at h5
    obtain ⟨A5, hA5, e1, e2⟩ := upd_get hc ha { C3 with buf := spliceL C3.buf M [1], used := M + 1 }
    have hAn : A5.neg = A.neg := by
      by_cases hac : a = c
      · rw [(e1 hac).1, (e1 hac).2]
        exact g3.neg.trans g1.neg
      · rw [e2 hac]
    refine wp_bind (wp_SIGN h5 hA5 ?_)
    refine wp_bind (wp_setSign h5 (upd_self _ _ _) fun m6 h6 => ?_)
    rw [upd_upd] at h6
    have htake : C3.buf.take M = zs := by
      have := g3.take (n := M) (by simpa using l1)
      rw [this]
      show (spliceL C1.buf 0 zs).take M = zs
      rw [spliceL_zero_append _ _ (by omega), List.take_append_of_le_length (by omega),
        List.take_of_length_le (by omega)]
    have htop : (spliceL C3.buf M [1])[M]? = some 1 := by
      rw [getElem?_spliceL, List.getElem?_eq_getElem (show M < C3.buf.length from l3)]; simp
    have hlow : (spliceL C3.buf M [1]).take M = zs := by
      rw [← htake]
      apply List.ext_getElem?; intro i
      rw [List.getElem?_take, List.getElem?_take]
      split
      · rw [getElem?_spliceL]
        simp only [if_neg (show ¬ M ≤ i by omega)]; simp
      · rfl
    refine wp_pure (hQ m6 _ h6 ⟨by simp, by simpa using l3, ?_⟩ hAn ?_)
    · intro _
      show (spliceL C3.buf M [1])[M + 1 - 1]? ≠ some 0
      rw [show M + 1 - 1 = M by omega, htop]; simp
    · show val ((spliceL C3.buf M [1]).take (M + 1)) = _
      have hlen : M < (spliceL C3.buf M [1]).length := by rw [length_spliceL]; exact l3
      rw [val_take_succ _ M hlen, hlow]
      rw [List.getElem?_eq_getElem hlen, Option.some.injEq] at htop
      rw [htop]; exact hv'
  · have hw0 : w' = 0 := by omega
    subst hw0
    refine wp_bind (wp_setUsed h2 (upd_self _ _ _) fun m5 h5 => ?_)
    rw [upd_upd] at h5
    obtain ⟨A5, hA5, e1, e2⟩ := upd_get hc ha { C1 with buf := spliceL C1.buf 0 zs, used := M }
    have hAn : A5.neg = A.neg := by
      by_cases hac : a = c
      · rw [(e1 hac).1, (e1 hac).2]
        exact g1.neg
      · rw [e2 hac]
    refine wp_bind (wp_SIGN h5 hA5 ?_)
    refine wp_bind (wp_setSign h5 (upd_self _ _ _) fun m6 h6 => ?_)
    rw [upd_upd] at h6
    have hlow : (spliceL C1.buf 0 zs).take M = zs := by
      rw [spliceL_zero_append _ _ (by omega), List.take_append_of_le_length (by omega),
        List.take_of_length_le (by omega)]
    have hmag : Imath.val ((spliceL C1.buf 0 zs).take M) = A.mag + B.mag := by
      rw [hlow]; omega
    refine wp_pure (hQ m6 _ h6 ⟨hM1, by simpa using l1, ?_⟩ hAn hmag)
    intro h1M hz
    have h1M' : 1 < M := h1M
    have hz' : (spliceL C1.buf 0 zs)[M - 1]? = some 0 := hz
    have hlen : M - 1 < (spliceL C1.buf 0 zs).length := by simp; omega
    have hvs := val_take_succ _ (M - 1) hlen
    rw [show M - 1 + 1 = M by omega, hmag] at hvs
    rw [List.getElem?_eq_getElem hlen, Option.some.injEq] at hz'
    rw [hz'] at hvs
    have hlt := val_lt (((h2.okd (upd_self _ _ _)).take (M - 1)))
    have : ((spliceL C1.buf 0 zs).take (M - 1)).length = M - 1 := by rw [List.length_take]; omega
    simp only at hlt
    rw [this] at hlt
    rw [Nat.mul_zero, Nat.add_zero] at hvs
    rw [← hvs] at hlt
    rcases Nat.le_total A.used B.used with hab | hab
    · have := nB.mag_ge (by omega)
      rw [show B.used = M by omega] at this
      omega
    · have := nA.mag_ge (by omega)
      rw [show A.used = M by omega] at this
      omega

/-- The common tail of the subtraction paths: the digits of `c` are the difference. -/
theorem subTail_rep {osign : M Bool} {Q : Int → Mem → Prop} {C1 : Cell} {zs : List Nat} {u : Nat} {sg : Bool}
    (h : Rep m (upd s c (some { C1 with buf := spliceL C1.buf 0 zs })))
    (hu1 : 1 ≤ u) (hu2 : u ≤ C1.buf.length) (hl : zs.length = u)
    (hos : ∀ m' u', Rep m' (upd s c (some { C1 with buf := spliceL C1.buf 0 zs, used := u' })) →
      ∀ Q' : Bool → Mem → Prop, Q' sg m' → wp env E osign Q' m')
    (hQ : ∀ m' C', Rep m' (upd s c (some C')) → Norm C' → C'.neg = sg → C'.mag = val zs →
      C'.buf = spliceL C1.buf 0 zs → Q MP_OK m') :
    wp env E (do
      setUsed c u
      CLAMP c
      setSign c (← osign)
      pure MP_OK) Q m := by
  refine wp_bind (wp_setUsed h (upd_self _ _ _) fun m1 h1 => ?_)
  rw [upd_upd] at h1
  refine wp_bind (CLAMP_spec h1 (upd_self _ _ _) (by simpa using hu2) fun m2 h2 => ?_)
  rw [upd_upd] at h2
  refine wp_bind (hos m2 _ h2 _ ?_)
  refine wp_bind (wp_setSign h2 (upd_self _ _ _) fun m3 h3 => ?_)
  rw [upd_upd] at h3
  refine wp_pure (hQ m3 _ h3 ?_ rfl ?_ rfl)
  · exact Norm.clamp (C := { C1 with buf := spliceL C1.buf 0 zs }) hu1 (by simpa using hu2)
  · show val ((spliceL C1.buf 0 zs).take (clampLen (spliceL C1.buf 0 zs) u)) = _
    rw [val_take_clampLen _ _ (by simpa using hu2), spliceL_zero_append _ _ (by omega),
      List.take_append_of_le_length (by omega), List.take_of_length_le (by omega)]

theorem addSub_rep {Q : Int → Mem → Prop} (hE : Ref env E) (h : Rep m s)
    (ha : s a = some A) (hb : s b = some B) (hc : s c = some C) (ho : c.own = true)
    (nA : Norm A) (nB : Norm B) (hlt : B.mag < A.mag)
    (hQ : ∀ m' C', Rep m' (upd s c (some C')) → Norm C' → C'.neg = A.neg →
      C'.mag = A.mag - B.mag → Q MP_OK m') :
    wp env E (addSub a b c) Q m := by
  unfold addSub
  have lA := (h.okl ha).2
  have pA := nA.pos
  have uA := nA.le
  have uB := nB.le
  have huab : B.used ≤ A.used := by
    by_contra hcon
    have := nA.lt_of_used nB (h.okd ha) (by omega)
    omega
  refine wp_bind (wp_USED h ha ?_)
  refine wp_bind (s_pad_spec hE h hc ho (by omega) fun m1 C1 h1 g1 l1 => ?_)
  refine wp_if_pos rfl ?_
  obtain ⟨A1, hA1, gA1⟩ := g1.get' hc ha
  obtain ⟨B1, hB1, gB1⟩ := g1.get' hc hb
  have hC1 : upd s c (some C1) c = some C1 := upd_self _ _ _
  refine wp_bind (wp_DIGITS h1 hA1 ?_)
  refine wp_bind (wp_DIGITS h1 hB1 ?_)
  refine wp_bind (wp_DIGITS h1 hC1 ?_)
  refine wp_bind (wp_USED h1 hA1 ?_)
  refine wp_bind (wp_USED h1 hB1 ?_)
  rw [gA1.used, gB1.used]
  have eA : A1.buf.take A.used = A.buf.take A.used := gA1.take uA
  have eB : B1.buf.take B.used = B.buf.take B.used := gB1.take uB
  have lA1 := gA1.len
  have lB1 := gB1.len
  refine wp_bind (s_usub_spec (xs := A1.buf.take A.used) (ys := B1.buf.take B.used)
    (os := C1.buf.take A.used) ((h1.at hA1).take _) ((h1.at hB1).take _) ((h1.at hC1).take _)
    (by rw [List.length_take]; omega) (by rw [List.length_take]; omega)
    (by rw [List.length_take]; omega) huab ((h1.okd hA1).take _) ((h1.okd hB1).take _)
    (fun _ => .inl (Nat.le_refl _)) (fun _ => .inl (Nat.le_refl _)) ?_ fun zs hlz hdz hv => ?_)
  · rw [eA, eB]; exact Nat.le_of_lt hlt
  have h2 := h1.write hC1 (k := 0) hdz
  rw [upd_upd] at h2
  obtain ⟨A5, hA5, e1, e2⟩ := upd_get hc ha { C1 with buf := spliceL C1.buf 0 zs }
  have hAu : A5.used = A.used := by
    by_cases hac : a = c
    · rw [(e1 hac).1, (e1 hac).2]; exact g1.used
    · rw [e2 hac]
  refine wp_bind (wp_USED h2 hA5 ?_)
  rw [hAu]
  refine subTail_rep (osign := MP_SIGN a) (sg := A.neg) h2 pA l1 hlz ?_ ?_
  · intro m' u' hr' Q' hQ'
    obtain ⟨A6, hA6, e1, e2⟩ := upd_get hc ha { C1 with buf := spliceL C1.buf 0 zs, used := u' }
    refine wp_SIGN hr' hA6 ?_
    have : A6.neg = A.neg := by
      by_cases hac : a = c
      · rw [(e1 hac).1, (e1 hac).2]; exact g1.neg
      · rw [e2 hac]
    rwa [this]
  · intro m' C' h1 h2 h3 h4 _
    refine hQ m' C' h1 h2 h3 ?_
    rw [h4]
    rw [eA, eB] at hv
    show val zs = val (A.buf.take A.used) - val (B.buf.take B.used)
    omega

theorem subSub_rep {Q : Int → Mem → Prop} {sg : Bool} (h : Rep m s)
    (ha : s a = some A) (hb : s b = some B) (hc : s c = some C)
    (nA : Norm A) (nB : Norm B) (hle : B.mag ≤ A.mag) (hl : A.used ≤ C.buf.length)
    (hQ : ∀ m' C', Rep m' (upd s c (some C')) → Norm C' → C'.neg = sg →
      C'.mag = A.mag - B.mag → C'.buf.length = C.buf.length →
      (∀ i, A.used ≤ i → C'.buf[i]? = C.buf[i]?) → Q MP_OK m') :
    wp env E (subSub a b c sg) Q m := by
  unfold subSub
  have pA := nA.pos
  have uA := nA.le
  have uB := nB.le
  have huab : B.used ≤ A.used := by
    by_contra hcon
    have := nA.lt_of_used nB (h.okd ha) (by omega)
    omega
  refine wp_bind (wp_DIGITS h ha ?_)
  refine wp_bind (wp_DIGITS h hb ?_)
  refine wp_bind (wp_DIGITS h hc ?_)
  refine wp_bind (wp_USED h ha ?_)
  refine wp_bind (wp_USED h hb ?_)
  refine wp_bind (s_usub_spec (xs := A.buf.take A.used) (ys := B.buf.take B.used)
    (os := C.buf.take A.used) ((h.at ha).take _) ((h.at hb).take _) ((h.at hc).take _)
    (by rw [List.length_take]; omega) (by rw [List.length_take]; omega)
    (by rw [List.length_take]; omega) huab ((h.okd ha).take _) ((h.okd hb).take _)
    (fun _ => .inl (Nat.le_refl _)) (fun _ => .inl (Nat.le_refl _)) hle fun zs hlz hdz hv => ?_)
  have h2 := h.write hc (k := 0) hdz
  obtain ⟨A5, hA5, e1, e2⟩ := upd_get hc ha { C with buf := spliceL C.buf 0 zs }
  have hAu : A5.used = A.used := by
    by_cases hac : a = c
    · rw [(e1 hac).1, (e1 hac).2]
    · rw [e2 hac]
  refine wp_bind (wp_USED h2 hA5 ?_)
  rw [hAu]
  have := subTail_rep (env := env) (E := E) (osign := pure sg) (sg := sg) (Q := Q) h2 pA hl hlz
    (fun m' u' _ Q' hQ' => wp_pure hQ') ?_
  · exact this
  · intro m' C' h1 h2 h3 h4 h5
    refine hQ m' C' h1 h2 h3 ?_ (by rw [h5]; simp) fun i hi => ?_
    · rw [h4]
      show val zs = val (A.buf.take A.used) - val (B.buf.take B.used)
      omega
    · have e0 : zs[i]? = none := List.getElem?_eq_none (by omega)
      rw [h5, getElem?_spliceL]; simp [e0]

theorem Norm.goodOf {C : Cell} (h : Norm C) {v : Int} (hv : v = sval C.neg C.mag)
    (hn : C.neg = true → C.mag ≠ 0) : Good C v := ⟨h, hn, hv⟩

theorem mp_int_add_spec {Q : Int → Mem → Prop} (hE : Ref env E) (h : R2 m σ)
    (ha : σ a = some x) (hb : σ b = some y) (hc : σ c = some w) (ho : c.own = true)
    (hQ : ∀ m', R2 m' (upd σ c (some (x + y))) → Q MP_OK m') :
    wp env E (mp_int_add a b c) Q m := by
  have h0 := h
  obtain ⟨s, hr, hg⟩ := h
  obtain ⟨A, hA, gA⟩ := hg.get ha
  obtain ⟨B, hB, gB⟩ := hg.get hb
  obtain ⟨C, hC, gC⟩ := hg.get hc
  have vA := gA.val
  have vB := gB.val
  have sA := gA.sign
  have sB := gB.sign
  unfold mp_int_add
  refine wp_bind (wp_USED hr hA ?_)
  refine wp_bind (wp_USED hr hB ?_)
  refine wp_bind (wp_SIGN hr hA ?_)
  refine wp_bind (wp_SIGN hr hB ?_)
  refine wp_ite (fun hs => ?_) (fun hs => ?_)
  · refine addMag_rep hE hr hA hB hC ho gA.norm gB.norm fun m' C' h1 h2 h3 h4 =>
      hQ m' ⟨_, h1, hg.upd (h2.goodOf ?_ ?_)⟩
    · rw [h3, h4, vA, vB, ← hs]; unfold sval; split <;> push_cast <;> ring
    · rw [h3, h4]; intro hn; have := sA hn; omega
  · refine wp_bind (s_ucmp_norm hr hA hB gA.norm gB.norm ?_)
    rw [cmpN_eq]
    refine wp_ite (fun hz => ?_) (fun hz => ?_)
    · refine wp_bind (mp_int_zero_spec h0 hc fun m' h' => wp_pure (hQ m' ?_))
      have hxy : x + y = 0 := by
        rw [vA, vB]
        have hmm : A.mag = B.mag := by
          by_contra hne
          split at hz
          · omega
          · omega
        rw [hmm]
        unfold sval
        cases hAn : A.neg <;> cases hBn : B.neg <;> simp_all
      rwa [hxy]
    · refine wp_ite (fun hlt => ?_) (fun hge => ?_)
      · have hlt' : A.mag < B.mag := by
          by_contra hcon
          rw [if_neg hcon] at hlt
          split at hlt <;> omega
        refine addSub_rep hE hr hB hA hC ho gB.norm gA.norm hlt' fun m' C' h1 h2 h3 h4 =>
          hQ m' ⟨_, h1, hg.upd (h2.goodOf ?_ ?_)⟩
        · rw [h3, h4, vA, vB]
          unfold sval
          cases hAn : A.neg <;> cases hBn : B.neg <;> simp_all <;> omega
        · rw [h4]; omega
      · have hlt' : B.mag < A.mag := by
          by_contra hcon
          split at hge
          · omega
          · split at hz
            · omega
            · split at hz <;> omega
        refine addSub_rep hE hr hA hB hC ho gA.norm gB.norm hlt' fun m' C' h1 h2 h3 h4 =>
          hQ m' ⟨_, h1, hg.upd (h2.goodOf ?_ ?_)⟩
        · rw [h3, h4, vA, vB]
          unfold sval
          cases hAn : A.neg <;> cases hBn : B.neg <;> simp_all <;> omega
        · rw [h4]; omega

theorem mp_int_sub_spec {Q : Int → Mem → Prop} (hE : Ref env E) (h : R2 m σ)
    (ha : σ a = some x) (hb : σ b = some y) (hc : σ c = some w) (ho : c.own = true)
    (hQ : ∀ m', R2 m' (upd σ c (some (x - y))) → Q MP_OK m') :
    wp env E (mp_int_sub a b c) Q m := by
  have h0 := h
  obtain ⟨s, hr, hg⟩ := h
  obtain ⟨A, hA, gA⟩ := hg.get ha
  obtain ⟨B, hB, gB⟩ := hg.get hb
  obtain ⟨C, hC, gC⟩ := hg.get hc
  have vA := gA.val
  have vB := gB.val
  have sA := gA.sign
  have sB := gB.sign
  unfold mp_int_sub
  refine wp_bind (wp_USED hr hA ?_)
  refine wp_bind (wp_USED hr hB ?_)
  refine wp_bind (wp_SIGN hr hA ?_)
  refine wp_bind (wp_SIGN hr hB ?_)
  refine wp_ite (fun hs => ?_) (fun hs => ?_)
  · refine addMag_rep hE hr hA hB hC ho gA.norm gB.norm fun m' C' h1 h2 h3 h4 =>
      hQ m' ⟨_, h1, hg.upd (h2.goodOf ?_ ?_)⟩
    · rw [h3, h4, vA, vB]
      unfold sval
      cases hAn : A.neg <;> cases hBn : B.neg <;> simp_all
      omega
    · rw [h3, h4]; intro hn; have := sA hn; omega
  · rw [MAX_eq]
    have lA := (hr.okl hA).2
    have lB := (hr.okl hB).2
    have uA := gA.norm.le
    have uB := gB.norm.le
    have hs' : A.neg = B.neg := by simpa using hs
    refine wp_bind (s_pad_spec hE hr hC ho (by omega) fun m1 C1 h1 g1 l1 => ?_)
    refine wp_if_pos rfl ?_
    obtain ⟨A1, hA1, gA1⟩ := g1.get' hC hA
    obtain ⟨B1, hB1, gB1⟩ := g1.get' hC hB
    have hC1 : upd s c (some C1) c = some C1 := upd_self _ _ _
    have nA1 := gA.norm.grow gA1
    have nB1 := gB.norm.grow gB1
    have mA1 := gA1.mag gA.norm.le
    have mB1 := gB1.mag gB.norm.le
    refine wp_bind (s_ucmp_norm h1 hA1 hB1 nA1 nB1 ?_)
    refine wp_bind (wp_SIGN h1 hA1 ?_)
    rw [gA1.neg, cmpN_eq, mA1, mB1]
    refine wp_ite (fun hge => ?_) (fun hlt => ?_)
    · have hle : B.mag ≤ A.mag := by
        by_contra hcon
        rw [if_pos (by omega)] at hge; omega
      refine subSub_rep h1 hA1 hB1 hC1 nA1 nB1 (by omega) (by rw [gA1.used]; omega) fun m' C' h1 h2 h3 h4 _ _ =>
        hQ m' ⟨_, by rw [upd_upd] at h1; exact h1, hg.upd (h2.goodOf ?_ ?_)⟩
      · rw [h3, h4, vA, vB, mA1, mB1]
        rcases Nat.eq_or_lt_of_le hle with he | hl
        · simp [he, hs', sval]
        · have e : (if A.mag < B.mag then (-1 : Int) else if A.mag = B.mag then 0 else 1) = 1 := by
            rw [if_neg (by omega), if_neg (by omega)]
          rw [e]
          unfold sval
          rw [← hs']; cases A.neg <;> simp <;> omega
      · rw [h3, h4, mA1, mB1]
        rcases Nat.eq_or_lt_of_le hle with he | hl
        · simp [he]
        · intro _; omega
    · have hlt' : A.mag < B.mag := by
        by_contra hcon
        rw [if_neg hcon] at hlt
        split at hlt <;> omega
      refine subSub_rep h1 hB1 hA1 hC1 nB1 nA1 (by omega) (by rw [gB1.used]; omega) fun m' C' h1 h2 h3 h4 _ _ =>
        hQ m' ⟨_, by rw [upd_upd] at h1; exact h1, hg.upd (h2.goodOf ?_ ?_)⟩
      · rw [h3, h4, vA, vB, mA1, mB1, if_pos hlt']
        unfold sval
        rw [← hs']; cases A.neg <;> simp <;> omega
      · rw [h4, mA1, mB1]; intro _; omega

theorem withFake_op {f : Id → M Int} {Q : Int → Mem → Prop} {r : Int}
    (hv1 : SMALL_MIN < v) (hv2 : v ≤ SMALL_MAX) (h : R2 m σ) (hc : σ c = some w)
    (hf : ∀ t m' Q', t ≠ c → σ t = none → R2 m' (upd σ t (some v)) →
      (∀ m'', R2 m'' (upd (upd σ t (some v)) c (some r)) → Q' MP_OK m'') → wp env E (f t) Q' m')
    (hQ : ∀ m', R2 m' (upd σ c (some r)) → Q MP_OK m') :
    wp env E (withFake v f) Q m := by
  refine withFake_spec hv1 hv2 h fun t m1 ht ho h1 => ?_
  have htc := ne_of_none ht hc
  refine hf t m1 _ htc ht h1 fun m2 h2 => ?_
  refine ⟨_, v, h2, by rw [upd_ne _ _ htc, upd_self], fun m3 h3 => hQ m3 ?_⟩
  rwa [upd_tmp _ ht htc] at h3

theorem mp_int_add_value_spec {Q : Int → Mem → Prop} (hE : Ref env E)
    (hv1 : SMALL_MIN < v) (hv2 : v ≤ SMALL_MAX) (h : R2 m σ)
    (ha : σ a = some x) (hc : σ c = some w) (ho : c.own = true)
    (hQ : ∀ m', R2 m' (upd σ c (some (x + v))) → Q MP_OK m') :
    wp env E (mp_int_add_value a v c) Q m := by
  refine withFake_op hv1 hv2 h hc (fun t m' Q' htc ht h1 hQ' => ?_) hQ
  exact mp_int_add_spec hE h1 (by rw [upd_ne _ _ (Ne.symm (ne_of_none ht ha))]; exact ha) (upd_self _ _ _)
    (by rw [upd_ne _ _ (Ne.symm htc)]; exact hc) ho hQ'

theorem mp_int_sub_value_spec {Q : Int → Mem → Prop} (hE : Ref env E)
    (hv1 : SMALL_MIN < v) (hv2 : v ≤ SMALL_MAX) (h : R2 m σ)
    (ha : σ a = some x) (hc : σ c = some w) (ho : c.own = true)
    (hQ : ∀ m', R2 m' (upd σ c (some (x - v))) → Q MP_OK m') :
    wp env E (mp_int_sub_value a v c) Q m := by
  refine withFake_op hv1 hv2 h hc (fun t m' Q' htc ht h1 hQ' => ?_) hQ
  exact mp_int_sub_spec hE h1 (by rw [upd_ne _ _ (Ne.symm (ne_of_none ht ha))]; exact ha) (upd_self _ _ _)
    (by rw [upd_ne _ _ (Ne.symm htc)]; exact hc) ho hQ'

theorem mp_int_set_value_spec {Q : Int → Mem → Prop} (hE : Ref env E)
    (hv1 : SMALL_MIN < v) (hv2 : v ≤ SMALL_MAX) (h : R2 m σ)
    (hc : σ c = some w) (ho : c.own = true)
    (hQ : ∀ m', R2 m' (upd σ c (some v)) → Q MP_OK m') :
    wp env E (mp_int_set_value c v) Q m := by
  refine withFake_op hv1 hv2 h hc (fun t m' Q' htc ht h1 hQ' => ?_) hQ
  exact mp_int_copy_spec hE h1 (upd_self _ _ _) (by rw [upd_ne _ _ (Ne.symm htc)]; exact hc) ho hQ'

theorem mp_int_set_uvalue_spec {Q : Int → Mem → Prop} {uv : Nat} (hE : Ref env E)
    (huv : uv < 18446744073709551616) (h : R2 m σ) (hc : σ c = some w) (ho : c.own = true)
    (hQ : ∀ m', R2 m' (upd σ c (some (uv : Int))) → Q MP_OK m') :
    wp env E (mp_int_set_uvalue c uv) Q m := by
  refine withUFake_spec huv h fun t m1 ht hto h1 => ?_
  have htc := ne_of_none ht hc
  refine mp_int_copy_spec hE h1 (upd_self _ _ _) (by rw [upd_ne _ _ (Ne.symm htc)]; exact hc) ho fun m2 h2 => ?_
  refine ⟨_, (uv : Int), h2, by rw [upd_ne _ _ htc, upd_self], fun m3 h3 => hQ m3 ?_⟩
  rwa [upd_tmp _ ht htc] at h3

end Imath
