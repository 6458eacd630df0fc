import Verif.Proof.Init

/-! # Multiplication and squaring -/

namespace Imath

variable {env : Env} {E : Fault → Prop} {m : Mem} {s : Id → Option Cell} {σ : Id → Option Int}
  {z a b c : Id} {A B C : Cell} {x y w v : Int}

theorem wp_DIGITS_raw {Q : Ptr → Mem → Prop} (hz : m.int z = some C.mpz) (hQ : Q C.ptr m) :
    wp env E (MP_DIGITS z) Q m := wp_bind (wp_getI hz (wp_pure hQ))

theorem wp_USED_raw {Q : Nat → Mem → Prop} (hz : m.int z = some C.mpz) (hQ : Q C.used m) :
    wp env E (MP_USED z) Q m := wp_bind (wp_getI hz (wp_pure hQ))

theorem val_spliceL_replicate (ps : List Nat) (l : List Nat) (n : Nat) (h1 : ps.length ≤ n) (h2 : n ≤ l.length) :
    val ((spliceL (spliceL l 0 (List.replicate n 0)) 0 ps).take n) = val ps := by
  have hr : (List.replicate n 0).length ≤ l.length := by simpa using h2
  rw [spliceL_zero_append _ _ hr, spliceL_zero_append _ _ (by simp; omega)]
  rw [List.drop_append_of_le_length (by simpa using h1), List.drop_replicate, ← List.append_assoc,
    List.take_append_of_le_length (by simp; omega), List.take_of_length_le (by simp; omega),
    val_append, val_replicate_zero]
  simp

/-- The end of `installOut`: set `used`, clamp, set the sign. -/
theorem install_tail {D : Cell} {osize : Nat} {osign : Bool} {Q : Int → Mem → Prop}
    (h : Rep m (upd s c (some D))) (h1 : 1 ≤ osize) (h2 : osize ≤ D.buf.length)
    (hQ : ∀ m' C', Rep m' (upd s c (some C')) → Norm C' → C'.neg = osign →
      C'.mag = val (D.buf.take osize) → C'.buf = D.buf → Q MP_OK m') :
    wp env E (do
      setUsed c osize
      CLAMP c
      setSign c osign
      pure MP_OK) Q m := by
  refine wp_bind (wp_setUsed h (upd_self _ _ _) fun m1 r1 => ?_)
  rw [upd_upd] at r1
  refine wp_bind (CLAMP_spec r1 (upd_self _ _ _) h2 fun m2 r2 => ?_)
  rw [upd_upd] at r2
  refine wp_bind (wp_setSign r2 (upd_self _ _ _) fun m3 r3 => ?_)
  rw [upd_upd] at r3
  refine wp_pure (hQ m3 _ r3 (Norm.clamp (C := D) h1 h2) rfl ?_ rfl)
  exact val_take_clampLen _ _ h2

/-- Multiplication into a buffer chosen by `outBuf`. -/
theorem mulOut_rep {al : Bool} {osize P : Nat} {osign : Bool} {F : Ptr × Nat → M Int}
    {Q : Int → Mem → Prop}
    (hE : Ref env E) (h : Rep m s) (hc : s c = some C) (ho : c.own = true)
    (h1 : 1 ≤ osize) (h2 : osize < 1073741824)
    (hF : ∀ out p m',
      (∀ y D, s y = some D → (al = true ∨ y ≠ c) → m'.int y = some D.mpz ∧ At m' D.ptr D.buf ∧ D.base ≠ out.base) →
      At m' out (List.replicate osize 0) → Fresh m' → 8 ≤ m'.mulThr →
      (∀ ps n', ps.length ≤ osize → Dig ps → val ps = P → m'.next ≤ n' →
        wp env E (installOut c out p osize osign) Q ((m'.splice out ps).bump n')) → wp env E (F (out, p)) Q m')
    (hQ : ∀ m' C', Rep m' (upd s c (some C')) → Norm C' → C'.neg = osign → C'.mag = P → Q MP_OK m') :
    wp env E (do
      let x ← outBuf al c osize
      ZERO x.1 osize
      F x) Q m := by
  unfold outBuf
  cases al with
  | false =>
    refine wp_bind (wp_if_neg (by simp) ?_)
    refine wp_bind (s_pad_spec hE h hc ho (by omega) fun m1 C1 r1 g1 l1 => ?_)
    refine wp_bind (wp_DIGITS r1 (upd_self _ _ _) ?_)
    refine wp_pure ?_
    refine wp_bind (ZERO_spec (os := C1.buf.take osize) ((r1.at (upd_self _ _ _)).take _)
      (by rw [List.length_take]; omega) h2 ?_)
    have r2 := r1.write (upd_self _ _ _) (k := 0) (zs := List.replicate osize 0) (Dig_replicate_zero _)
    rw [upd_upd] at r2
    generalize hm2 : m1.splice C1.ptr (List.replicate osize 0) = m2
    have hm2' : m1.splice (C1.ptr.add 0) (List.replicate osize 0) = m2 := hm2
    rw [hm2'] at r2
    refine hF C1.ptr 0 m2 ?_ ?_ r2.freshH r2.thr fun ps n' hl hd hv hn => ?_
    · intro y D hy hne
      have hne : y ≠ c := by simpa using hne
      have hy' : ∀ D', upd s c (some D') y = some D := fun D' => by rw [upd_ne _ _ hne]; exact hy
      refine ⟨r2.int (hy' _), r2.at (hy' _), ?_⟩
      intro hb
      exact hne (r2.inj (hy' _) (upd_self _ _ _) hb)
    · have := (r2.at (upd_self _ _ _)).take osize
      have he : (spliceL C1.buf 0 (List.replicate osize 0)).take osize = List.replicate osize 0 := by
        rw [spliceL_zero_append _ _ (by simpa using l1), List.take_append_of_le_length (by simp),
          List.take_of_length_le (by simp)]
      simp only at this
      rw [he] at this
      exact this
    · have r3 := (r2.write (upd_self _ _ _) (k := 0) hd).bump (n := n') hn
      rw [upd_upd] at r3
      unfold installOut
      refine wp_bind (wp_DIGITS r3 (upd_self _ _ _) ?_)
      refine wp_bind (wp_cwhen (fun hne => absurd rfl hne) fun _ => ?_)
      refine install_tail r3 h1 (by simpa using l1) fun m' C' q1 q2 q3 q4 _ => hQ m' C' q1 q2 q3 ?_
      rw [q4]
      show val ((spliceL (spliceL C1.buf 0 (List.replicate osize 0)) 0 ps).take osize) = P
      rw [val_spliceL_replicate _ _ _ hl l1, hv]
  | true =>
    refine wp_bind (wp_if_pos rfl ?_)
    refine wp_bind (wp_getMem ?_)
    rw [MAX_eq, s_round_prec_eq (by omega)]
    generalize hp : max (2 * ((osize + 1) / 2)) m.defPrec = p
    refine wp_bind (wp_mallocD hE fun l hll hdl hn => ?_)
    refine wp_pure ?_
    have hfresh := h.freshH m.next (Nat.le_refl _)
    generalize hm1 : (m.setDig (.heap m.next) (some l)).bump (m.next + 1) = m1
    have hat1 : At m1 ⟨.heap m.next, 0⟩ l := by rw [← hm1]; exact At_alloc _ _ _ _
    refine wp_bind (ZERO_spec (os := l.take osize) (hat1.take _) (by rw [List.length_take]; omega) h2 ?_)
    generalize hm2 : m1.splice ⟨.heap m.next, 0⟩ (List.replicate osize 0) = m2
    have dig2 : ∀ b, m2.dig b = if b = .heap m.next then some (spliceL l 0 (List.replicate osize 0)) else m.dig b := by
      intro b
      rw [← hm2, ← hm1]
      simp only [Mem.splice, Mem.bump, Mem.setDig]
      by_cases hb : b = .heap m.next <;> simp [hb]
    have int2 : m2.int = m.int := by rw [← hm2, ← hm1]; rfl
    have next2 : m2.next = m.next + 1 := by rw [← hm2, ← hm1]; rfl
    have prec2 : m2.defPrec = m.defPrec := by rw [← hm2, ← hm1]; rfl
    have thr2 : m2.mulThr = m.mulThr := by rw [← hm2, ← hm1]; rfl
    refine hF ⟨.heap m.next, 0⟩ p m2 ?_ ?_ ?_ (by rw [thr2]; exact h.thr) fun ps n' hl hd hv hn => ?_
    · intro y D hy _
      have hb := h.base_ne hy hfresh
      refine ⟨by rw [int2]; exact h.int hy, ?_, hb⟩
      intro i x hi
      simp [Mem.get, Cell.ptr, dig2, hb, h.dig hy, hi]
    · intro i x hi
      have : (spliceL l 0 (List.replicate osize 0))[i]? = some x := by
        rw [spliceL_zero_append _ _ (by simp; omega), List.getElem?_append_left]
        · exact hi
        · exact (List.getElem?_eq_some_iff.1 hi).1
      simp [Mem.get, dig2, this]
    · intro k hk
      rw [dig2, if_neg (by simp; omega)]
      exact h.freshH k (by omega)
    · generalize hm3 : (m2.splice ⟨.heap m.next, 0⟩ ps).bump n' = m3
      have dig3 : ∀ b, m3.dig b = if b = .heap m.next then
          some (spliceL (spliceL l 0 (List.replicate osize 0)) 0 ps) else m.dig b := by
        intro b
        rw [← hm3]
        simp only [Mem.splice, Mem.bump, dig2]
        by_cases hb : b = .heap m.next <;> simp [hb]
      have int3 : m3.int = m.int := by rw [← hm3]; exact int2
      have next3 : m3.next = n' := by rw [← hm3]; rfl
      have prec3 : m3.defPrec = m.defPrec := by rw [← hm3]; exact prec2
      have thr3 : m3.mulThr = m.mulThr := by rw [← hm3]; exact thr2
      generalize hlf : spliceL (spliceL l 0 (List.replicate osize 0)) 0 ps = lf at *
      have hlfl : lf.length = p := by rw [← hlf]; simpa using hll
      have hdlf : Dig lf := by
        rw [← hlf, spliceL_zero_append _ _ (by simp; omega), spliceL_zero_append _ _ (by simp; omega)]
        refine Dig_append.2 ⟨hd, Dig.drop ?_ _⟩
        exact Dig_append.2 ⟨Dig_replicate_zero _, hdl.drop _⟩
      unfold installOut
      have ic : m3.int c = some C.mpz := by rw [int3]; exact h.int hc
      refine wp_bind (wp_DIGITS_raw ic ?_)
      have hbC := h.base_ne hc hfresh
      have newB : ∀ m4, (∀ y, m4.int y = (m.setInt c (some ⟨some ⟨.heap m.next, 0⟩, p, C.used, C.neg⟩)).int y) →
          (∀ b, m4.dig b = if b = .heap m.next then some lf else
            if b.isHeap = true ∧ b = C.base then none else m.dig b) → m4.next = n' →
          m4.defPrec = m.defPrec → m4.mulThr = m.mulThr →
          wp env E (do
            setUsed c osize
            CLAMP c
            setSign c osign
            pure MP_OK) Q m4 := by
        intro m4 q1 q2 q3 q4 q5
        have r4 := h.newBlock (m' := m4) (k := m.next) (u := C.used) (n := C.neg) (l := lf) hc ho hdlf
          (by omega) (by rw [hlfl]; exact q1) q2 hfresh (by omega) (by omega) q4 q5
        refine install_tail r4 h1 (by simp only; omega) fun m' C' q1 q2 q3 q4 _ => hQ m' C' q1 q2 q3 ?_
        rw [q4, ← hlf]
        show val ((spliceL (spliceL l 0 (List.replicate osize 0)) 0 ps).take osize) = P
        rw [val_spliceL_replicate _ _ _ hl (by omega), hv]
      refine wp_bind (wp_cwhen (fun _ => ?_) fun hne => ?_)
      · rcases okBase_own ho (h.kind hc) with hb | ⟨k, hb⟩
        · refine wp_bind (wp_cwhen (fun hne => absurd (by simp [Cell.ptr, singlePtr, hb]) hne) fun _ => ?_)
          refine wp_bind (wp_setDigits ic ?_)
          refine wp_setAlloc (setInt_int_self _ _ _) ?_
          refine newB _ ?_ ?_ next3 prec3 thr3
          · intro y
            simp only [setInt_setInt]
            simp only [Mem.setInt, int3]; rfl
          · intro b
            show m3.dig b = _
            rw [dig3]
            by_cases hbb : b = .heap m.next
            · simp [hbb]
            · rw [if_neg hbb, if_neg hbb, if_neg]
              rintro ⟨q1, q2⟩; rw [q2, hb] at q1; simp [Base.isHeap] at q1
        · refine wp_bind (wp_cwhen (fun _ => ?_) fun hne => absurd (by simp [Cell.ptr, singlePtr, hb]) hne)
          have hkn : k ≠ m.next := by rintro rfl; exact hbC hb
          have hptr : C.ptr = ⟨.heap k, 0⟩ := by rw [Cell.ptr, hb]
          rw [hptr]
          refine wp_freeD (l := C.buf) ?_ ?_
          · rw [dig3, if_neg (by simp [hkn]), ← hb]; exact h.dig hc
          refine wp_bind (wp_setDigits (Z := C.mpz) ic ?_)
          refine wp_setAlloc (setInt_int_self _ _ _) ?_
          refine newB _ ?_ ?_ next3 prec3 thr3
          · intro y
            simp only [setInt_setInt]
            simp only [Mem.setInt, Mem.setDig, int3]; rfl
          · intro b
            show (if b = .heap k then none else m3.dig b) = _
            rw [dig3]
            by_cases hbb : b = .heap m.next
            · rw [if_neg (by rw [hbb]; simp [Ne.symm hkn])]; simp [hbb]
            · rw [if_neg hbb, if_neg hbb]
              by_cases hbk : b = .heap k
              · rw [if_pos hbk, if_pos ⟨by rw [hbk]; rfl, by rw [hbk, hb]⟩]
              · rw [if_neg hbk, if_neg]
                rintro ⟨_, q2⟩; exact hbk (q2.trans hb)
      · exfalso
        have : (⟨.heap m.next, 0⟩ : Ptr) = C.ptr := by simpa using hne
        exact hbC (congrArg Ptr.base this).symm

theorem Good.sval_ne {v : Int} (h : Good C v) (hv : v ≠ 0) : C.mag ≠ 0 := by
  have := h.natAbs; omega

theorem mp_int_mul_spec {Q : Int → Mem → Prop} (hE : Ref env E) (h : R2 m σ)
    (ha : σ a = some x) (hb : σ b = some y) (hc : σ c = some w) (ho : c.own = true)
    (hQ : ∀ m', R2 m' (upd σ c (some (x * y))) → Q MP_OK m') :
    wp env E (mp_int_mul a b c) Q m := by
  unfold mp_int_mul
  refine wp_bind (mp_int_compare_zero_spec h ha ?_)
  have hzero : ∀ {v : Int}, v.sign = 0 → v = 0 := fun h => Int.sign_eq_zero_iff_zero.1 h
  have hz0 : x * y = 0 → wp env E (do mp_int_zero c; pure MP_OK) Q m := by
    intro h0
    refine wp_bind (mp_int_zero_spec h hc fun m' h' => wp_pure (hQ m' ?_))
    rwa [h0]
  refine wp_bind (wp_cif (fun hx => wp_pure ?_) (fun hx => mp_int_compare_zero_spec h hb ?_))
  · exact wp_if_pos rfl (hz0 (by rw [hzero hx]; simp))
  refine wp_ite (fun hy => hz0 (by rw [hzero hy]; simp)) (fun hy => ?_)
  obtain ⟨s, hr, hg⟩ := h
  obtain ⟨A, hA, gA⟩ := hg.get ha
  obtain ⟨B, hB, gB⟩ := hg.get hb
  obtain ⟨C, hC, gC⟩ := hg.get hc
  have uA := gA.norm.le
  have uB := gB.norm.le
  have pA := gA.norm.pos
  have pB := gB.norm.pos
  have lA := (hr.okl hA).2
  have lB := (hr.okl hB).2
  refine wp_bind (wp_SIGN hr hA ?_)
  refine wp_bind (wp_SIGN hr hB ?_)
  refine wp_bind (wp_USED hr hA ?_)
  refine wp_bind (wp_USED hr hB ?_)
  rw [MAX_eq]
  have hos : u32 (4 * (u32 (max A.used B.used + 1) / 2)) = kext (max A.used B.used) := by
    unfold u32 kext; omega
  simp only [hos]
  have hk1 : A.used + B.used ≤ kext (max A.used B.used) := by unfold kext; omega
  have hk2 : kext (max A.used B.used) < 1073741824 := by unfold kext; omega
  have hx0 : x ≠ 0 := fun h0 => hx (by rw [h0]; rfl)
  have hy0 : y ≠ 0 := fun h0 => hy (by rw [h0]; rfl)
  have mA := gA.sval_ne hx0
  have mB := gB.sval_ne hy0
  refine mulOut_rep (P := A.mag * B.mag) (osign := if A.neg = B.neg then false else true) hE hr hC ho (by omega) hk2 ?_ fun m' C' q1 q2 q3 q4 => hQ m' ⟨_, q1, hg.upd (q2.goodOf ?_ ?_)⟩
  · intro out p m' k1 k2 k3 k4 k5
    obtain ⟨iA, atA, bA⟩ := k1 a A hA (by by_cases hca : c = a <;> simp [hca, Ne.symm])
    obtain ⟨iB, atB, bB⟩ := k1 b B hB (by by_cases hca : c = b <;> simp [hca, Ne.symm])
    refine wp_bind (wp_DIGITS_raw iA ?_)
    refine wp_bind (wp_DIGITS_raw iB ?_)
    refine wp_bind (s_kmul_simple (xs := A.buf.take A.used) (ys := B.buf.take B.used)
      (os := List.replicate (kext (max A.used B.used) - (A.used + B.used)) 0) hE
      { hx := atA.take _, hy := atB.take _, ho := ?_, lx := by rw [List.length_take]; omega,
        ly := by rw [List.length_take]; omega, lo := by simp; omega, dx := (hr.okd hA).take _,
        dy := (hr.okd hB).take _, dos := Dig_replicate_zero _, hda := .inl bA, hdb := .inl bB,
        fresh := k3, thr := k4, na1 := pA, nb1 := pB, na2 := by omega, nb2 := by omega } ?_ ?_)
    · rw [← List.replicate_add, show A.used + B.used + (kext (max A.used B.used) - (A.used + B.used)) = kext (max A.used B.used) by omega]
      exact k2
    · intro i hi
      rw [List.getElem?_replicate, if_pos]
      unfold kext; omega
    · intro ps n' l1 l2 l3 l4
      exact wp_if_neg (by simp) (k5 ps n' (by omega) l2 l3 l4)
  · rw [q3, q4, gA.val, gB.val]
    unfold sval
    cases hAn : A.neg <;> cases hBn : B.neg <;> simp
  · intro _; rw [q4]; exact Nat.mul_ne_zero mA mB

theorem mp_int_mul_value_spec {Q : Int → Mem → Prop} (hE : Ref env E)
    (hv1 : SMALL_MIN < v) (hv2 : v ≤ SMALL_MAX) (h : R2 m σ)
    (ha : σ a = some x) (hc : σ c = some w) (ho : c.own = true)
    (hQ : ∀ m', R2 m' (upd σ c (some (x * v))) → Q MP_OK m') :
    wp env E (mp_int_mul_value a v c) Q m := by
  refine withFake_op hv1 hv2 h hc (fun t m' Q' htc ht h1 hQ' => ?_) hQ
  exact mp_int_mul_spec hE h1 (by rw [upd_ne _ _ (Ne.symm (ne_of_none ht ha))]; exact ha) (upd_self _ _ _)
    (by rw [upd_ne _ _ (Ne.symm htc)]; exact hc) ho hQ'

theorem mp_int_sqr_spec {Q : Int → Mem → Prop} (hE : Ref env E) (h : R2 m σ)
    (ha : σ a = some x) (hc : σ c = some w) (ho : c.own = true)
    (hQ : ∀ m', R2 m' (upd σ c (some (x * x))) → Q MP_OK m') :
    wp env E (mp_int_sqr a c) Q m := by
  unfold mp_int_sqr
  obtain ⟨s, hr, hg⟩ := h
  obtain ⟨A, hA, gA⟩ := hg.get ha
  obtain ⟨C, hC, gC⟩ := hg.get hc
  have uA := gA.norm.le
  have pA := gA.norm.pos
  have lA := (hr.okl hA).2
  refine wp_bind (wp_USED hr hA ?_)
  have hos : u32 (4 * (u32 (A.used + 1) / 2)) = kext A.used := by
    unfold u32 kext; omega
  simp only [hos]
  have hk1 : 2 * A.used ≤ kext A.used := by unfold kext; omega
  have hk2 : kext A.used < 1073741824 := by unfold kext; omega
  refine mulOut_rep (P := A.mag * A.mag) (osign := false) hE hr hC ho (by omega) hk2 ?_ fun m' C' q1 q2 q3 q4 => hQ m' ⟨_, q1, hg.upd (q2.goodOf ?_ ?_)⟩
  · intro out p m' k1 k2 k3 k4 k5
    obtain ⟨iA, atA, bA⟩ := k1 a A hA (by by_cases hca : a = c <;> simp [hca])
    refine wp_bind (wp_DIGITS_raw iA ?_)
    refine wp_bind (wp_USED_raw iA ?_)
    refine wp_bind (s_ksqr_spec (xs := A.buf.take A.used)
      (os := List.replicate (kext A.used - (2 * A.used)) 0) hE
      { hx := atA.take _, ho := ?_, lx := by rw [List.length_take]; omega,
        lo := by simp; omega, dx := (hr.okd hA).take _,
        dos := Dig_replicate_zero _, hda := .inl bA,
        fresh := k3, thr := k4, na1 := pA, na2 := by omega } ?_)
    · rw [← List.replicate_add, show 2 * A.used + (kext A.used - 2 * A.used) = kext A.used by omega]
      exact k2
    · intro ps n' l1 l2 l3 l4
      exact k5 ps n' (by omega) l2 l3 l4
  · rw [q3, q4, gA.val]
    unfold sval
    cases hAn : A.neg <;> simp
  · rw [q3]; simp

end Imath
