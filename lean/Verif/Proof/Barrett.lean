import Verif.Proof.Temps

/-! # Kernels of Barrett reduction: `UMUL`, `USQR`, `s_qsub`, subtraction with kept digits -/

namespace Imath

variable {env : Env} {E : Fault → Prop} {m : Mem} {s : Id → Option Cell}
  {z a b c : Id} {A B C : Cell}

/-- Digits of `C` above position `j` that are zero are zero in `C'`. -/
def KeepZ (j : Nat) (C C' : Cell) : Prop := ∀ i, j ≤ i → C.buf[i]? = some 0 → C'.buf[i]? = some 0

theorem UMUL_rep {Q : Unit → Mem → Prop} (hE : Ref env E) (h : Rep m s) (ha : s a = some A) (hb : s b = some B)
    (hc : s c = some C) (hca : c ≠ a) (hcb : c ≠ b) (nA : Norm A) (nB : Norm B)
    (hcap : kext (max A.used B.used) ≤ C.buf.length)
    (hQ : ∀ m' C', Rep m' (upd s c (some C')) → Norm C' → C'.neg = C.neg → C'.buf.length = C.buf.length →
      C'.mag = A.mag * B.mag → KeepZ C'.used C C' → Q () m') :
    wp env E (UMUL a b c) Q m := by
  unfold UMUL
  have pA := nA.pos
  have pB := nB.pos
  have uA := nA.le
  have uB := nB.le
  have lA := (h.okl ha).2
  have lB := (h.okl hb).2
  have lC := (h.okl hc).2
  have hk1 : A.used + B.used ≤ kext (max A.used B.used) := by unfold kext; omega
  refine wp_bind (wp_USED h ha ?_)
  refine wp_bind (wp_USED h hb ?_)
  rw [u32_of_lt (by omega)]
  obtain ⟨o, ho⟩ : ∃ o, o = A.used + B.used := ⟨_, rfl⟩
  rw [← ho] at hk1 ⊢
  refine wp_bind (wp_DIGITS h hc ?_)
  refine wp_bind (ZERO_spec (n := o) ((h.at hc).take o) (by rw [List.length_take]; omega) (by omega) ?_)
  have h1 := h.write hc (k := 0) (Dig_replicate_zero o)
  rw [show C.ptr.add 0 = C.ptr from rfl] at h1
  obtain ⟨C1, eC1⟩ : ∃ C1 : Cell, C1 = { C with buf := spliceL C.buf 0 (List.replicate o 0) } := ⟨_, rfl⟩
  rw [← eC1] at h1
  have hl1 : C1.buf.length = C.buf.length := by rw [eC1]; simp
  have ha1 : upd s c (some C1) a = some A := by rw [upd_ne _ _ (Ne.symm hca)]; exact ha
  have hb1 : upd s c (some C1) b = some B := by rw [upd_ne _ _ (Ne.symm hcb)]; exact hb
  have hc1 : upd s c (some C1) c = some C1 := upd_self _ _ _
  have eb1 : C1.buf = List.replicate o 0 ++ C.buf.drop o := by
    rw [eC1]; simp only; rw [spliceL_zero_append _ _ (by simp; omega)]; simp
  have ep1 : C1.ptr = C.ptr := by rw [eC1]; rfl
  refine wp_bind (wp_DIGITS h1 ha1 ?_)
  refine wp_bind (wp_DIGITS h1 hb1 ?_)
  refine wp_bind (wp_DIGITS h1 hc1 ?_)
  obtain ⟨kx, hkx⟩ : ∃ kx, kx = kext (max A.used B.used) := ⟨_, rfl⟩
  rw [← hkx] at hcap hk1
  obtain ⟨os, eos⟩ : ∃ os, os = (C.buf.drop o).take (kx - o) := ⟨_, rfl⟩
  have los : os.length = kx - o := by rw [eos, List.length_take, List.length_drop]; omega
  have bA : A.ptr.base ≠ C1.ptr.base := fun hh => hca (h1.inj hc1 ha1 hh.symm)
  have bB : B.ptr.base ≠ C1.ptr.base := fun hh => hcb (h1.inj hc1 hb1 hh.symm)
  refine wp_bind (s_kmul_gen (xs := A.buf.take A.used) (ys := B.buf.take B.used) (os := os) hE
      { hx := (h1.at ha1).take _, hy := (h1.at hb1).take _, ho := ?_, lx := by rw [List.length_take]; omega,
        ly := by rw [List.length_take]; omega, lo := by rw [← hkx]; omega, dx := (h.okd ha).take _,
        dy := (h.okd hb).take _, dos := by rw [eos]; exact ((h.okd hc).drop _).take _,
        hda := .inl bA, hdb := .inl bB,
        fresh := h1.freshH, thr := h1.thr, na1 := pA, nb1 := pB, na2 := by omega, nb2 := by omega } ?_)
  · have := (h1.at hc1).take kx
    rw [eb1, List.take_append, List.length_replicate, List.take_of_length_le (by simp; omega), ← eos] at this
    rw [← ho]; exact this
  · intro ps ts n' l1 d1 v1 l2 k1 _ hn
    have dts : Dig ts := by
      intro x hx
      obtain ⟨i, hi, rfl⟩ := List.mem_iff_getElem.1 hx
      have e := k1 i
      rw [List.getElem?_eq_getElem hi] at e
      have dos : Dig os := by rw [eos]; exact ((h.okd hc).drop _).take _
      rcases e with e | e
      · have hi2 : i < os.length := by omega
        rw [List.getElem?_eq_getElem hi2] at e
        rw [Option.some.inj e]; exact dos _ (List.getElem_mem hi2)
      · rw [Option.some.inj e]; decide
    have h2 := (h1.write hc1 (k := 0) (zs := ps ++ ts) (by simp [d1, dts])).bump (n := n') hn
    rw [upd_upd] at h2
    rw [show C1.ptr.add 0 = C1.ptr from rfl] at h2
    have eb2 : spliceL C1.buf 0 (ps ++ ts) = ps ++ (ts ++ C1.buf.drop kx) := by
      rw [spliceL_zero_append _ _ (by rw [List.length_append]; omega), List.append_assoc, List.length_append,
        show ps.length + ts.length = kx by omega]
    rw [eb2] at h2
    refine wp_bind (wp_setUsed h2 (upd_self _ _ _) fun m3 h3 => ?_)
    rw [upd_upd] at h3
    have lb : (ps ++ (ts ++ C1.buf.drop kx)).length = C.buf.length := by
      rw [← eb2]; simpa using hl1
    refine CLAMP_spec h3 (upd_self _ _ _) (by simp only [lb]; omega) fun m4 h4 => ?_
    rw [upd_upd] at h4
    refine hQ m4 _ h4 ?_ (by rw [eC1]) lb ?_ ?_
    · exact Norm.clamp (C := { C1 with buf := ps ++ (ts ++ C1.buf.drop kx) }) (n := C1.neg) (u := o) (by omega) (by simp only [lb]; omega)
    · show val ((ps ++ (ts ++ C1.buf.drop kx)).take (clampLen (ps ++ (ts ++ C1.buf.drop kx)) o)) = _
      rw [val_take_clampLen _ _ (by rw [lb]; omega), List.take_append_of_le_length (by omega),
        List.take_of_length_le (by omega), v1]
      rfl
    · intro i hi hz
      show (ps ++ (ts ++ C1.buf.drop kx))[i]? = some 0
      by_cases hio : i < o
      · exact clampLen_zero hi hio
      · rw [List.getElem?_append_right (by omega)]
        have e0 : C1.buf[i]? = some 0 := by
          rw [eb1, List.getElem?_append_right (by simp; omega), List.getElem?_drop, List.length_replicate,
            show o + (i - o) = i by omega]; exact hz
        by_cases hik : i - ps.length < ts.length
        · rw [List.getElem?_append_left hik]
          rcases k1 (i - ps.length) with e | e
          · rw [e, eos, List.getElem?_take, if_pos (by omega), List.getElem?_drop,
              show o + (i - ps.length) = i by omega]; exact hz
          · exact e
        · rw [List.getElem?_append_right (by omega), List.getElem?_drop,
            show kx + (i - ps.length - ts.length) = i by omega]; exact e0

theorem USQR_rep {Q : Unit → Mem → Prop} (hE : Ref env E) (h : Rep m s) (ha : s a = some A)
    (hc : s c = some C) (hca : c ≠ a) (nA : Norm A)
    (hcap : kext A.used ≤ C.buf.length)
    (hQ : ∀ m' C', Rep m' (upd s c (some C')) → Norm C' → C'.neg = C.neg → C'.buf.length = C.buf.length →
      C'.mag = A.mag * A.mag → KeepZ C'.used C C' → Q () m') :
    wp env E (USQR a c) Q m := by
  unfold USQR
  have pA := nA.pos
  have uA := nA.le
  have lA := (h.okl ha).2
  have lC := (h.okl hc).2
  have hk1 : A.used + A.used ≤ kext A.used := by unfold kext; omega
  refine wp_bind (wp_USED h ha ?_)
  rw [u32_of_lt (by omega)]
  obtain ⟨o, ho⟩ : ∃ o, o = A.used + A.used := ⟨_, rfl⟩
  rw [← ho] at hk1 ⊢
  refine wp_bind (wp_DIGITS h hc ?_)
  refine wp_bind (ZERO_spec (n := o) ((h.at hc).take o) (by rw [List.length_take]; omega) (by omega) ?_)
  have h1 := h.write hc (k := 0) (Dig_replicate_zero o)
  rw [show C.ptr.add 0 = C.ptr from rfl] at h1
  obtain ⟨C1, eC1⟩ : ∃ C1 : Cell, C1 = { C with buf := spliceL C.buf 0 (List.replicate o 0) } := ⟨_, rfl⟩
  rw [← eC1] at h1
  have hl1 : C1.buf.length = C.buf.length := by rw [eC1]; simp
  have ha1 : upd s c (some C1) a = some A := by rw [upd_ne _ _ (Ne.symm hca)]; exact ha
  have hc1 : upd s c (some C1) c = some C1 := upd_self _ _ _
  have eb1 : C1.buf = List.replicate o 0 ++ C.buf.drop o := by
    rw [eC1]; simp only; rw [spliceL_zero_append _ _ (by simp; omega)]; simp
  have ep1 : C1.ptr = C.ptr := by rw [eC1]; rfl
  refine wp_bind (wp_DIGITS h1 ha1 ?_)
  refine wp_bind (wp_DIGITS h1 hc1 ?_)
  obtain ⟨kx, hkx⟩ : ∃ kx, kx = kext A.used := ⟨_, rfl⟩
  rw [← hkx] at hcap hk1
  obtain ⟨os, eos⟩ : ∃ os, os = (C.buf.drop o).take (kx - o) := ⟨_, rfl⟩
  have los : os.length = kx - o := by rw [eos, List.length_take, List.length_drop]; omega
  have bA : A.ptr.base ≠ C1.ptr.base := fun hh => hca (h1.inj hc1 ha1 hh.symm)
  refine wp_bind (s_ksqr_spec (xs := A.buf.take A.used) (os := os) hE
      { hx := (h1.at ha1).take _, ho := ?_, lx := by rw [List.length_take]; omega,
        lo := by rw [← hkx]; omega, dx := (h.okd ha).take _,
        dos := by rw [eos]; exact ((h.okd hc).drop _).take _,
        hda := .inl bA,
        fresh := h1.freshH, thr := h1.thr, na1 := pA, na2 := by omega } ?_)
  · have := (h1.at hc1).take kx
    rw [eb1, List.take_append, List.length_replicate, List.take_of_length_le (by simp; omega), ← eos] at this
    rw [show 2 * A.used = o by omega]; exact this
  · intro ps n' l1 d1 v1 hn
    have h2 := (h1.write hc1 (k := 0) (zs := ps) d1).bump (n := n') hn
    rw [upd_upd] at h2
    rw [show C1.ptr.add 0 = C1.ptr from rfl] at h2
    have eb2 : spliceL C1.buf 0 ps = ps ++ C1.buf.drop o := by
      rw [spliceL_zero_append _ _ (by omega), show ps.length = o by omega]
    rw [eb2] at h2
    refine wp_bind (wp_setUsed h2 (upd_self _ _ _) fun m3 h3 => ?_)
    rw [upd_upd] at h3
    have lb : (ps ++ C1.buf.drop o).length = C.buf.length := by
      rw [← eb2]; simpa using hl1
    refine CLAMP_spec h3 (upd_self _ _ _) (by simp only [lb]; omega) fun m4 h4 => ?_
    rw [upd_upd] at h4
    refine hQ m4 _ h4 ?_ (by rw [eC1]) lb ?_ ?_
    · exact Norm.clamp (C := { C1 with buf := ps ++ C1.buf.drop o }) (n := C1.neg) (u := o) (by omega) (by simp only [lb]; omega)
    · show val ((ps ++ C1.buf.drop o).take (clampLen (ps ++ C1.buf.drop o) o)) = _
      rw [val_take_clampLen _ _ (by rw [lb]; omega), List.take_append_of_le_length (by omega),
        List.take_of_length_le (by omega), v1]
      rfl
    · intro i hi hz
      show (ps ++ C1.buf.drop o)[i]? = some 0
      by_cases hio : i < o
      · exact clampLen_zero hi hio
      · rw [List.getElem?_append_right (by omega), List.getElem?_drop, show o + (i - ps.length) = i by omega,
          eb1, List.getElem?_append_right (by simp; omega), List.getElem?_drop, List.length_replicate,
            show o + (i - o) = i by omega]; exact hz

/-- `x - b` into `x`, both nonnegative: value, and zero digits above both operands stay zero. -/
theorem mp_int_sub_nn {Q : Int → Mem → Prop} (hE : Ref env E) (h : Rep m s) (ha : s a = some A) (hb : s b = some B)
    (ho : a.own = true) (nA : Norm A) (nB : Norm B) (sA : A.neg = false) (sB : B.neg = false)
    (hQ : ∀ m' C', Rep m' (upd s a (some C')) → Norm C' → C'.neg = decide (A.mag < B.mag) →
      (C'.mag : Int) = |(A.mag : Int) - B.mag| → A.buf.length ≤ C'.buf.length →
      KeepZ (max A.used B.used) A C' → Q MP_OK m') :
    wp env E (mp_int_sub a b a) Q m := by
  unfold mp_int_sub
  refine wp_bind (wp_USED h ha ?_)
  refine wp_bind (wp_USED h hb ?_)
  refine wp_bind (wp_SIGN h ha ?_)
  refine wp_bind (wp_SIGN h hb ?_)
  rw [sA, sB]
  refine wp_if_neg (by simp) ?_
  rw [MAX_eq]
  have lA := (h.okl ha).2
  have lB := (h.okl hb).2
  have uA := nA.le
  have uB := nB.le
  refine wp_bind (s_pad_spec hE h ha ho (by omega) fun m1 C1 h1 g1 l1 => ?_)
  refine wp_if_pos rfl ?_
  obtain ⟨A1, hA1, gA1⟩ := g1.get' ha ha
  obtain ⟨B1, hB1, gB1⟩ := g1.get' ha hb
  have hC1 : upd s a (some C1) a = some C1 := upd_self _ _ _
  have eA1 : A1 = C1 := by rw [hC1] at hA1; exact (Option.some.inj hA1).symm
  have nA1 := nA.grow gA1
  have nB1 := nB.grow gB1
  have mA1 := gA1.mag nA.le
  have mB1 := gB1.mag nB.le
  have kz : KeepZ 0 A C1 := by
    intro i _ hz
    have hi : i < A.buf.length := by
      by_contra hcon
      rw [List.getElem?_eq_none (by omega)] at hz; cases hz
    obtain ⟨t, ht⟩ := g1.pre
    rw [← ht, List.getElem?_append_left hi]; exact hz
  refine wp_bind (s_ucmp_norm h1 hA1 hB1 nA1 nB1 ?_)
  refine wp_bind (wp_SIGN h1 hA1 ?_)
  rw [gA1.neg, cmpN_eq, mA1, mB1, sA]
  refine wp_ite (fun hge => ?_) (fun hlt => ?_)
  · have hle : B.mag ≤ A.mag := by
      by_contra hcon
      rw [if_pos (by omega)] at hge; omega
    refine subSub_rep h1 hA1 hB1 hC1 nA1 nB1 (by omega) (by rw [gA1.used]; omega) fun m' C' q1 q2 q3 q4 q5 q6 =>
      hQ m' C' (by rw [upd_upd] at q1; exact q1) q2 ?_ ?_ (by rw [q5]; exact g1.len) fun i hi hz => ?_
    · rw [q3]; simp; exact hle
    · rw [q4, mA1, mB1, abs_of_nonneg (by omega)]; omega
    · rw [q6 i (by rw [gA1.used]; omega)]; exact kz i (Nat.zero_le _) hz
  · have hlt' : A.mag < B.mag := by
      by_contra hcon
      rw [if_neg hcon] at hlt
      split at hlt <;> omega
    refine subSub_rep h1 hB1 hA1 hC1 nB1 nA1 (by omega) (by rw [gB1.used]; omega) fun m' C' q1 q2 q3 q4 q5 q6 =>
      hQ m' C' (by rw [upd_upd] at q1; exact q1) q2 ?_ ?_ (by rw [q5]; exact g1.len) fun i hi hz => ?_
    · rw [q3]; simp [hlt']
    · rw [q4, mA1, mB1, abs_of_neg (by omega)]; omega
    · rw [q6 i (by rw [gB1.used]; omega)]; exact kz i (Nat.zero_le _) hz

theorem s_qsub_rep {Q : Bool → Mem → Prop} {K p2 : Nat} (hE : Ref env E) (h : Rep m s) (hz : s z = some C)
    (ho : z.own = true) (nC : Norm C) (hu : C.used = K) (hp : p2 = K * 32) (h0 : C.mag ≠ 0) (hK : C.buf[K]? = some 0)
    (hQ : ∀ m' C', Rep m' (upd s z (some C')) → Norm C' → C'.neg = false → C'.mag = 𝔹 ^ K - C.mag →
      C.buf.length ≤ C'.buf.length → C'.buf[K]? = some 0 → C'.used ≤ K → Q true m') :
    wp env E (s_qsub z p2) Q m := by
  unfold s_qsub
  have hl := (h.okl hz).2
  have hle := nC.le
  have hpos := nC.pos
  have hKl : K < C.buf.length := by
    by_contra hcon
    rw [List.getElem?_eq_none (by omega)] at hK; cases hK
  have e1 : p2 % 32 = 0 := by omega
  have e2 : p2 / 32 = K := by omega
  rw [e1, e2]
  show wp env E (bind (s_pad z (u32 (K + 1))) _) Q m
  rw [u32_of_lt (show K + 1 < 4294967296 by omega)]
  refine wp_bind (s_pad_spec hE h hz ho (by omega) fun m1 C1 h1 g1 l1 => ?_)
  refine wp_if_pos rfl ?_
  have hz1 := upd_self s z (some C1)
  have hK1 : C1.buf[K]? = some 0 := by
    obtain ⟨t, ht⟩ := g1.pre
    rw [← ht, List.getElem?_append_left hKl]; exact hK
  have m1e := g1.mag hle
  have u1 := g1.used
  have len1 := g1.len
  refine wp_bind (wp_DIGITS h1 hz1 ?_)
  refine wp_bind (qsubLoop_spec (xs := C1.buf.take K) ((h1.at hz1).take K) (by rw [List.length_take]; omega)
    ((h1.okd hz1).take _) (Nat.zero_le _) fun zs w' l2 d2 hw hv => ?_)
  have hv' : val zs + C.mag = 𝔹 ^ K * w' := by
    rw [← m1e]; unfold Cell.mag; rw [u1, hu]; simpa using hv
  have hw1 : w' = 1 := by
    rcases Nat.le_one_iff_eq_zero_or_eq_one.1 hw with e | e
    · rw [e] at hv'; omega
    · exact e
  rw [hw1, Nat.mul_one] at hv'
  have h2 := h1.write hz1 (k := 0) d2
  rw [show C1.ptr.add 0 = C1.ptr from rfl, upd_upd] at h2
  have hz2 := upd_self s z (some { C1 with buf := spliceL C1.buf 0 zs })
  have ezs : zs[K]? = none := List.getElem?_eq_none (by omega)
  have e3 : (spliceL C1.buf 0 zs)[K]? = some 0 := by
    rw [getElem?_spliceL, hK1]; simp [ezs]
  refine wp_bind (wp_rdz (C := { C1 with buf := spliceL C1.buf 0 zs }) (i := K) h2 hz2 e3 ?_)
  rw [hw1]
  have e4 : sub64 (sub64 (u64 (4294967295 + 1 + u32 (1 <<< 0))) 1) 0 = 4294967296 := by decide
  rw [e4]
  refine wp_bind (wp_wrz (C := { C1 with buf := spliceL C1.buf 0 zs }) (i := K) h2 hz2 (by simp; omega) (by decide) fun m3 h3 => ?_)
  rw [upd_upd] at h3
  have e5 : spliceL (spliceL C1.buf 0 zs) K [u32 4294967296] = spliceL C1.buf 0 zs := by
    apply List.ext_getElem?; intro i
    rw [getElem?_spliceL]
    by_cases hi : i = K
    · rw [hi, e3]; simp [u32]
    · by_cases hlt : K ≤ i
      · have : ([u32 4294967296] : List Nat)[i - K]? = none := List.getElem?_eq_none (by simp; omega)
        simp [this]
      · simp [hlt]
  rw [e5] at h3
  refine wp_bind (wp_cassert (by decide) ?_)
  refine wp_bind (wp_setSign h3 (upd_self _ _ _) fun m4 h4 => ?_)
  rw [upd_upd] at h4
  refine wp_bind (CLAMP_spec h4 (upd_self _ _ _) (by simp; omega) fun m5 h5 => ?_)
  rw [upd_upd] at h5
  refine wp_pure (hQ m5 _ h5 ?_ rfl ?_ (by simpa using len1) e3 ?_)
  · exact Norm.clamp (C := { C1 with buf := spliceL C1.buf 0 zs }) (n := false) (u := C1.used) (by omega) (by simp; omega)
  · show val ((spliceL C1.buf 0 zs).take (clampLen (spliceL C1.buf 0 zs) C1.used)) = _
    rw [val_take_clampLen _ _ (by simp; omega), spliceL_zero_append _ _ (by omega),
      List.take_append_of_le_length (by omega), List.take_of_length_le (by omega)]
    omega
  · exact Nat.le_trans (clampLen_le _ _) (by show C1.used ≤ K; omega)

/-! ### The arithmetic of Barrett reduction -/

/-- The quotient estimate is at most two less than the quotient. -/
theorem barrett_est {P R mv x : Nat} (hP : 0 < P) (hR : 0 < R) (hm : P ≤ mv) (hx : x < P * R) :
    (x / P * (P * R / mv) / R) * mv ≤ x ∧ x < ((x / P * (P * R / mv) / R) + 3) * mv := by
  have hm0 : 0 < mv := by omega
  obtain ⟨mu, hmu⟩ : ∃ mu, mu = P * R / mv := ⟨_, rfl⟩
  obtain ⟨q1, hq1⟩ : ∃ q1, q1 = x / P := ⟨_, rfl⟩
  obtain ⟨q3, hq3⟩ : ∃ q3, q3 = q1 * mu / R := ⟨_, rfl⟩
  rw [← hmu, ← hq1, ← hq3]
  have a1 : mu * mv ≤ P * R := by rw [hmu]; exact Nat.div_mul_le_self _ _
  have a2 : P * R < (mu + 1) * mv := by rw [hmu, Nat.add_mul, Nat.one_mul]; exact Nat.lt_div_mul_add hm0
  have b1 : q1 * P ≤ x := by rw [hq1]; exact Nat.div_mul_le_self _ _
  have b2 : x < (q1 + 1) * P := by rw [hq1, Nat.add_mul, Nat.one_mul]; exact Nat.lt_div_mul_add hP
  have c1 : q3 * R ≤ q1 * mu := by rw [hq3]; exact Nat.div_mul_le_self _ _
  have c2 : q1 * mu < (q3 + 1) * R := by rw [hq3, Nat.add_mul, Nat.one_mul]; exact Nat.lt_div_mul_add hR
  have hPR : 0 < P * R := Nat.mul_pos hP hR
  have d1 : P * mu ≤ P * R := by
    calc P * mu ≤ mv * mu := Nat.mul_le_mul_right _ hm
      _ = mu * mv := Nat.mul_comm _ _
      _ ≤ _ := a1
  constructor
  · have e : (q3 * mv) * (P * R) ≤ x * (P * R) := by
      calc (q3 * mv) * (P * R) = (q3 * R) * (P * mv) := by ring
        _ ≤ (q1 * mu) * (P * mv) := Nat.mul_le_mul_right _ c1
        _ = (q1 * P) * (mu * mv) := by ring
        _ ≤ x * (P * R) := Nat.mul_le_mul b1 a1
    exact Nat.le_of_mul_le_mul_right e hPR
  · have f1 : x * mu ≤ (q1 + 1) * P * mu := Nat.mul_le_mul_right _ b2.le
    have f2 : (q1 + 1) * P * mu = P * (q1 * mu) + P * mu := by ring
    have f3 : P * (q1 * mu) ≤ P * ((q3 + 1) * R) := Nat.mul_le_mul_left _ c2.le
    have f4 : P * ((q3 + 1) * R) = (q3 + 1) * (P * R) := by ring
    have f5 : x * (mu + 1) < (q3 + 3) * (P * R) := by
      have : x * (mu + 1) = x * mu + x := by ring
      have : (q3 + 3) * (P * R) = (q3 + 1) * (P * R) + P * R + P * R := by ring
      omega
    have f6 : x * (P * R) ≤ x * ((mu + 1) * mv) := Nat.mul_le_mul_left _ a2.le
    have f7 : x * ((mu + 1) * mv) = x * (mu + 1) * mv := by ring
    have f8 : x * (mu + 1) * mv < (q3 + 3) * (P * R) * mv := Nat.mul_lt_mul_of_pos_right f5 hm0
    have f9 : (q3 + 3) * (P * R) * mv = (q3 + 3) * mv * (P * R) := by ring
    have : x * (P * R) < (q3 + 3) * mv * (P * R) := by omega
    exact Nat.lt_of_mul_lt_mul_right this

/-- Subtraction modulo `R` of numbers whose true difference is `r < R`. -/
theorem sub_mod_cases {R x y r : Nat} (hR : 0 < R) (hxy : y + r = x) (hr : r < R) :
    (x % R < y % R → y % R - x % R = R - r ∧ 0 < r) ∧ (y % R ≤ x % R → x % R - y % R = r) := by
  have h1 := Nat.div_add_mod x R
  have h2 := Nat.div_add_mod y R
  have h3 := Nat.mod_lt x hR
  have h4 := Nat.mod_lt y hR
  obtain ⟨k, hk⟩ : ∃ k, x / R = y / R + k := ⟨x / R - y / R, by have := Nat.div_le_div_right (c := R) (show y ≤ x by omega); omega⟩
  rw [hk, Nat.mul_add] at h1
  have hk1 : k = 0 ∨ k = 1 := by
    rcases k with _ | _ | k
    · exact .inl rfl
    · exact .inr rfl
    · exfalso
      have e : R * (k + 1 + 1) = R * k + R + R := by ring
      have : R * k ≥ 0 := Nat.zero_le _
      omega
  rcases hk1 with e | e <;> rw [e] at h1
  · constructor
    · intro; exfalso; omega
    · intro; omega
  · rw [Nat.mul_one] at h1
    constructor
    · intro; omega
    · intro; omega

/-- `mp_int_compare` of nonnegative values. -/
theorem mp_int_compare_nn {Q : Int → Mem → Prop} (h : Rep m s) (ha : s a = some A) (hb : s b = some B)
    (nA : Norm A) (nB : Norm B) (sA : A.neg = false) (sB : B.neg = false)
    (hQ : Q (cmpN A.mag B.mag) m) : wp env E (mp_int_compare a b) Q m := by
  unfold mp_int_compare
  refine wp_bind (wp_SIGN h ha ?_)
  refine wp_bind (wp_SIGN h hb ?_)
  rw [sA, sB]
  refine wp_if_pos rfl (wp_bind (s_ucmp_norm h ha hb nA nB (wp_if_neg (by simp) (wp_pure hQ))))

/-- Number of digits from a bound on the magnitude. -/
theorem Norm.used_le {C : Cell} (h : Norm C) {k : Nat} (hk : 1 ≤ k) (hm : C.mag < 𝔹 ^ k) : C.used ≤ k := by
  by_contra hcon
  have h1 := h.mag_ge (by omega)
  have h2 : 𝔹 ^ k ≤ 𝔹 ^ (C.used - 1) := Nat.pow_le_pow_right (by decide) (by omega)
  omega

/-- The final conditional subtractions of `s_reduce`. -/
theorem reduceTail_rep {Q : Bool → Mem → Prop} {x md : Id} {X M : Cell} {K : Nat} (hE : Ref env E) (h : Rep m s)
    (hx : s x = some X) (hm : s md = some M) (ho : x.own = true) (hne : x ≠ md)
    (nX : Norm X) (nM : Norm M) (sX : X.neg = false) (sM : M.neg = false) (h3 : X.mag < 3 * M.mag)
    (uX : X.used ≤ K) (uM : M.used ≤ K) (hK : X.buf[K]? = some 0)
    (hQ : ∀ m' X', Rep m' (upd s x (some X')) → Norm X' → X'.neg = false → X'.mag = X.mag % M.mag →
      X.buf.length ≤ X'.buf.length → X'.buf[K]? = some 0 → Q true m') :
    wp env E (do
      if (← mp_int_compare x md) ≥ 0 then do
        let _ ← mp_int_sub x md x
        if (← mp_int_compare x md) ≥ 0 then do
          let _ ← mp_int_sub x md x
          pure true
        else pure true
      else pure true) Q m := by
  refine wp_bind (mp_int_compare_nn h hx hm nX nM sX sM ?_)
  rw [cmpN_eq]
  refine wp_ite (fun hge => ?_) (fun hlt => ?_)
  · have hle : M.mag ≤ X.mag := by
      by_contra hcon
      rw [if_pos (by omega)] at hge; omega
    refine wp_bind (mp_int_sub_nn hE h hx hm ho nX nM sX sM fun m1 X1 h1 n1 s1 v1 l1 z1 => ?_)
    have e1 : X1.mag = X.mag - M.mag := by
      rw [abs_of_nonneg (by omega)] at v1; omega
    have s1' : X1.neg = false := by rw [s1]; simp; omega
    have u1 : X1.used ≤ K := by
      by_contra hcon
      have : X.mag < X1.mag := nX.lt_of_used n1 (h.okd hx) (by omega)
      omega
    have hx1 := upd_self s x (some X1)
    have hm1 : upd s x (some X1) md = some M := by rw [upd_ne _ _ (Ne.symm hne)]; exact hm
    have k1 := z1 K (by omega) hK
    refine wp_bind (mp_int_compare_nn h1 hx1 hm1 n1 nM s1' sM ?_)
    rw [cmpN_eq]
    refine wp_ite (fun hge2 => ?_) (fun hlt2 => ?_)
    · have hle2 : M.mag ≤ X1.mag := by
        by_contra hcon
        rw [if_pos (by omega)] at hge2; omega
      refine wp_bind (mp_int_sub_nn hE h1 hx1 hm1 ho n1 nM s1' sM fun m2 X2 h2 n2 s2 v2 l2 z2 => ?_)
      rw [upd_upd] at h2
      have e2 : X2.mag = X1.mag - M.mag := by
        rw [abs_of_nonneg (by omega)] at v2; omega
      refine wp_pure (hQ m2 X2 h2 n2 (by rw [s2]; simp; omega) ?_ (by omega) (z2 K (by omega) k1))
      rw [e2, e1, Nat.mod_eq_sub_mod hle, Nat.mod_eq_sub_mod (by omega), Nat.mod_eq_of_lt (by omega)]
    · have hlt' : X1.mag < M.mag := by
        by_contra hcon
        rw [if_neg hcon] at hlt2
        split at hlt2 <;> omega
      refine wp_pure (hQ m1 X1 h1 n1 s1' ?_ l1 k1)
      rw [e1, Nat.mod_eq_sub_mod hle, Nat.mod_eq_of_lt (by omega)]
  · have hlt' : X.mag < M.mag := by
      by_contra hcon
      rw [if_neg hcon] at hlt
      split at hlt <;> omega
    refine wp_pure (hQ m X (by rw [upd_same _ hx]; exact h) nX sX ?_ (Nat.le_refl _) hK)
    rw [Nat.mod_eq_of_lt hlt']

/-- What `s_reduce` leaves. -/
structure Reduced (s s' : Id → Option Cell) (x q1 q2 : Id) (K cap r : Nat) : Prop where
  hx : ∃ X, s' x = some X ∧ Norm X ∧ X.neg = false ∧ X.mag = r ∧ cap ≤ X.buf.length ∧ X.buf[K]? = some 0
  h1 : ∃ X, s' q1 = some X ∧ Norm X ∧ X.neg = false ∧ cap ≤ X.buf.length
  h2 : ∃ X, s' q2 = some X ∧ Norm X ∧ X.neg = false ∧ cap ≤ X.buf.length
  out : ∀ y, y ≠ x → y ≠ q1 → y ≠ q2 → s' y = s y

theorem s_reduce_rep {Q : Bool → Mem → Prop} {x md mu q1 q2 : Id} {X M U Q1 Q2 : Cell} {k cap : Nat} (hE : Ref env E) (h : Rep m s)
    (hx : s x = some X) (hm : s md = some M) (hu : s mu = some U) (h1 : s q1 = some Q1) (h2 : s q2 = some Q2)
    (ox : x.own = true) (o1 : q1.own = true)
    (x1 : x ≠ q1) (x2 : x ≠ q2) (x12 : q1 ≠ q2) (xm : x ≠ md) (xu : x ≠ mu) (m1 : q1 ≠ md) (m2 : q2 ≠ md)
    (u1 : q1 ≠ mu) (u2 : q2 ≠ mu)
    (nX : Norm X) (nM : Norm M) (nU : Norm U) (n2 : Norm Q2)
    (sX : X.neg = false) (sM : M.neg = false) (s2 : Q2.neg = false)
    (hk : M.used = k) (hM0 : M.mag ≠ 0) (hU : U.mag = 𝔹 ^ (2 * k) / M.mag) (hXm : X.mag < 𝔹 ^ (2 * k))
    (hcap : 4 * k + 4 ≤ cap) (hcap' : kext U.used ≤ cap) (hUk : U.used ≤ k + 2)
    (cX : cap ≤ X.buf.length) (c1 : cap ≤ Q1.buf.length) (c2 : cap ≤ Q2.buf.length)
    (zX : X.used ≤ k + 1 → X.buf[k + 1]? = some 0)
    (hQ : ∀ m' s', Rep m' s' → Reduced s s' x q1 q2 (k + 1) cap (X.mag % M.mag) → Q true m') :
    wp env E (s_reduce x md mu q1 q2) Q m := by
  unfold s_reduce
  have pk : 1 ≤ k := by rw [← hk]; exact nM.pos
  have lM := (h.okl hm).2
  have uM := nM.le
  refine wp_bind (wp_USED h hm ?_)
  rw [hk]
  have e1 : u32 (u32 (k + 1) * 32) = (k + 1) * 32 := by
    rw [u32_of_lt (show k + 1 < 4294967296 by omega), u32_of_lt (by omega)]
  have e2 : u32 (sub32 k 1 * 32) = (k - 1) * 32 := by
    rw [sub32_of_le pk (by omega), u32_of_lt (by omega)]
  rw [e1, e2]
  have pw1 : 2 ^ ((k - 1) * 32) = 𝔹 ^ (k - 1) := by rw [pow𝔹, Nat.mul_comm]
  have pw2 : 2 ^ ((k + 1) * 32) = 𝔹 ^ (k + 1) := by rw [pow𝔹, Nat.mul_comm]
  have pw3 : 𝔹 ^ (k - 1) * 𝔹 ^ (k + 1) = 𝔹 ^ (2 * k) := by
    rw [← Nat.pow_add, show k - 1 + (k + 1) = 2 * k by omega]
  have hP : 0 < 𝔹 ^ (k - 1) := Nat.pow_pos (by decide)
  have hR : 0 < 𝔹 ^ (k + 1) := Nat.pow_pos (by decide)
  have mlt : M.mag < 𝔹 ^ k := by rw [← hk]; exact mag_lt (h.okd hm) uM
  have mge : 𝔹 ^ (k - 1) ≤ M.mag := by
    by_cases hk1 : k = 1
    · rw [hk1]; simp; omega
    · rw [← hk]; exact nM.mag_ge (by omega)
  obtain ⟨est1, est2⟩ := barrett_est hP hR mge (by rw [pw3]; exact hXm)
  rw [pw3, ← hU] at est1 est2
  refine wp_bind (mp_int_copy_rep hE h hx h1 o1 nX.le fun m3 C3 h3 sm3 l3 => ?_)
  refine wp_if_neg (by simp) ?_
  have n3 : Norm C3 := by
    refine ⟨by rw [sm3.used]; exact nX.pos, by rw [sm3.used]; exact sm3.le, fun hh => ?_⟩
    rw [sm3.used] at hh ⊢
    have t := nX.top hh
    have e : C3.buf[X.used - 1]? = X.buf[X.used - 1]? := by
      have := congrArg (fun l => l[X.used - 1]?) sm3.take
      simp only [List.getElem?_take, if_pos (show X.used - 1 < X.used by omega)] at this
      exact this
    rw [e]; exact t
  have g3 : C3.mag = X.mag := by unfold Cell.mag; rw [sm3.used, sm3.take]
  refine wp_bind (s_qdiv_rep h3 (upd_self _ _ _) n3 fun m4 C4 h4 n4 sg4 l4 g4 => ?_)
  rw [upd_upd] at h4
  rw [pw1, g3] at g4
  have sg4' : C4.neg = false := by rw [sg4, sm3.neg, sX]; simp
  have a4 : upd s q1 (some C4) q1 = some C4 := upd_self _ _ _
  have b4 : upd s q1 (some C4) mu = some U := by rw [upd_ne _ _ (Ne.symm u1)]; exact hu
  have c4 : upd s q1 (some C4) q2 = some Q2 := by rw [upd_ne _ _ (Ne.symm x12)]; exact h2
  have u4 : C4.used ≤ k + 1 := by
    refine n4.used_le (by omega) ?_
    rw [g4, Nat.div_lt_iff_lt_mul hP, Nat.mul_comm, pw3]; exact hXm
  refine wp_bind (UMUL_rep hE h4 a4 b4 c4 (Ne.symm x12) u2 n4 nU ?_ fun m5 C5 h5 n5 sg5 l5 g5 _ => ?_)
  · refine Nat.le_trans ?_ c2
    rcases Nat.le_total C4.used U.used with hle | hle
    · rw [Nat.max_eq_right hle]; exact hcap'
    · rw [Nat.max_eq_left hle]; unfold kext; omega
  refine wp_bind (s_qdiv_rep h5 (upd_self _ _ _) n5 fun m6 C6 h6 n6 sg6 l6 g6 => ?_)
  rw [upd_upd] at h6
  rw [pw2, g5, g4] at g6
  have sg6' : C6.neg = false := by rw [sg6, sg5, s2]; simp
  rw [← g6] at est1 est2
  have a6 : upd (upd s q1 (some C4)) q2 (some C6) x = some X := by
    rw [upd_ne _ _ x2, upd_ne _ _ x1]; exact hx
  refine wp_bind (s_qmod_rep h6 a6 nX (by omega) fun m7 X7 h7 n7 sg7 l7 g7 z7 => ?_)
  rw [pw2] at g7
  have z7' : X7.buf[k + 1]? = some 0 := by
    have := z7 (by omega)
    rw [show (k + 1) * 32 / 32 = k + 1 by omega] at this
    exact this zX
  obtain ⟨s7, es7⟩ : ∃ s7, s7 = upd (upd (upd s q1 (some C4)) q2 (some C6)) x (some X7) := ⟨_, rfl⟩
  rw [← es7] at h7
  have a7 : s7 q2 = some C6 := by rw [es7, upd_ne _ _ (Ne.symm x2), upd_self]
  have b7 : s7 md = some M := by
    rw [es7, upd_ne _ _ (Ne.symm xm), upd_ne _ _ (Ne.symm m2), upd_ne _ _ (Ne.symm m1)]; exact hm
  have c7 : s7 q1 = some C4 := by rw [es7, upd_ne _ _ (Ne.symm x1), upd_ne _ _ x12, upd_self]
  have u6 : C6.used ≤ k + 2 := by
    refine n6.used_le (by omega) ?_
    have : C6.mag * 1 ≤ C6.mag * M.mag := Nat.mul_le_mul_left _ (by omega)
    have hp : 𝔹 ^ (2 * k) = 𝔹 ^ (k + 1) * 𝔹 ^ (k - 1) := by rw [← pw3]; exact Nat.mul_comm _ _
    have : C6.mag * 𝔹 ^ (k - 1) ≤ C6.mag * M.mag := Nat.mul_le_mul_left _ mge
    have : C6.mag * 𝔹 ^ (k - 1) < 𝔹 ^ (k + 1) * 𝔹 ^ (k - 1) := by omega
    have h7 := Nat.lt_of_mul_lt_mul_right this
    exact Nat.lt_of_lt_of_le h7 (Nat.pow_le_pow_right (by decide) (by omega))
  refine wp_bind (UMUL_rep hE h7 a7 b7 c7 x12 m1 n6 nM ?_ fun m8 C8 h8 n8 sg8 l8 g8 _ => ?_)
  · have : kext (max C6.used M.used) ≤ cap := by unfold kext; omega
    omega
  refine wp_bind (s_qmod_rep h8 (upd_self _ _ _) n8 (by omega) fun m9 C9 h9 n9 sg9 l9 g9 _ => ?_)
  rw [upd_upd] at h9
  rw [pw2, g8] at g9
  obtain ⟨s9, es9⟩ : ∃ s9, s9 = upd s7 q1 (some C9) := ⟨_, rfl⟩
  rw [← es9] at h9
  have a9 : s9 x = some X7 := by rw [es9, upd_ne _ _ x1, es7, upd_self]
  have b9 : s9 q1 = some C9 := by rw [es9, upd_self]
  have c9 : s9 q2 = some C6 := by rw [es9, upd_ne _ _ (Ne.symm x12)]; exact a7
  have d9 : s9 md = some M := by rw [es9, upd_ne _ _ (Ne.symm m1)]; exact b7
  have o9 : ∀ y, y ≠ x → y ≠ q1 → y ≠ q2 → s9 y = s y := by
    intro y y1 y2 y3
    rw [es9, upd_ne _ _ y2, es7, upd_ne _ _ y1, upd_ne _ _ y3, upd_ne _ _ y2]
  have sg9' : C9.neg = false := by rw [sg9, sg8, sg4']
  have sg7' : X7.neg = false := by rw [sg7, sX]
  have u9 : C9.used ≤ k + 1 := n9.used_le (by omega) (by rw [g9]; exact Nat.mod_lt _ hR)
  have u7 : X7.used ≤ k + 1 := n7.used_le (by omega) (by rw [g7]; exact Nat.mod_lt _ hR)
  obtain ⟨r, hr⟩ : ∃ r, C6.mag * M.mag + r = X.mag := ⟨X.mag - C6.mag * M.mag, by omega⟩
  have hr3 : r < 3 * M.mag := by rw [Nat.add_mul] at est2; omega
  have hpk : 𝔹 ^ (k + 1) = 𝔹 ^ k * 𝔹 := Nat.pow_succ _ _
  have hrR : r < 𝔹 ^ (k + 1) := by omega
  have hrm : X.mag % M.mag = r % M.mag := by rw [← hr, Nat.mul_comm, Nat.mul_add_mod]
  obtain ⟨sc1, sc2⟩ := sub_mod_cases hR hr hrR
  refine wp_bind (mp_int_sub_nn hE h9 a9 b9 ox n7 n9 sg7' sg9' fun m10 XA hA nA sgA vA lA zA => ?_)
  have zA' := zA (k + 1) (by omega) z7'
  rw [g7, g9] at sgA vA
  have aA : upd s9 x (some XA) x = some XA := upd_self _ _ _
  refine wp_bind (CMPZ_norm hA aA nA ?_)
  have fin : ∀ (m' : Mem) (s' : Id → Option Cell) (XB : Cell), Rep m' s' → s' x = some XB → Norm XB → XB.neg = false →
      XB.mag = r → cap ≤ XB.buf.length → XB.buf[k + 1]? = some 0 → (∀ y, y ≠ x → s' y = s9 y) → 
      wp env E (do
        if (← mp_int_compare x md) ≥ 0 then do
          let _ ← mp_int_sub x md x
          if (← mp_int_compare x md) ≥ 0 then do
            let _ ← mp_int_sub x md x
            pure true
          else pure true
        else pure true) Q m' := by
    intro m' s' XB hB eB nB sB vB lB zB oB
    have uB : XB.used ≤ k + 1 := nB.used_le (by omega) (by rw [vB]; exact hrR)
    refine reduceTail_rep (K := k + 1) hE hB eB (by rw [oB _ (Ne.symm xm)]; exact d9) ox xm nB nM sB sM (by rw [vB]; exact hr3)
      uB (by omega) zB fun mC XC hC nC sC vC lC zC => hQ mC _ hC ?_
    refine ⟨⟨XC, upd_self _ _ _, nC, sC, by rw [vC, vB, hrm], by omega, zC⟩,
      ⟨C9, by rw [upd_ne _ _ (Ne.symm x1), oB _ (Ne.symm x1)]; exact b9, n9, sg9', by omega⟩,
      ⟨C6, by rw [upd_ne _ _ (Ne.symm x2), oB _ (Ne.symm x2)]; exact c9, n6, sg6', by omega⟩, ?_⟩
    intro y y1 y2 y3
    rw [upd_ne _ _ y1, oB _ y1]; exact o9 y y1 y2 y3
  by_cases hlt : X.mag % 𝔹 ^ (k + 1) < C6.mag * M.mag % 𝔹 ^ (k + 1)
  · obtain ⟨q1', q2'⟩ := sc1 hlt
    rw [decide_eq_true hlt] at sgA
    have vA' : XA.mag = 𝔹 ^ (k + 1) - r := by
      rw [abs_of_neg (by omega)] at vA; omega
    have uA : XA.used = k + 1 := by
      have hle : XA.used ≤ k + 1 := nA.used_le (by omega) (by omega)
      by_contra hne
      have h5 := mag_lt (hA.okd aA) nA.le
      have h6 : 𝔹 ^ XA.used ≤ 𝔹 ^ k := Nat.pow_le_pow_right (by decide) (by omega)
      omega
    rw [if_neg (show ¬ XA.mag = 0 by omega), sgA]
    refine wp_bind (wp_cif (fun _ => ?_) (fun hc => absurd hc (by decide)))
    refine s_qsub_rep hE hA aA ox nA uA rfl (by omega) zA' fun m11 XB hB nB sB vB lB zB _ => ?_
    rw [upd_upd] at hB
    refine wp_if_pos rfl ?_
    refine fin m11 _ XB hB (upd_self _ _ _) nB sB (by omega) (by omega) zB fun y hy => upd_ne _ _ hy
  · have q := sc2 (by omega)
    rw [decide_eq_false hlt] at sgA
    rw [sgA]
    have vA' : XA.mag = r := by
      rw [abs_of_nonneg (by omega)] at vA; omega
    refine wp_bind (wp_cif (fun hc => ?_) (fun _ => wp_pure ?_))
    · exfalso; split at hc <;> simp at hc
    refine wp_if_pos rfl ?_
    exact fin m10 _ XA hA aA nA sgA vA' (by omega) zA' fun y hy => upd_ne _ _ hy

end Imath
