import Verif.Proof.Exptmod
import Verif.Proof.Expt
import Verif.SpecExptmod

/-!
# Modular exponentiation with a negative modulus

`s_reduce` compares with the modulus and subtracts it twice; for a negative modulus both subtractions take place and
add twice its absolute value.  The arithmetic stays within the buffers.
-/

namespace Imath

variable {env : Env} {E : Fault → Prop} {m : Mem} {s s0 : Id → Option Cell} {σ : Id → Option Int}
  {z a b c md mu t0 t1 t2 : Id} {A B C D U : Cell} {k cap av cv : Nat} {x y w v : Int}

/-- As `UMUL_rep`, for operands of less than eight digits: no more than the product is written. -/
theorem UMUL_small {Q : Unit → Mem → Prop} (h : Rep m s) (ha : s a = some A) (hb : s b = some B)
    (hc : s c = some C) (hca : c ≠ a) (hcb : c ≠ b) (nA : Norm A) (nB : Norm B)
    (hA8 : A.used < 8) (hB8 : B.used < 8) (hcap : A.used + B.used ≤ C.buf.length)
    (hQ : ∀ m' C', Rep m' (upd s c (some C')) → Norm C' → C'.neg = C.neg → C'.buf.length = C.buf.length →
      C'.mag = A.mag * B.mag → Q () m') :
    wp env E (UMUL a b c) Q m := by
  unfold UMUL
  have pA := nA.pos
  have pB := nB.pos
  have uA := nA.le
  have uB := nB.le
  refine wp_bind (wp_USED h ha ?_)
  refine wp_bind (wp_USED h hb ?_)
  rw [u32_of_lt (by omega)]
  obtain ⟨o, ho⟩ : ∃ o, o = A.used + B.used := ⟨_, rfl⟩
  rw [← ho] at hcap ⊢
  refine wp_bind (wp_DIGITS h hc ?_)
  refine wp_bind (ZERO_spec (n := o) ((h.at hc).take o) (by rw [List.length_take]; omega) (by omega) ?_)
  have h1 := h.write hc (k := 0) (Dig_replicate_zero o)
  rw [show C.ptr.add 0 = C.ptr from rfl] at h1
  obtain ⟨C1, eC1⟩ : ∃ C1 : Cell, C1 = { C with buf := spliceL C.buf 0 (List.replicate o 0) } := ⟨_, rfl⟩
  rw [← eC1] at h1
  have hl1 : C1.buf.length = C.buf.length := by rw [eC1]; simp
  have ha1 : upd s c (some C1) a = some A := by rw [upd_ne _ _ (Ne.symm hca)]; exact ha
  have hb1 : upd s c (some C1) b = some B := by rw [upd_ne _ _ (Ne.symm hcb)]; exact hb
  have hc1 : upd s c (some C1) c = some C1 := upd_self _ _ _
  have eb1 : C1.buf = List.replicate o 0 ++ C.buf.drop o := by
    rw [eC1]; simp only; rw [spliceL_zero_append _ _ (by simp; omega)]; simp
  refine wp_bind (wp_DIGITS h1 ha1 ?_)
  refine wp_bind (wp_DIGITS h1 hb1 ?_)
  refine wp_bind (wp_DIGITS h1 hc1 ?_)
  have bA : A.ptr.base ≠ C1.ptr.base := fun hh => hca (h1.inj hc1 ha1 hh.symm)
  have bB : B.ptr.base ≠ C1.ptr.base := fun hh => hcb (h1.inj hc1 hb1 hh.symm)
  have hz : At (m.splice C.ptr (List.replicate o 0)) C1.ptr (List.replicate o 0) := by
    have := (h1.at hc1).take o
    rw [eb1, List.take_append_of_le_length (by simp), List.take_of_length_le (by simp)] at this
    exact this
  have fin : ∀ zs, zs.length = o → Dig zs → val zs = A.mag * B.mag →
      wp env E (do
        setUsed c o
        CLAMP c) Q ((m.splice C.ptr (List.replicate o 0)).splice C1.ptr zs) := by
    intro ps l1 d1 v1
    have h2 := h1.write hc1 (k := 0) (zs := ps) d1
    rw [upd_upd] at h2
    rw [show C1.ptr.add 0 = C1.ptr from rfl] at h2
    have eb2 : spliceL C1.buf 0 ps = ps ++ C1.buf.drop o := by
      rw [spliceL_zero_append _ _ (by omega), l1]
    rw [eb2] at h2
    refine wp_bind (wp_setUsed h2 (upd_self _ _ _) fun m3 h3 => ?_)
    rw [upd_upd] at h3
    have lb : (ps ++ C1.buf.drop o).length = C.buf.length := by
      rw [← eb2]; simpa using hl1
    refine CLAMP_spec h3 (upd_self _ _ _) (by simp only [lb]; omega) fun m4 h4 => ?_
    rw [upd_upd] at h4
    refine hQ m4 _ h4 ?_ (by rw [eC1]) lb ?_
    · exact Norm.clamp (C := { C1 with buf := ps ++ C1.buf.drop o }) (n := C1.neg) (u := o) (by omega) (by simp only [lb]; omega)
    · show val ((ps ++ C1.buf.drop o).take (clampLen (ps ++ C1.buf.drop o) o)) = _
      rw [val_take_clampLen _ _ (by rw [lb]; omega), List.take_append_of_le_length (by omega),
        List.take_of_length_le (by omega), v1]
  have thr := h1.thr
  have eA : val (A.buf.take A.used) = A.mag := rfl
  have eB : val (B.buf.take B.used) = B.mag := rfl
  refine wp_bind ?_
  unfold s_kmul
  rw [kmulF]
  have body : ∀ {da db : Ptr} {na nb : Nat} {xs ys : List Nat}, At (m.splice C.ptr (List.replicate o 0)) da xs →
      At (m.splice C.ptr (List.replicate o 0)) db ys → xs.length = na → ys.length = nb → Dig xs → Dig ys → na < 8 → na + nb = o →
      da.base ≠ C1.ptr.base → db.base ≠ C1.ptr.base → val xs * val ys = A.mag * B.mag →
      wp env E (kmulBody (kmulF (A.used + B.used)) da db C1.ptr na nb) (fun _ m' => wp env E (do
        setUsed c o
        CLAMP c) Q m') (m.splice C.ptr (List.replicate o 0)) := by
    intro da db na nb xs ys e1 e2 e3 e4 e5 e6 e7 e8 e9 e10 e11
    unfold kmulBody
    refine wp_bind (wp_getMem ?_)
    refine wp_if_neg (by intro hh; omega) ?_
    refine wp_bind (s_umul_spec e1 e2 (by rw [e8]; exact hz) e3 e4 e5 e6 (.inl e9) (.inl e10) fun zs z1 z2 z3 => ?_)
    exact wp_pure (fin zs (by omega) z2 (by rw [z3, e11]))
  refine wp_ite (fun _ => ?_) (fun _ => ?_)
  · exact body ((h1.at hb1).take B.used) ((h1.at ha1).take A.used) (by rw [List.length_take]; omega) (by rw [List.length_take]; omega)
      ((h.okd hb).take _) ((h.okd ha).take _) hB8 (by omega) bB bA (by rw [eA, eB, Nat.mul_comm])
  · exact body ((h1.at ha1).take A.used) ((h1.at hb1).take B.used) (by rw [List.length_take]; omega) (by rw [List.length_take]; omega)
      ((h.okd ha).take _) ((h.okd hb).take _) hA8 (by omega) bA bB (by rw [eA, eB])

theorem valTakeMod {xs : List Nat} (hd : Dig xs) (n : Nat) : val (xs.take n) = val xs % 𝔹 ^ n := by
  by_cases hn : n ≤ xs.length
  · have h1 : val xs = val (xs.take n) + 𝔹 ^ n * val (xs.drop n) := by
      conv_lhs => rw [← List.take_append_drop n xs, val_append]
      rw [List.length_take, Nat.min_eq_left hn]
    have h2 : val (xs.take n) < 𝔹 ^ n := by
      have := val_lt (xs := xs.take n) (fun y hy => hd y (List.mem_of_mem_take hy))
      rwa [List.length_take, Nat.min_eq_left hn] at this
    rw [h1, Nat.add_mul_mod_self_left, Nat.mod_eq_of_lt h2]
  · rw [List.take_of_length_le (by omega), Nat.mod_eq_of_lt]
    exact Nat.lt_of_lt_of_le (val_lt hd) (Nat.pow_le_pow_right (by norm_num) (by omega))

/-- As `addMag_rep`; the buffer does not shrink. -/
theorem addMag_len {Q : Int → Mem → Prop} (hE : Ref env E) (h : Rep m s)
    (ha : s a = some A) (hb : s b = some B) (hc : s c = some C) (ho : c.own = true)
    (nA : Norm A) (nB : Norm B)
    (hQ : ∀ m' C', Rep m' (upd s c (some C')) → Norm C' → C'.neg = A.neg →
      C'.mag = A.mag + B.mag → C.buf.length ≤ C'.buf.length → Q MP_OK m') :
    wp env E (addMag a b c A.used B.used (MAX A.used B.used)) Q m := by
  unfold addMag
  rw [MAX_eq]
  have lA := (h.okl ha).2
  have lB := (h.okl hb).2
  have pA := nA.pos
  have pB := nB.pos
  have uA := nA.le
  have uB := nB.le
  generalize hM : max A.used B.used = M at *
  have hM1 : 1 ≤ M := by omega
  have hM2 : M ≤ MAXD := by omega
  refine wp_bind (s_pad_spec hE h hc ho (by omega) fun m1 C1 h1 g1 l1 => ?_)
  refine wp_if_pos rfl ?_
  obtain ⟨A1, hA1, gA1⟩ := g1.get' hc ha
  obtain ⟨B1, hB1, gB1⟩ := g1.get' hc hb
  have hC1 : upd s c (some C1) c = some C1 := upd_self _ _ _
  refine wp_bind (wp_DIGITS h1 hA1 ?_)
  refine wp_bind (wp_DIGITS h1 hB1 ?_)
  refine wp_bind (wp_DIGITS h1 hC1 ?_)
  have eA : A1.buf.take A.used = A.buf.take A.used := gA1.take uA
  have eB : B1.buf.take B.used = B.buf.take B.used := gB1.take uB
  have lA1 := gA1.len
  have lB1 := gB1.len
  refine wp_bind (s_uadd_spec (xs := A1.buf.take A.used) (ys := B1.buf.take B.used)
    (os := C1.buf.take M) ((h1.at hA1).take _) ((h1.at hB1).take _) ((h1.at hC1).take _)
    (by rw [List.length_take]; omega) (by rw [List.length_take]; omega)
    (by rw [List.length_take]; omega) ((h1.okd hA1).take _) ((h1.okd hB1).take _)
    (fun _ => .inl (Nat.le_refl _)) (fun _ => .inl (Nat.le_refl _)) fun zs w' hlz hdz hw' hv => ?_)
  rw [hM] at hlz hv
  have h2 := h1.write hC1 (k := 0) hdz
  rw [upd_upd] at h2
  have hv' : val zs + 𝔹 ^ M * w' = A.mag + B.mag := by
    rw [hv, eA, eB]; rfl
  refine wp_ite (fun hcar => ?_) (fun hcar => ?_)
  · have hw1 : w' = 1 := by omega
    subst hw1
    rw [u32_of_lt (by omega)]
    refine wp_bind (s_pad_spec hE h2 (upd_self _ _ _) ho (by omega) fun m3 C3 h3 g3 l3 => ?_)
    rw [upd_upd] at h3
    refine wp_if_pos rfl ?_
    refine wp_bind (wp_DIGITS h3 (upd_self _ _ _) ?_)
    refine wp_bind (wp_wrz h3 (upd_self _ _ _) (i := M) (by omega) (by omega) fun m4 h4 => ?_)
    rw [upd_upd] at h4
    refine wp_bind (wp_setUsed h4 (upd_self _ _ _) fun m5 h5 => ?_)
    rw [upd_upd] at h5
    obtain ⟨A5, hA5, e1, e2⟩ := upd_get hc ha { C3 with buf := spliceL C3.buf M [1], used := M + 1 }
    have hAn : A5.neg = A.neg := by
      by_cases hac : a = c
      · rw [(e1 hac).1, (e1 hac).2]
        exact g3.neg.trans g1.neg
      · rw [e2 hac]
    refine wp_bind (wp_SIGN h5 hA5 ?_)
    refine wp_bind (wp_setSign h5 (upd_self _ _ _) fun m6 h6 => ?_)
    rw [upd_upd] at h6
    have htake : C3.buf.take M = zs := by
      have := g3.take (n := M) (by simpa using l1)
      rw [this]
      show (spliceL C1.buf 0 zs).take M = zs
      rw [spliceL_zero_append _ _ (by omega), List.take_append_of_le_length (by omega),
        List.take_of_length_le (by omega)]
    have htop : (spliceL C3.buf M [1])[M]? = some 1 := by
      rw [getElem?_spliceL, List.getElem?_eq_getElem (show M < C3.buf.length from l3)]; simp
    have hlow : (spliceL C3.buf M [1]).take M = zs := by
      rw [← htake]
      apply List.ext_getElem?; intro i
      rw [List.getElem?_take, List.getElem?_take]
      split
      · rw [getElem?_spliceL]
        simp only [if_neg (show ¬ M ≤ i by omega)]; simp
      · rfl
    have lg3 := g3.len
    have lg1 := g1.len
    refine wp_pure (hQ m6 _ h6 ⟨by simp, by simpa using l3, ?_⟩ hAn ?_ (by simp at lg3 ⊢; omega))
    · intro _
      show (spliceL C3.buf M [1])[M + 1 - 1]? ≠ some 0
      rw [show M + 1 - 1 = M by omega, htop]; simp
    · show val ((spliceL C3.buf M [1]).take (M + 1)) = _
      have hlen : M < (spliceL C3.buf M [1]).length := by rw [length_spliceL]; exact l3
      rw [val_take_succ _ M hlen, hlow]
      rw [List.getElem?_eq_getElem hlen, Option.some.injEq] at htop
      rw [htop]; exact hv'
  · have hw0 : w' = 0 := by omega
    subst hw0
    refine wp_bind (wp_setUsed h2 (upd_self _ _ _) fun m5 h5 => ?_)
    rw [upd_upd] at h5
    obtain ⟨A5, hA5, e1, e2⟩ := upd_get hc ha { C1 with buf := spliceL C1.buf 0 zs, used := M }
    have hAn : A5.neg = A.neg := by
      by_cases hac : a = c
      · rw [(e1 hac).1, (e1 hac).2]
        exact g1.neg
      · rw [e2 hac]
    refine wp_bind (wp_SIGN h5 hA5 ?_)
    refine wp_bind (wp_setSign h5 (upd_self _ _ _) fun m6 h6 => ?_)
    rw [upd_upd] at h6
    have hlow : (spliceL C1.buf 0 zs).take M = zs := by
      rw [spliceL_zero_append _ _ (by omega), List.take_append_of_le_length (by omega),
        List.take_of_length_le (by omega)]
    have hmag : Imath.val ((spliceL C1.buf 0 zs).take M) = A.mag + B.mag := by
      rw [hlow]; omega
    refine wp_pure (hQ m6 _ h6 ⟨hM1, by simpa using l1, ?_⟩ hAn hmag (by simpa using g1.len))
    intro h1M hz
    have h1M' : 1 < M := h1M
    have hz' : (spliceL C1.buf 0 zs)[M - 1]? = some 0 := hz
    have hlen : M - 1 < (spliceL C1.buf 0 zs).length := by simp; omega
    have hvs := val_take_succ _ (M - 1) hlen
    rw [show M - 1 + 1 = M by omega, hmag] at hvs
    rw [List.getElem?_eq_getElem hlen, Option.some.injEq] at hz'
    rw [hz'] at hvs
    have hlt := val_lt (((h2.okd (upd_self _ _ _)).take (M - 1)))
    have : ((spliceL C1.buf 0 zs).take (M - 1)).length = M - 1 := by rw [List.length_take]; omega
    simp only at hlt
    rw [this] at hlt
    rw [Nat.mul_zero, Nat.add_zero] at hvs
    rw [← hvs] at hlt
    rcases Nat.le_total A.used B.used with hab | hab
    · have := nB.mag_ge (by omega)
      rw [show B.used = M by omega] at this
      omega
    · have := nA.mag_ge (by omega)
      rw [show A.used = M by omega] at this
      omega

/-- The common tail of the subtraction paths: the digits of `c` are the difference. -/

theorem UMUL_any {Q : Unit → Mem → Prop} (hE : Ref env E) (h : Rep m s) (ha : s a = some A) (hb : s b = some B)
    (hc : s c = some C) (hca : c ≠ a) (hcb : c ≠ b) (nA : Norm A) (nB : Norm B)
    (hcap : kext (max A.used B.used) ≤ C.buf.length ∨ A.used < 8 ∧ B.used < 8 ∧ A.used + B.used ≤ C.buf.length)
    (hQ : ∀ m' C', Rep m' (upd s c (some C')) → Norm C' → C'.neg = C.neg → C'.buf.length = C.buf.length →
      C'.mag = A.mag * B.mag → Q () m') :
    wp env E (UMUL a b c) Q m := by
  rcases hcap with hcap | ⟨h1, h2, h3⟩
  · exact UMUL_rep hE h ha hb hc hca hcb nA nB hcap fun m' C' q1 q2 q3 q4 q5 _ => hQ m' C' q1 q2 q3 q4 q5
  · exact UMUL_small h ha hb hc hca hcb nA nB h1 h2 h3 hQ

/-- `x - b` into `x` for `x ≥ 0` and a negative `b`. -/
theorem mp_int_sub_np {Q : Int → Mem → Prop} (hE : Ref env E) (h : Rep m s) (ha : s a = some A) (hb : s b = some B)
    (ho : a.own = true) (nA : Norm A) (nB : Norm B) (sA : A.neg = false) (sB : B.neg = true)
    (hQ : ∀ m' C', Rep m' (upd s a (some C')) → Norm C' → C'.neg = false → C'.mag = A.mag + B.mag →
      A.buf.length ≤ C'.buf.length → Q MP_OK m') :
    wp env E (mp_int_sub a b a) Q m := by
  unfold mp_int_sub
  refine wp_bind (wp_USED h ha ?_)
  refine wp_bind (wp_USED h hb ?_)
  refine wp_bind (wp_SIGN h ha ?_)
  refine wp_bind (wp_SIGN h hb ?_)
  rw [sA, sB]
  refine wp_if_pos (by simp) ?_
  exact addMag_len hE h ha hb ha ho nA nB fun m' C' q1 q2 q3 q4 q5 => hQ m' C' q1 q2 (by rw [q3, sA]) q4 q5

/-- Both subtractions of a negative modulus at the end of `s_reduce` take place. -/
theorem reduceTail_neg {Q : Bool → Mem → Prop} {x md : Id} {X M : Cell} (hE : Ref env E) (h : Rep m s)
    (hx : s x = some X) (hm : s md = some M) (ho : x.own = true) (hne : x ≠ md)
    (nX : Norm X) (nM : Norm M) (sX : X.neg = false) (sM : M.neg = true)
    (hQ : ∀ m' X', Rep m' (upd s x (some X')) → Norm X' → X'.neg = false → X'.mag = X.mag + 2 * M.mag →
      X.buf.length ≤ X'.buf.length → Q true m') :
    wp env E (do
      if (← mp_int_compare x md) ≥ 0 then do
        let _ ← mp_int_sub x md x
        if (← mp_int_compare x md) ≥ 0 then do
          let _ ← mp_int_sub x md x
          pure true
        else pure true
      else pure true) Q m := by
  have cmp : ∀ {m : Mem} {s : Id → Option Cell} {X : Cell} {P : Int → Mem → Prop}, Rep m s → s x = some X → s md = some M →
      X.neg = false → P 1 m → wp env E (mp_int_compare x md) P m := by
    intro m s X P h hx hm sX hP
    unfold mp_int_compare
    refine wp_bind (wp_SIGN h hx ?_)
    refine wp_bind (wp_SIGN h hm ?_)
    rw [sX, sM]
    exact wp_if_neg (by simp) (wp_if_neg (by simp) (wp_pure hP))
  refine wp_bind (cmp h hx hm sX (wp_if_pos (by decide) ?_))
  refine wp_bind (mp_int_sub_np hE h hx hm ho nX nM sX sM fun m1 X1 h1 n1 s1 v1 l1 => ?_)
  have hx1 := upd_self s x (some X1)
  have hm1 : upd s x (some X1) md = some M := by rw [upd_ne _ _ (Ne.symm hne)]; exact hm
  refine wp_bind (cmp h1 hx1 hm1 s1 (wp_if_pos (by decide) ?_))
  refine wp_bind (mp_int_sub_np hE h1 hx1 hm1 ho n1 nM s1 sM fun m2 X2 h2 n2 s2 v2 l2 => wp_pure ?_)
  rw [upd_upd] at h2
  exact hQ m2 X2 h2 n2 s2 (by omega) (by omega)

/-- `s_qsub` of a number of any length: the complement is taken with respect to the digits it has. -/
theorem s_qsub_any {Q : Bool → Mem → Prop} {K p2 : Nat} (hE : Ref env E) (h : Rep m s) (hz : s z = some C)
    (ho : z.own = true) (nC : Norm C) (hu : C.used ≤ K) (hp : p2 = K * 32) (h0 : C.mag ≠ 0) (hK : C.buf[K]? = some 0)
    (hQ : ∀ m' C', Rep m' (upd s z (some C')) → Norm C' → C'.neg = false → C'.mag = 𝔹 ^ C.used - C.mag →
      C.buf.length ≤ C'.buf.length → Q true m') :
    wp env E (s_qsub z p2) Q m := by
  unfold s_qsub
  have hl := (h.okl hz).2
  have hle := nC.le
  have hpos := nC.pos
  have hKl : K < C.buf.length := by
    by_contra hcon
    rw [List.getElem?_eq_none (by omega)] at hK; cases hK
  have e1 : p2 % 32 = 0 := by omega
  have e2 : p2 / 32 = K := by omega
  rw [e1, e2]
  show wp env E (bind (s_pad z (u32 (K + 1))) _) Q m
  rw [u32_of_lt (show K + 1 < 4294967296 by omega)]
  refine wp_bind (s_pad_spec hE h hz ho (by omega) fun m1 C1 h1 g1 l1 => ?_)
  refine wp_if_pos rfl ?_
  have hz1 := upd_self s z (some C1)
  have hK1 : C1.buf[K]? = some 0 := by
    obtain ⟨t, ht⟩ := g1.pre
    rw [← ht, List.getElem?_append_left hKl]; exact hK
  have m1e := g1.mag hle
  have u1 := g1.used
  have len1 := g1.len
  have dK : Dig (C1.buf.take K) := (h1.okd hz1).take _
  refine wp_bind (wp_DIGITS h1 hz1 ?_)
  refine wp_bind (qsubLoop_spec (xs := C1.buf.take K) ((h1.at hz1).take K) (by rw [List.length_take]; omega)
    dK (Nat.zero_le _) fun zs w' l2 d2 hw hv => ?_)
  have lowm : val (C1.buf.take K) % 𝔹 ^ C.used = C.mag := by
    rw [← valTakeMod dK, List.take_take, Nat.min_eq_left hu, ← m1e]
    unfold Cell.mag; rw [u1]
  have hmlt : C.mag < 𝔹 ^ C.used := mag_lt (h.okd hz) hle
  have hv' : val zs + val (C1.buf.take K) = 𝔹 ^ K * w' := by simpa using hv
  have hw1 : w' = 1 := by
    rcases Nat.le_one_iff_eq_zero_or_eq_one.1 hw with e | e
    · rw [e] at hv'
      have : val (C1.buf.take K) = 0 := by omega
      rw [this, Nat.zero_mod] at lowm; omega
    · exact e
  rw [hw1, Nat.mul_one] at hv'
  have low : val zs % 𝔹 ^ C.used = 𝔹 ^ C.used - C.mag := by
    have hd : (val zs + val (C1.buf.take K)) % 𝔹 ^ C.used = 0 := by
      rw [hv']; exact Nat.mod_eq_zero_of_dvd (Nat.pow_dvd_pow _ hu)
    rw [Nat.add_mod, lowm] at hd
    have hlt := Nat.mod_lt (val zs) (show 0 < 𝔹 ^ C.used from Nat.pow_pos (by decide))
    generalize val zs % 𝔹 ^ C.used = q at hd hlt
    generalize 𝔹 ^ C.used = P at *
    have hq : P ≤ q + C.mag := by
      by_contra hcon
      rw [Nat.mod_eq_of_lt (by omega)] at hd; omega
    have : (q + C.mag - P) % P = 0 := by rw [← Nat.mod_eq_sub_mod hq]; exact hd
    rw [Nat.mod_eq_of_lt (by omega)] at this; omega
  have h2 := h1.write hz1 (k := 0) d2
  rw [show C1.ptr.add 0 = C1.ptr from rfl, upd_upd] at h2
  have hz2 := upd_self s z (some { C1 with buf := spliceL C1.buf 0 zs })
  have ezs : zs[K]? = none := List.getElem?_eq_none (by omega)
  have e3 : (spliceL C1.buf 0 zs)[K]? = some 0 := by
    rw [getElem?_spliceL, hK1]; simp [ezs]
  refine wp_bind (wp_rdz (C := { C1 with buf := spliceL C1.buf 0 zs }) (i := K) h2 hz2 e3 ?_)
  rw [hw1]
  have e4 : sub64 (sub64 (u64 (4294967295 + 1 + u32 (1 <<< 0))) 1) 0 = 4294967296 := by decide
  rw [e4]
  refine wp_bind (wp_wrz (C := { C1 with buf := spliceL C1.buf 0 zs }) (i := K) h2 hz2 (by simp; omega) (by decide) fun m3 h3 => ?_)
  rw [upd_upd] at h3
  have e5 : spliceL (spliceL C1.buf 0 zs) K [u32 4294967296] = spliceL C1.buf 0 zs := by
    apply List.ext_getElem?; intro i
    rw [getElem?_spliceL]
    by_cases hi : i = K
    · rw [hi, e3]; simp [u32]
    · by_cases hlt : K ≤ i
      · have : ([u32 4294967296] : List Nat)[i - K]? = none := List.getElem?_eq_none (by simp; omega)
        simp [this]
      · simp [hlt]
  rw [e5] at h3
  refine wp_bind (wp_cassert (by decide) ?_)
  refine wp_bind (wp_setSign h3 (upd_self _ _ _) fun m4 h4 => ?_)
  rw [upd_upd] at h4
  refine wp_bind (CLAMP_spec h4 (upd_self _ _ _) (by simp; omega) fun m5 h5 => ?_)
  rw [upd_upd] at h5
  refine wp_pure (hQ m5 _ h5 ?_ rfl ?_ (by simpa using len1))
  · exact Norm.clamp (C := { C1 with buf := spliceL C1.buf 0 zs }) (n := false) (u := C1.used) (by omega) (by simp; omega)
  · show val ((spliceL C1.buf 0 zs).take (clampLen (spliceL C1.buf 0 zs) C1.used)) = _
    rw [val_take_clampLen _ _ (by simp; omega), spliceL_zero_append _ _ (by omega),
      List.take_append_of_le_length (by omega), valTakeMod d2, u1, low]


/-! ### The reduction -/

/-- The quotient estimate is never too large. -/
theorem barrett_le {P R mv x : Nat} (hR : 0 < R) (hP : 0 < P) :
    (x / P * (P * R / mv) / R) * mv ≤ x := by
  obtain ⟨mu, hmu⟩ : ∃ mu, mu = P * R / mv := ⟨_, rfl⟩
  obtain ⟨q1, hq1⟩ : ∃ q1, q1 = x / P := ⟨_, rfl⟩
  obtain ⟨q3, hq3⟩ : ∃ q3, q3 = q1 * mu / R := ⟨_, rfl⟩
  rw [← hmu, ← hq1, ← hq3]
  have a1 : mu * mv ≤ P * R := by rw [hmu]; exact Nat.div_mul_le_self _ _
  have b1 : q1 * P ≤ x := by rw [hq1]; exact Nat.div_mul_le_self _ _
  have c1 : q3 * R ≤ q1 * mu := by rw [hq3]; exact Nat.div_mul_le_self _ _
  have e : (q3 * mv) * (P * R) ≤ x * (P * R) := by
    calc (q3 * mv) * (P * R) = (q3 * R) * (P * mv) := by ring
      _ ≤ (q1 * mu) * (P * mv) := Nat.mul_le_mul_right _ c1
      _ = (q1 * P) * (mu * mv) := by ring
      _ ≤ x * (P * R) := Nat.mul_le_mul b1 a1
  exact Nat.le_of_mul_le_mul_right e (Nat.mul_pos hP hR)

theorem negReduce_eq {M x k : Nat} (hk : NDig M k) {t y : Nat} (ht : t = x % 𝔹 ^ (k + 1))
    (hy : y = x / 𝔹 ^ (k - 1) * (𝔹 ^ (2 * k) / M) / 𝔹 ^ (k + 1) * M % 𝔹 ^ (k + 1)) :
    negReduce M x = (if y ≤ t then t - y else 𝔹 ^ (Nat.log 𝔹 (y - t) + 1) - (y - t)) + 2 * M := by
  have e : Nat.log 𝔹 M + 1 = k := ndig_of hk.1 hk.2.2 fun _ => hk.2.1
  unfold negReduce
  dsimp only
  rw [e, ← ht, ← hy]

theorem negReduce_bound {M x k : Nat} (hk : NDig M k) : 2 * M ≤ negReduce M x ∧ negReduce M x < 𝔹 ^ (k + 1) + 2 * M := by
  rw [negReduce_eq hk rfl rfl]
  obtain ⟨y, hy⟩ : ∃ y, y = x / 𝔹 ^ (k - 1) * (𝔹 ^ (2 * k) / M) / 𝔹 ^ (k + 1) * M % 𝔹 ^ (k + 1) := ⟨_, rfl⟩
  obtain ⟨t, ht⟩ : ∃ t, t = x % 𝔹 ^ (k + 1) := ⟨_, rfl⟩
  rw [← hy, ← ht]
  have hR : 0 < 𝔹 ^ (k + 1) := Nat.pow_pos (by decide)
  have t1 : t < 𝔹 ^ (k + 1) := by rw [ht]; exact Nat.mod_lt _ hR
  have y1 : y < 𝔹 ^ (k + 1) := by rw [hy]; exact Nat.mod_lt _ hR
  refine ⟨by omega, ?_⟩
  split
  · omega
  · have h1 : Nat.log 𝔹 (y - t) < k + 1 := Nat.log_lt_of_lt_pow (by omega) (by omega)
    have h2 : 𝔹 ^ (Nat.log 𝔹 (y - t) + 1) ≤ 𝔹 ^ (k + 1) := Nat.pow_le_pow_right (by decide) (by omega)
    omega

/-- What `s_reduce` leaves with a negative modulus. -/
structure NReduced (s s' : Id → Option Cell) (x q1 q2 : Id) (cap r : Nat) : Prop where
  hx : ∃ X, s' x = some X ∧ Norm X ∧ X.neg = false ∧ X.mag = r ∧ cap ≤ X.buf.length
  h1 : ∃ X, s' q1 = some X ∧ Norm X ∧ X.neg = false ∧ cap ≤ X.buf.length
  h2 : ∃ X, s' q2 = some X ∧ Norm X ∧ X.neg = false ∧ cap ≤ X.buf.length
  out : ∀ y, y ≠ x → y ≠ q1 → y ≠ q2 → s' y = s y

theorem s_reduce_neg {Q : Bool → Mem → Prop} {x md mu q1 q2 : Id} {X M U Q1 Q2 : Cell} {k cap : Nat} (hE : Ref env E) (h : Rep m s)
    (hx : s x = some X) (hm : s md = some M) (hu : s mu = some U) (h1 : s q1 = some Q1) (h2 : s q2 = some Q2)
    (ox : x.own = true) (o1 : q1.own = true)
    (x1 : x ≠ q1) (x2 : x ≠ q2) (x12 : q1 ≠ q2) (xm : x ≠ md) (m1 : q1 ≠ md) (m2 : q2 ≠ md)
    (u1 : q1 ≠ mu) (u2 : q2 ≠ mu)
    (nX : Norm X) (nM : Norm M) (nU : Norm U)
    (sX : X.neg = false) (sM : M.neg = true) (s2 : Q2.neg = false)
    (hk : M.used = k) (hN : NDig M.mag k) (hU : U.mag = 𝔹 ^ (2 * k) / M.mag) (hXm : X.used ≤ 2 * k + 3)
    (hcap : cap = 4 * U.used) (hUk : k + 1 ≤ U.used) (hUk' : U.used ≤ k + 2)
    (cX : cap ≤ X.buf.length) (c1 : cap ≤ Q1.buf.length) (c2 : cap ≤ Q2.buf.length)
    (hQ : ∀ m' s', Rep m' s' → NReduced s s' x q1 q2 cap (negReduce M.mag X.mag) → Q true m') :
    wp env E (s_reduce x md mu q1 q2) Q m := by
  unfold s_reduce
  have pk : 1 ≤ k := hN.1
  have lM := (h.okl hm).2
  have uM := nM.le
  refine wp_bind (wp_USED h hm ?_)
  rw [hk]
  have e1 : u32 (u32 (k + 1) * 32) = (k + 1) * 32 := by
    rw [u32_of_lt (show k + 1 < 4294967296 by omega), u32_of_lt (by omega)]
  have e2 : u32 (sub32 k 1 * 32) = (k - 1) * 32 := by
    rw [sub32_of_le pk (by omega), u32_of_lt (by omega)]
  rw [e1, e2]
  have pw1 : 2 ^ ((k - 1) * 32) = 𝔹 ^ (k - 1) := by rw [pow𝔹, Nat.mul_comm]
  have pw2 : 2 ^ ((k + 1) * 32) = 𝔹 ^ (k + 1) := by rw [pow𝔹, Nat.mul_comm]
  have pw3 : 𝔹 ^ (k - 1) * 𝔹 ^ (k + 1) = 𝔹 ^ (2 * k) := by
    rw [← Nat.pow_add, show k - 1 + (k + 1) = 2 * k by omega]
  have hP : 0 < 𝔹 ^ (k - 1) := Nat.pow_pos (by decide)
  have hR : 0 < 𝔹 ^ (k + 1) := Nat.pow_pos (by decide)
  have mge : 𝔹 ^ (k - 1) ≤ M.mag := hN.2.1
  have est1 := barrett_le (mv := M.mag) (x := X.mag) hR hP
  rw [pw3, ← hU] at est1
  have Xlt : X.mag < 𝔹 ^ (2 * k + 3) := Nat.lt_of_lt_of_le (mag_lt (h.okd hx) nX.le) (Nat.pow_le_pow_right (by decide) hXm)
  refine wp_bind (mp_int_copy_rep hE h hx h1 o1 nX.le fun m3 C3 h3 sm3 l3 => ?_)
  refine wp_if_neg (by simp) ?_
  have n3 : Norm C3 := sm3.norm nX
  have g3 : C3.mag = X.mag := sm3.magEq
  refine wp_bind (s_qdiv_rep h3 (upd_self _ _ _) n3 fun m4 C4 h4 n4 sg4 l4 g4 => ?_)
  rw [upd_upd] at h4
  rw [pw1, g3] at g4
  have sg4' : C4.neg = false := by rw [sg4, sm3.neg, sX]; simp
  have a4 : upd s q1 (some C4) q1 = some C4 := upd_self _ _ _
  have b4 : upd s q1 (some C4) mu = some U := by rw [upd_ne _ _ (Ne.symm u1)]; exact hu
  have c4 : upd s q1 (some C4) q2 = some Q2 := by rw [upd_ne _ _ (Ne.symm x12)]; exact h2
  have u4 : C4.used ≤ k + 4 := by
    refine n4.used_le (by omega) ?_
    rw [g4, Nat.div_lt_iff_lt_mul hP, ← Nat.pow_add, show k + 4 + (k - 1) = 2 * k + 3 by omega]; exact Xlt
  have room : ∀ {p q L : Nat}, p ≤ k + 4 → q ≤ U.used → cap ≤ L → kext (max p q) ≤ L ∨ p < 8 ∧ q < 8 ∧ p + q ≤ L := by
    intro p q L hp hq hL
    by_cases hk1 : k = 1
    · right; omega
    · left; unfold kext; omega
  refine wp_bind (UMUL_any hE h4 a4 b4 c4 (Ne.symm x12) u2 n4 nU (room u4 (Nat.le_refl _) c2) fun m5 C5 h5 n5 sg5 l5 g5 => ?_)
  refine wp_bind (s_qdiv_rep h5 (upd_self _ _ _) n5 fun m6 C6 h6 n6 sg6 l6 g6 => ?_)
  rw [upd_upd] at h6
  rw [pw2, g5, g4] at g6
  have sg6' : C6.neg = false := by rw [sg6, sg5, s2]; simp
  rw [← g6] at est1
  have a6 : upd (upd s q1 (some C4)) q2 (some C6) x = some X := by
    rw [upd_ne _ _ x2, upd_ne _ _ x1]; exact hx
  refine wp_bind (s_qmod_rep h6 a6 nX (by omega) fun m7 X7 h7 n7 sg7 l7 g7 z7 => ?_)
  rw [pw2] at g7
  have z7' : k + 1 < X.used → X7.buf[k + 1]? = some 0 := by
    intro hlt
    have := z7 (by omega)
    rw [show (k + 1) * 32 / 32 = k + 1 by omega] at this
    exact this fun hh => by omega
  obtain ⟨s7, es7⟩ : ∃ s7, s7 = upd (upd (upd s q1 (some C4)) q2 (some C6)) x (some X7) := ⟨_, rfl⟩
  rw [← es7] at h7
  have a7 : s7 q2 = some C6 := by rw [es7, upd_ne _ _ (Ne.symm x2), upd_self]
  have b7 : s7 md = some M := by
    rw [es7, upd_ne _ _ (Ne.symm xm), upd_ne _ _ (Ne.symm m2), upd_ne _ _ (Ne.symm m1)]; exact hm
  have c7 : s7 q1 = some C4 := by rw [es7, upd_ne _ _ (Ne.symm x1), upd_ne _ _ x12, upd_self]
  have u6 : C6.used ≤ k + 4 := by
    refine n6.used_le (by omega) ?_
    have h5 : C6.mag * 𝔹 ^ (k - 1) ≤ C6.mag * M.mag := Nat.mul_le_mul_left _ mge
    have h6 : C6.mag * 𝔹 ^ (k - 1) < 𝔹 ^ (k + 4) * 𝔹 ^ (k - 1) := by
      rw [← Nat.pow_add, show k + 4 + (k - 1) = 2 * k + 3 by omega]; omega
    exact Nat.lt_of_mul_lt_mul_right h6
  refine wp_bind (UMUL_any hE h7 a7 b7 c7 x12 m1 n6 nM (room u6 (by omega) (by omega)) fun m8 C8 h8 n8 sg8 l8 g8 => ?_)
  refine wp_bind (s_qmod_rep h8 (upd_self _ _ _) n8 (by omega) fun m9 C9 h9 n9 sg9 l9 g9 _ => ?_)
  rw [upd_upd] at h9
  rw [pw2, g8] at g9
  obtain ⟨s9, es9⟩ : ∃ s9, s9 = upd s7 q1 (some C9) := ⟨_, rfl⟩
  rw [← es9] at h9
  have a9 : s9 x = some X7 := by rw [es9, upd_ne _ _ x1, es7, upd_self]
  have b9 : s9 q1 = some C9 := by rw [es9, upd_self]
  have c9 : s9 q2 = some C6 := by rw [es9, upd_ne _ _ (Ne.symm x12)]; exact a7
  have d9 : s9 md = some M := by rw [es9, upd_ne _ _ (Ne.symm m1)]; exact b7
  have o9 : ∀ y, y ≠ x → y ≠ q1 → y ≠ q2 → s9 y = s y := by
    intro y y1 y2 y3
    rw [es9, upd_ne _ _ y2, es7, upd_ne _ _ y1, upd_ne _ _ y3, upd_ne _ _ y2]
  have sg9' : C9.neg = false := by rw [sg9, sg8, sg4']
  have sg7' : X7.neg = false := by rw [sg7, sX]
  have u9 : C9.used ≤ k + 1 := n9.used_le (by omega) (by rw [g9]; exact Nat.mod_lt _ hR)
  have u7 : X7.used ≤ k + 1 := n7.used_le (by omega) (by rw [g7]; exact Nat.mod_lt _ hR)
  have red := negReduce_eq (x := X.mag) (t := X7.mag) (y := C9.mag) hN g7 (by rw [g9, g6, hU])
  refine wp_bind (mp_int_sub_nn hE h9 a9 b9 ox n7 n9 sg7' sg9' fun m10 XA hA nA sgA vA lA zA => ?_)
  have aA : upd s9 x (some XA) x = some XA := upd_self _ _ _
  refine wp_bind (CMPZ_norm hA aA nA ?_)
  have fin : ∀ (m' : Mem) (s' : Id → Option Cell) (XB : Cell), Rep m' s' → s' x = some XB → Norm XB → XB.neg = false →
      XB.mag + 2 * M.mag = negReduce M.mag X.mag → cap ≤ XB.buf.length → (∀ y, y ≠ x → s' y = s9 y) →
      wp env E (do
        if (← mp_int_compare x md) ≥ 0 then do
          let _ ← mp_int_sub x md x
          if (← mp_int_compare x md) ≥ 0 then do
            let _ ← mp_int_sub x md x
            pure true
          else pure true
        else pure true) Q m' := by
    intro m' s' XB hB eB nB sB vB lB oB
    refine reduceTail_neg hE hB eB (by rw [oB _ (Ne.symm xm)]; exact d9) ox xm nB nM sB sM fun mC XC hC nC sC vC lC => hQ mC _ hC ?_
    refine ⟨⟨XC, upd_self _ _ _, nC, sC, by rw [vC, vB], by omega⟩,
      ⟨C9, by rw [upd_ne _ _ (Ne.symm x1), oB _ (Ne.symm x1)]; exact b9, n9, sg9', by omega⟩,
      ⟨C6, by rw [upd_ne _ _ (Ne.symm x2), oB _ (Ne.symm x2)]; exact c9, n6, sg6', by omega⟩, ?_⟩
    intro y y1 y2 y3
    rw [upd_ne _ _ y1, oB _ y1]; exact o9 y y1 y2 y3
  by_cases hlt : X7.mag < C9.mag
  · rw [decide_eq_true hlt] at sgA
    have vA' : XA.mag = C9.mag - X7.mag := by
      rw [abs_of_neg (by omega)] at vA; omega
    have big : k + 1 < X.used := by
      by_contra hcon
      have h5 := mag_lt (h.okd hx) nX.le
      have h6 : 𝔹 ^ X.used ≤ 𝔹 ^ (k + 1) := Nat.pow_le_pow_right (by decide) (by omega)
      rw [Nat.mod_eq_of_lt (by omega)] at g7 g9
      omega
    have zA' := zA (k + 1) (by omega) (z7' big)
    have c9lt : C9.mag < 𝔹 ^ (k + 1) := by rw [g9]; exact Nat.mod_lt _ hR
    have uA : XA.used ≤ k + 1 := nA.used_le (by omega) (by omega)
    have eA : Nat.log 𝔹 (C9.mag - X7.mag) + 1 = XA.used := by
      rw [← vA']; exact ndig_of nA.pos (mag_lt (hA.okd aA) nA.le) fun hh => nA.mag_ge hh
    rw [if_neg (show ¬ C9.mag ≤ X7.mag by omega), eA, ← vA'] at red
    rw [if_neg (show ¬ XA.mag = 0 by omega), sgA]
    refine wp_bind (wp_cif (fun _ => ?_) (fun hc => absurd hc (by decide)))
    refine s_qsub_any hE hA aA ox nA uA rfl (by omega) zA' fun m11 XB hB nB sB vB lB => ?_
    rw [upd_upd] at hB
    refine wp_if_pos rfl ?_
    refine fin m11 _ XB hB (upd_self _ _ _) nB sB (by rw [red, vB]) (by omega) fun y hy => upd_ne _ _ hy
  · rw [decide_eq_false hlt] at sgA
    rw [sgA]
    have vA' : XA.mag = X7.mag - C9.mag := by
      rw [abs_of_nonneg (by omega)] at vA; omega
    rw [if_pos (show C9.mag ≤ X7.mag by omega), ← vA'] at red
    refine wp_bind (wp_cif (fun hc => ?_) (fun _ => wp_pure ?_))
    · exfalso; split at hc <;> simp at hc
    refine wp_if_pos rfl ?_
    exact fin m10 _ XA hA aA nA sgA red.symm (by omega) fun y hy => upd_ne _ _ hy


/-! ### The loops of `s_embar` -/

/-- Square and multiply on pairs of the base and the accumulator. -/
def np (M : Nat) : Nat → Nat → Nat × Nat → Nat × Nat
  | 0, _, p => p
  | n + 1, e, p => np M n (e / 2) (negReduce M (p.1 * p.1), if e % 2 = 1 then negReduce M (p.2 * p.1) else p.2)

theorem negPower_eq (M n e a c : Nat) : negPower M n e a c = (np M n e (a, c)).2 := by
  induction n generalizing e a c with
  | zero => rfl
  | succ n ih => simp only [negPower, np, ih]

theorem np_split (M i j x y : Nat) (p : Nat × Nat) (hx : x < 2 ^ i) : np M (i + j) (x + 2 ^ i * y) p = np M j y (np M i x p) := by
  induction i generalizing x p with
  | zero =>
    have : x = 0 := by simpa using hx
    subst this
    simp [np]
  | succ i ih =>
    have e1 : (x + 2 ^ (i + 1) * y) % 2 = x % 2 := by
      rw [Nat.pow_succ, show 2 ^ i * 2 * y = 2 * (2 ^ i * y) by ring]; omega
    have e2 : (x + 2 ^ (i + 1) * y) / 2 = x / 2 + 2 ^ i * y := by
      rw [Nat.pow_succ, show 2 ^ i * 2 * y = 2 * (2 ^ i * y) by ring]; omega
    rw [show i + 1 + j = (i + j) + 1 by omega, np, np, e1, e2]
    exact ih _ _ (by rw [Nat.pow_succ] at hx; omega)

theorem np_zero (M n : Nat) (p : Nat × Nat) : (np M n 0 p).2 = p.2 := by
  induction n generalizing p with
  | zero => rfl
  | succ n ih => rw [np, Nat.zero_div, ih]; simp

theorem np_indep {M n e : Nat} (p : Nat × Nat) (h : e < 2 ^ n) : (np M n e p).2 = (np M (Nat.size e) e p).2 := by
  obtain ⟨j, rfl⟩ := Nat.exists_eq_add_of_le (Nat.size_le.2 h)
  have := np_split M (Nat.size e) j e 0 p (Nat.lt_size_self e)
  rw [Nat.mul_zero, Nat.add_zero] at this
  rw [this, np_zero]

/-- The fixed part of the state of `s_embar`. -/
structure NCtx (s0 : Id → Option Cell) (a md mu c t0 t1 t2 : Id) (D U : Cell) (k : Nat) : Prop where
  hm : s0 md = some D
  hu : s0 mu = some U
  nM : Norm D
  nU : Norm U
  sM : D.neg = true
  hk : D.used = k
  hN : NDig D.mag k
  hU : U.mag = 𝔹 ^ (2 * k) / D.mag
  hUk : k + 1 ≤ U.used
  hUk' : U.used ≤ k + 2
  t01 : t0 ≠ t1
  t02 : t0 ≠ t2
  t12 : t1 ≠ t2
  a0 : t0 ≠ a
  a1 : t1 ≠ a
  a2 : t2 ≠ a
  c0 : t0 ≠ c
  c1 : t1 ≠ c
  c2 : t2 ≠ c
  m0 : t0 ≠ md
  m1 : t1 ≠ md
  m2 : t2 ≠ md
  u0 : t0 ≠ mu
  u1 : t1 ≠ mu
  u2 : t2 ≠ mu
  ac : a ≠ c
  am : a ≠ md
  au : a ≠ mu
  cm : c ≠ md
  cu : c ≠ mu
  oa : a.own = true
  oc : c.own = true
  o0 : t0.own = true
  o1 : t1.own = true

/-- The varying part: base power and accumulator. -/
structure NInv (m : Mem) (s0 s : Id → Option Cell) (a c t0 t1 t2 : Id) (k cap M : Nat) (p : Nat × Nat) : Prop where
  rep : Rep m s
  ha : ∃ A, s a = some A ∧ Norm A ∧ (A.neg = true → A.mag ≠ 0) ∧ A.mag = p.1
  hc : ∃ C, s c = some C ∧ Norm C ∧ C.neg = false ∧ C.mag = p.2
  h0 : ∃ X, s t0 = some X ∧ Norm X ∧ X.neg = false ∧ cap ≤ X.buf.length
  h1 : ∃ X, s t1 = some X ∧ Norm X ∧ X.neg = false ∧ cap ≤ X.buf.length
  h2 : ∃ X, s t2 = some X ∧ Norm X ∧ X.neg = false ∧ cap ≤ X.buf.length
  out : ∀ y, y ≠ a → y ≠ c → y ≠ t0 → y ≠ t1 → y ≠ t2 → s y = s0 y
  la : p.1 < 𝔹 ^ (k + 1) + 2 * M
  lc : p.2 < 𝔹 ^ (k + 1) + 2 * M

theorem limit_used {M k : Nat} (hN : NDig M k) (nC : Norm C) (h : C.mag < 𝔹 ^ (k + 1) + 2 * M) : C.used ≤ k + 2 := by
  refine nC.used_le (by omega) ?_
  have h1 := hN.2.2
  have e1 : 𝔹 ^ (k + 1) = 𝔹 ^ k * 𝔹 := Nat.pow_succ _ _
  have e2 : 𝔹 ^ (k + 2) = 𝔹 ^ (k + 1) * 𝔹 := Nat.pow_succ _ _
  omega

theorem limit_prod {M k p q : Nat} (hN : NDig M k) (nC : Norm C) (hp : p < 𝔹 ^ (k + 1) + 2 * M) (hq : q < 𝔹 ^ (k + 1) + 2 * M)
    (h : C.mag = p * q) : C.used ≤ 2 * k + 3 := by
  refine nC.used_le (by omega) ?_
  have h1 := hN.2.2
  have e1 : 𝔹 ^ (k + 1) = 𝔹 ^ k * 𝔹 := Nat.pow_succ _ _
  have hp' : p < 3 * 𝔹 ^ (k + 1) := by omega
  have hq' : q < 3 * 𝔹 ^ (k + 1) := by omega
  have h2 := Nat.mul_lt_mul'' hp' hq'
  have e2 : 𝔹 ^ (2 * k + 3) = 𝔹 ^ (k + 1) * 𝔹 ^ (k + 1) * 𝔹 := by
    rw [← Nat.pow_add, ← Nat.pow_succ]; congr 1; omega
  have e3 : 3 * 𝔹 ^ (k + 1) * (3 * 𝔹 ^ (k + 1)) = 9 * (𝔹 ^ (k + 1) * 𝔹 ^ (k + 1)) := by ring
  rw [h, e2]
  generalize 𝔹 ^ (k + 1) * 𝔹 ^ (k + 1) = z at *
  omega

variable {p : Nat × Nat}

theorem nembar_reduce {Q : Bool → Mem → Prop} {X : Cell} (hE : Ref env E)
    (ctx : NCtx s0 a md mu c t0 t1 t2 D U k) (h : NInv m s0 s a c t0 t1 t2 k (4 * U.used) D.mag p) {m1 : Mem}
    (hr : Rep m1 (upd s t0 (some X))) (nX : Norm X) (sX : X.neg = false) (lX : 4 * U.used ≤ X.buf.length)
    (bX : X.used ≤ 2 * k + 3)
    (hQ : ∀ m' s', NInv m' s0 s' a c t0 t1 t2 k (4 * U.used) D.mag p →
      (∃ X', s' t0 = some X' ∧ Norm X' ∧ X'.neg = false ∧ X'.mag = negReduce D.mag X.mag) → Q true m') :
    wp env E (s_reduce t0 md mu t1 t2) Q m1 := by
  obtain ⟨Q1, q1, q1n, q1s, q1l⟩ := h.h1
  obtain ⟨Q2, q2, q2n, q2s, q2l⟩ := h.h2
  refine s_reduce_neg (X := X) (M := D) (U := U) (Q1 := Q1) (Q2 := Q2) (k := k) hE hr (upd_self _ _ _) ?_ ?_ ?_ ?_
    ctx.o0 ctx.o1 ctx.t01 ctx.t02 ctx.t12 ctx.m0 ctx.m1 ctx.m2 ctx.u1 ctx.u2 nX ctx.nM ctx.nU sX ctx.sM q2s ctx.hk ctx.hN
    ctx.hU bX rfl ctx.hUk ctx.hUk' lX q1l q2l fun m' s' h' r' => ?_
  · rw [upd_ne _ _ (Ne.symm ctx.m0), h.out _ (Ne.symm ctx.am) (Ne.symm ctx.cm) (Ne.symm ctx.m0) (Ne.symm ctx.m1) (Ne.symm ctx.m2)]
    exact ctx.hm
  · rw [upd_ne _ _ (Ne.symm ctx.u0), h.out _ (Ne.symm ctx.au) (Ne.symm ctx.cu) (Ne.symm ctx.u0) (Ne.symm ctx.u1) (Ne.symm ctx.u2)]
    exact ctx.hu
  · rw [upd_ne _ _ (Ne.symm ctx.t01)]; exact q1
  · rw [upd_ne _ _ (Ne.symm ctx.t02)]; exact q2
  · obtain ⟨X', x1, x2, x3, x4, x5⟩ := r'.hx
    refine hQ m' s' ⟨h', ?_, ?_, ⟨X', x1, x2, x3, x5⟩, r'.h1, r'.h2, ?_, h.la, h.lc⟩ ⟨X', x1, x2, x3, x4⟩
    · rw [r'.out _ (Ne.symm ctx.a0) (Ne.symm ctx.a1) (Ne.symm ctx.a2), upd_ne _ _ (Ne.symm ctx.a0)]; exact h.ha
    · rw [r'.out _ (Ne.symm ctx.c0) (Ne.symm ctx.c1) (Ne.symm ctx.c2), upd_ne _ _ (Ne.symm ctx.c0)]; exact h.hc
    · intro y y1 y2 y3 y4 y5
      rw [r'.out _ y3 y4 y5, upd_ne _ _ y3]; exact h.out y y1 y2 y3 y4 y5

theorem nembarMul_spec {Q : Int → Mem → Prop} {kont : M Int} (hE : Ref env E)
    (ctx : NCtx s0 a md mu c t0 t1 t2 D U k) (h : NInv m s0 s a c t0 t1 t2 k (4 * U.used) D.mag p)
    (hQ : ∀ m' s', NInv m' s0 s' a c t0 t1 t2 k (4 * U.used) D.mag (p.1, negReduce D.mag (p.2 * p.1)) → wp env E kont Q m') :
    wp env E (embarMul a md mu c t0 t1 t2 kont) Q m := by
  unfold embarMul
  obtain ⟨A, a1, a2, a3, a4⟩ := h.ha
  obtain ⟨C, c1, c2, c3, c4⟩ := h.hc
  obtain ⟨X, x1, x2, x3, x4⟩ := h.h0
  have pk := ctx.hN.1
  have uA : A.used ≤ k + 2 := limit_used ctx.hN a2 (by rw [a4]; exact h.la)
  have uC : C.used ≤ k + 2 := limit_used ctx.hN c2 (by rw [c4]; exact h.lc)
  have hUk := ctx.hUk
  refine wp_bind (UMUL_any hE h.rep c1 a1 x1 ctx.c0 ctx.a0 c2 a2 (.inl ?_) fun m1 X1 h1 n1 s1 l1 g1 => ?_)
  · unfold kext; omega
  refine wp_bind (nembar_reduce hE ctx h h1 n1 (by rw [s1, x3]) (by omega)
    (limit_prod ctx.hN n1 h.lc h.la (by rw [g1, a4, c4])) fun m2 s2 h2 ⟨X', y1, y2, y3, y4⟩ => ?_)
  refine wp_if_pos rfl ?_
  obtain ⟨C2, d1, d2, d3, d4⟩ := h2.hc
  refine wp_bind (mp_int_copy_rep hE h2.rep y1 d1 ctx.oc y2.le fun m3 C3 h3 sm l3 => ?_)
  refine hQ m3 _ ⟨h3, ?_, ⟨C3, upd_self _ _ _, sm.norm y2, by rw [sm.neg, y3], by rw [sm.magEq, y4, g1, a4, c4]⟩,
    ?_, ?_, ?_, ?_, h.la, (negReduce_bound ctx.hN).2⟩
  · rw [upd_ne _ _ ctx.ac]; exact h2.ha
  · rw [upd_ne _ _ ctx.c0]; exact h2.h0
  · rw [upd_ne _ _ ctx.c1]; exact h2.h1
  · rw [upd_ne _ _ ctx.c2]; exact h2.h2
  · intro y z1 z2 z3 z4 z5
    rw [upd_ne _ _ z2]; exact h2.out y z1 z2 z3 z4 z5

theorem nembarSqr_spec {Q : Int → Mem → Prop} {kont : M Int} {chk : Bool} (hE : Ref env E)
    (ctx : NCtx s0 a md mu c t0 t1 t2 D U k) (h : NInv m s0 s a c t0 t1 t2 k (4 * U.used) D.mag p)
    (hQ : ∀ m' s', NInv m' s0 s' a c t0 t1 t2 k (4 * U.used) D.mag (negReduce D.mag (p.1 * p.1), p.2) → wp env E kont Q m') :
    wp env E (embarSqr chk a md mu t0 t1 t2 kont) Q m := by
  unfold embarSqr
  obtain ⟨A, a1, a2, a3, a4⟩ := h.ha
  obtain ⟨X, x1, x2, x3, x4⟩ := h.h0
  have pk := ctx.hN.1
  have uA : A.used ≤ k + 2 := limit_used ctx.hN a2 (by rw [a4]; exact h.la)
  have hUk := ctx.hUk
  refine wp_bind (USQR_rep hE h.rep a1 x1 ctx.a0 a2 ?_ fun m1 X1 h1 n1 s1 l1 g1 z1 => ?_)
  · unfold kext; omega
  have sX1 : X1.neg = false := by rw [s1, x3]
  have red := nembar_reduce (Q := fun r m' => wp env E (if r = true then do
        cwhen (chk = true) do cassert (!(← MP_SIGN t0))
        let _ ← mp_int_copy t0 a
        kont
      else pure MP_MEMORY) Q m') hE ctx h h1 n1 sX1 (by omega)
    (limit_prod ctx.hN n1 h.la h.la (by rw [g1, a4])) fun m2 s2 h2 ⟨X', y1, y2, y3, y4⟩ => ?_
  · refine wp_bind (wp_cwhen (fun hc => ?_) (fun hc => ?_))
    · refine wp_bind (wp_SIGN h1 (upd_self _ _ _) ?_)
      rw [sX1]
      exact wp_cassert rfl (wp_bind red)
    · exact wp_bind red
  refine wp_if_pos rfl ?_
  obtain ⟨C2, d1, d2, d3, d4⟩ := h2.ha
  have cp : wp env E (do
        let _ ← mp_int_copy t0 a
        kont) Q m2 := by
    refine wp_bind (mp_int_copy_rep hE h2.rep y1 d1 ctx.oa y2.le fun m3 C3 h3 sm l3 => ?_)
    refine hQ m3 _ ⟨h3, ⟨C3, upd_self _ _ _, sm.norm y2, by rw [sm.neg, y3]; simp, by rw [sm.magEq, y4, g1, a4]⟩, ?_,
      ?_, ?_, ?_, ?_, (negReduce_bound ctx.hN).2, h.lc⟩
    · rw [upd_ne _ _ (Ne.symm ctx.ac)]; exact h2.hc
    · rw [upd_ne _ _ ctx.a0]; exact h2.h0
    · rw [upd_ne _ _ ctx.a1]; exact h2.h1
    · rw [upd_ne _ _ ctx.a2]; exact h2.h2
    · intro y z1 z2 z3 z4 z5
      rw [upd_ne _ _ z1]; exact h2.out y z1 z2 z3 z4 z5
  refine wp_bind (wp_cwhen (fun hc => ?_) (fun hc => ?_))
  · refine wp_bind (wp_SIGN h2.rep y1 ?_)
    rw [y3]
    exact wp_cassert rfl cp
  · exact cp

theorem nembarBits_spec {Q : Int → Mem → Prop} {kont : M Int} {n d : Nat} (hE : Ref env E)
    (ctx : NCtx s0 a md mu c t0 t1 t2 D U k) (h : NInv m s0 s a c t0 t1 t2 k (4 * U.used) D.mag p)
    (hQ : ∀ m' s', NInv m' s0 s' a c t0 t1 t2 k (4 * U.used) D.mag (np D.mag n d p) → wp env E kont Q m') :
    wp env E (embarBits a md mu c t0 t1 t2 kont n d) Q m := by
  induction n generalizing m s d p with
  | zero => exact hQ m s h
  | succ n ih =>
    simp only [embarBits]
    have e1 : d &&& 1 = d % 2 := Nat.and_one_is_mod d
    have e2 : d >>> 1 = d / 2 := by rw [Nat.shiftRight_eq_div_pow, Nat.pow_one]
    rw [e1, e2]
    refine wp_ite (fun hb => ?_) (fun hb => ?_)
    · refine nembarMul_spec hE ctx h fun m1 s1 h1 => nembarSqr_spec hE ctx h1 fun m2 s2 h2 => ih h2 fun m3 s3 h3 => hQ m3 s3 ?_
      rw [np, if_pos (by omega)]; exact h3
    · refine nembarSqr_spec hE ctx h fun m2 s2 h2 => ih h2 fun m3 s3 h3 => hQ m3 s3 ?_
      rw [np, if_neg (by omega)]; exact h3

theorem nembarTop_spec {Q : Int → Mem → Prop} {f d : Nat} (hE : Ref env E)
    (ctx : NCtx s0 a md mu c t0 t1 t2 D U k) (h : NInv m s0 s a c t0 t1 t2 k (4 * U.used) D.mag p) (hd : d < 2 ^ f)
    (hQ : ∀ m' s' q, NInv m' s0 s' a c t0 t1 t2 k (4 * U.used) D.mag q → q.2 = (np D.mag f d p).2 → Q MP_OK m') :
    wp env E (embarTop a md mu c t0 t1 t2 (f + 1) d) Q m := by
  induction f generalizing m s d p with
  | zero =>
    have : d = 0 := by simpa using hd
    subst this
    simp only [embarTop]
    refine wp_if_neg (by simp) (wp_if_pos (by simp) (wp_pure (hQ m s _ h rfl)))
  | succ f ih =>
    rw [embarTop]
    have e1 : d &&& 1 = d % 2 := Nat.and_one_is_mod d
    have e2 : d >>> 1 = d / 2 := by rw [Nat.shiftRight_eq_div_pow, Nat.pow_one]
    rw [e1, e2]
    have tail : ∀ m1 s1 cv1, NInv m1 s0 s1 a c t0 t1 t2 k (4 * U.used) D.mag (p.1, cv1) →
        cv1 = (if d % 2 = 1 then negReduce D.mag (p.2 * p.1) else p.2) →
        wp env E (if d / 2 = 0 then pure MP_OK
          else embarSqr false a md mu t0 t1 t2 (embarTop a md mu c t0 t1 t2 (f + 1) (d / 2))) Q m1 := by
      intro m1 s1 cv1 h1 hc1
      refine wp_ite (fun h0 => ?_) (fun h0 => ?_)
      · refine wp_pure (hQ m1 s1 _ h1 ?_)
        rw [np, h0, np_zero]; exact hc1
      · refine nembarSqr_spec hE ctx h1 fun m2 s2 h2 => ih h2 (by rw [Nat.pow_succ] at hd; omega) fun m3 s3 q h3 e3 => hQ m3 s3 q h3 ?_
        rw [np, e3, ← hc1]
    refine wp_ite (fun hb => ?_) (fun hb => ?_)
    · refine nembarMul_spec hE ctx h fun m1 s1 h1 => tail m1 s1 _ h1 ?_
      rw [if_pos (by omega)]
    · refine tail m s p.2 h ?_
      rw [if_neg (by omega)]

theorem nembarDigits_spec {Q : Int → Mem → Prop} {kont : M Int} {n i : Nat} (hE : Ref env E)
    (ctx : NCtx s0 a md mu c t0 t1 t2 D U k) (hb : s0 b = some B)
    (ab : b ≠ a) (cb : b ≠ c) (b0 : b ≠ t0) (b1 : b ≠ t1) (b2 : b ≠ t2) (hn : i + n ≤ B.buf.length)
    (h : NInv m s0 s a c t0 t1 t2 k (4 * U.used) D.mag p)
    (hQ : ∀ m' s', NInv m' s0 s' a c t0 t1 t2 k (4 * U.used) D.mag (np D.mag (32 * n) (val ((B.buf.drop i).take n)) p) →
      wp env E kont Q m') :
    wp env E (embarDigits a md mu c t0 t1 t2 kont n (B.ptr.add i)) Q m := by
  induction n generalizing m s i p with
  | zero => exact hQ m s (by simpa [np] using h)
  | succ n ih =>
    simp only [embarDigits]
    have hi : i < B.buf.length := by omega
    have hbs : s b = some B := by rw [h.out b ab cb b0 b1 b2]; exact hb
    refine wp_bind (wp_rdz (i := i) h.rep hbs (List.getElem?_eq_getElem hi) ?_)
    have hdlt := (h.rep.okd hbs) _ (List.getElem_mem hi)
    refine nembarBits_spec hE ctx h fun m1 s1 h1 => ?_
    rw [show (B.ptr.add i).add 1 = B.ptr.add (i + 1) by simp [Ptr.add]]
    refine ih (by omega) h1 fun m2 s2 h2 => hQ m2 s2 ?_
    rw [List.drop_eq_getElem_cons hi, List.take_succ_cons, val_cons, show 32 * (n + 1) = 32 + 32 * n by omega]
    have := np_split D.mag 32 (32 * n) B.buf[i] (val (List.take n (List.drop (i + 1) B.buf))) p hdlt
    rw [show (2 : Nat) ^ 32 = 𝔹 from rfl] at this
    rw [this]; exact h2


theorem s_embar_neg {Q : Int → Mem → Prop} (hE : Ref env E) (h : Rep m s)
    (ha : s a = some A) (hb : s b = some B) (hm : s md = some D) (hu : s mu = some U) (hc : s c = some C)
    (oa : a.own = true) (oc : c.own = true) (ac : a ≠ c) (ab : b ≠ a) (cb : b ≠ c) (am : a ≠ md) (au : a ≠ mu)
    (cm : c ≠ md) (cu : c ≠ mu)
    (nA : Norm A) (nB : Norm B) (nD : Norm D) (nU : Norm U) (sA : A.neg = true → A.mag ≠ 0) (sD : D.neg = true)
    (hA : A.mag < 2 * D.mag) (hD0 : 0 < D.mag) (hU : U.mag = 𝔹 ^ (2 * D.used) / D.mag)
    (hQ : ∀ m' s' A' C', Rep m' s' → s' a = some A' → Norm A' → (A'.neg = true → A'.mag ≠ 0) → s' c = some C' → Norm C' → C'.neg = false →
      C'.mag = negPower D.mag (Nat.size B.mag) B.mag A.mag 1 → (∀ y, y ≠ a → y ≠ c → s' y = s y) → Q MP_OK m') :
    wp env E (s_embar a b md mu c) Q m := by
  unfold s_embar
  have pD := nD.pos
  have uD := nD.le
  have lD := (h.okl hm).2
  have lU := (h.okl hu).2
  have uU := nU.le
  have uB := nB.le
  have pB := nB.pos
  have mlt : D.mag < 𝔹 ^ D.used := mag_lt (h.okd hm) uD
  have mge : 𝔹 ^ (D.used - 1) ≤ D.mag := by
    by_cases hk1 : D.used = 1
    · rw [hk1]; simp; omega
    · exact nD.mag_ge (by omega)
  have pw : 𝔹 ^ (2 * D.used) = 𝔹 ^ D.used * 𝔹 ^ D.used := by rw [← Nat.pow_add, show D.used + D.used = 2 * D.used by omega]
  have pw' : 𝔹 ^ (2 * D.used) = 𝔹 ^ (D.used + 1) * 𝔹 ^ (D.used - 1) := by
    rw [← Nat.pow_add, show D.used + 1 + (D.used - 1) = 2 * D.used by omega]
  have hU1 : 𝔹 ^ D.used ≤ U.mag := by
    rw [hU, Nat.le_div_iff_mul_le hD0, pw]
    exact Nat.mul_le_mul_left _ mlt.le
  have hU2 : U.mag ≤ 𝔹 ^ (D.used + 1) := by
    have := Nat.mul_le_mul_left (𝔹 ^ (D.used + 1)) mge
    rw [hU]
    refine Nat.div_le_of_le_mul ?_
    rw [pw', Nat.mul_comm D.mag]; exact this
  have k1 : D.used + 1 ≤ U.used := by
    by_contra hcon
    have h1 := mag_lt (h.okd hu) uU
    have h2 : 𝔹 ^ U.used ≤ 𝔹 ^ D.used := Nat.pow_le_pow_right (by decide) (by omega)
    omega
  have k2 : U.used ≤ D.used + 2 := by
    refine nU.used_le (by omega) (Nat.lt_of_le_of_lt hU2 ?_)
    exact Nat.pow_lt_pow_right (by decide) (by omega)
  refine wp_bind (wp_USED h hu ?_)
  refine wp_bind (wp_DIGITS h hb ?_)
  refine wp_bind (wp_USED h hb ?_)
  have lB := (h.okl hb).2
  rw [u32_of_lt (show 4 * U.used < 4294967296 by omega), sub32_of_le pB (by omega)]
  refine withTemp_rep h fun t0 m1 f0 o0 h1 => ?_
  refine withTemp_rep h1 fun t1 m2 f1 o1 h2 => ?_
  refine withTemp_rep h2 fun t2 m3 f2 o2 h3 => ?_
  have n01 : t0 ≠ t1 := fun e => by rw [← e, upd_self] at f1; cases f1
  have n12 : t1 ≠ t2 := fun e => by rw [← e, upd_self] at f2; cases f2
  have n02 : t0 ≠ t2 := fun e => by rw [← e, upd_ne _ _ n01, upd_self] at f2; cases f2
  have f1' : s t1 = none := by rw [upd_ne _ _ (Ne.symm n01)] at f1; exact f1
  have f2' : s t2 = none := by
    rw [upd_ne _ _ (Ne.symm n12), upd_ne _ _ (Ne.symm n02)] at f2; exact f2
  have ne0 : ∀ {y Y}, s y = some Y → y ≠ t0 := fun hy e => by rw [e, f0] at hy; cases hy
  have ne1 : ∀ {y Y}, s y = some Y → y ≠ t1 := fun hy e => by rw [e, f1'] at hy; cases hy
  have ne2 : ∀ {y Y}, s y = some Y → y ≠ t2 := fun hy e => by rw [e, f2'] at hy; cases hy
  obtain ⟨s3, es3⟩ : ∃ s3, s3 = upd (upd (upd s t0 (some (zeroCell t0))) t1 (some (zeroCell t1))) t2 (some (zeroCell t2)) := ⟨_, rfl⟩
  rw [← es3] at h3
  have z0 : s3 t0 = some (zeroCell t0) := by rw [es3, upd_ne _ _ n02, upd_ne _ _ n01, upd_self]
  have z1 : s3 t1 = some (zeroCell t1) := by rw [es3, upd_ne _ _ n12, upd_self]
  have z2 : s3 t2 = some (zeroCell t2) := by rw [es3, upd_self]
  have zo : ∀ y, y ≠ t0 → y ≠ t1 → y ≠ t2 → s3 y = s y := by
    intro y y0 y1 y2
    rw [es3, upd_ne _ _ y2, upd_ne _ _ y1, upd_ne _ _ y0]
  refine wp_require (GROW_spec hE h3 z0 o0 (by omega) fun m4 X0 h4 g0 l0 => ⟨rfl, ?_⟩)
  refine wp_require (GROW_spec hE h4 (by rw [upd_ne _ _ (Ne.symm n01)]; exact z1) o1 (by omega) fun m5 X1 h5 g1 l1 => ⟨rfl, ?_⟩)
  refine wp_require (GROW_spec hE h5 (by rw [upd_ne _ _ (Ne.symm n12), upd_ne _ _ (Ne.symm n02)]; exact z2) o2 (by omega)
    fun m6 X2 h6 g2 l2 => ⟨rfl, ?_⟩)
  have N : ∀ {t : Id} {X : Cell}, Grow (zeroCell t) X → Norm X ∧ X.used = 1 ∧ X.neg = false := by
    intro t X g
    exact ⟨(zeroCell_good t).norm.grow g, g.used, g.neg⟩
  obtain ⟨s6, es6⟩ : ∃ s6, s6 = upd (upd (upd s3 t0 (some X0)) t1 (some X1)) t2 (some X2) := ⟨_, rfl⟩
  rw [← es6] at h6
  have y0 : s6 t0 = some X0 := by rw [es6, upd_ne _ _ n02, upd_ne _ _ n01, upd_self]
  have y1 : s6 t1 = some X1 := by rw [es6, upd_ne _ _ n12, upd_self]
  have y2 : s6 t2 = some X2 := by rw [es6, upd_self]
  have yo : ∀ y, y ≠ t0 → y ≠ t1 → y ≠ t2 → s6 y = s y := by
    intro y y0 y1 y2
    rw [es6, upd_ne _ _ y2, upd_ne _ _ y1, upd_ne _ _ y0, zo y y0 y1 y2]
  refine zeroed_rep h6 y0 (N g0).1 (N g0).2.1 (N g0).2.2 ?_
  intro m7 W0 h7 w0n w0s w0b
  refine zeroed_rep h7 (by rw [upd_ne _ _ (Ne.symm n01)]; exact y1) (N g1).1 (N g1).2.1 (N g1).2.2 fun m8 W1 h8 w1n w1s w1b => ?_
  refine zeroed_rep h8 (by rw [upd_ne _ _ (Ne.symm n12), upd_ne _ _ (Ne.symm n02)]; exact y2) (N g2).1 (N g2).2.1 (N g2).2.2
    fun m9 W2 h9 w2n w2s w2b => ?_
  obtain ⟨s9, es9⟩ : ∃ s9, s9 = upd (upd (upd s6 t0 (some W0)) t1 (some W1)) t2 (some W2) := ⟨_, rfl⟩
  rw [← es9] at h9
  have x0 : s9 t0 = some W0 := by rw [es9, upd_ne _ _ n02, upd_ne _ _ n01, upd_self]
  have x1 : s9 t1 = some W1 := by rw [es9, upd_ne _ _ n12, upd_self]
  have x2 : s9 t2 = some W2 := by rw [es9, upd_self]
  have xo : ∀ y, y ≠ t0 → y ≠ t1 → y ≠ t2 → s9 y = s y := by
    intro y y0 y1 y2
    rw [es9, upd_ne _ _ y2, upd_ne _ _ y1, upd_ne _ _ y0, yo y y0 y1 y2]
  have xs : ∀ {y Y}, s y = some Y → s9 y = some Y := fun hy => by
    rw [xo _ (ne0 hy) (ne1 hy) (ne2 hy)]; exact hy
  refine wp_bind (set_one_rep hE h9 (xs hc) oc fun m10 C1 h10 c1n c1s c1v => ?_)
  have L0 : 4 * U.used ≤ W0.buf.length := by rw [w0b]; simpa using l0
  have hN : NDig D.mag D.used := ⟨pD, mge, mlt⟩
  have ctx : NCtx s9 a md mu c t0 t1 t2 D U D.used :=
    { hm := xs hm, hu := xs hu, nM := nD, nU := nU, sM := sD, hk := rfl, hN := hN, hU := hU, hUk := k1, hUk' := k2,
      t01 := n01, t02 := n02, t12 := n12,
      a0 := (ne0 ha).symm, a1 := (ne1 ha).symm, a2 := (ne2 ha).symm, c0 := (ne0 hc).symm, c1 := (ne1 hc).symm, c2 := (ne2 hc).symm,
      m0 := (ne0 hm).symm, m1 := (ne1 hm).symm, m2 := (ne2 hm).symm, u0 := (ne0 hu).symm, u1 := (ne1 hu).symm, u2 := (ne2 hu).symm,
      ac := ac, am := am, au := au, cm := cm, cu := cu, oa := oa, oc := oc, o0 := o0, o1 := o1 }
  have hp1 : 1 ≤ 𝔹 ^ (D.used + 1) := Nat.pow_pos (by decide)
  have inv : NInv m10 s9 (upd s9 c (some C1)) a c t0 t1 t2 D.used (4 * U.used) D.mag (A.mag, 1) := by
    refine ⟨h10, ⟨A, ?_, nA, sA, rfl⟩, ⟨C1, upd_self _ _ _, c1n, c1s, c1v⟩, ⟨W0, ?_, w0n, w0s, L0⟩, ⟨W1, ?_, w1n, w1s, ?_⟩,
      ⟨W2, ?_, w2n, w2s, ?_⟩, ?_, ?_, ?_⟩
    · rw [upd_ne _ _ ac]; exact xs ha
    · rw [upd_ne _ _ (ne0 hc).symm]; exact x0
    · rw [upd_ne _ _ (ne1 hc).symm]; exact x1
    · rw [w1b]; simpa using l1
    · rw [upd_ne _ _ (ne2 hc).symm]; exact x2
    · rw [w2b]; simpa using l2
    · intro y _ y2 _ _ _; rw [upd_ne _ _ y2]
    · show A.mag < _; omega
    · show 1 < _; omega
  have hlast : B.used - 1 < B.buf.length := by omega
  refine nembarDigits_spec (i := 0) hE ctx (xs hb) ab cb (ne0 hb) (ne1 hb) (ne2 hb) (by omega) inv fun m11 s11 i11 => ?_
  have hb11 : s11 b = some B := by rw [i11.out b ab cb (ne0 hb) (ne1 hb) (ne2 hb)]; exact xs hb
  refine wp_bind (wp_rdz (i := B.used - 1) i11.rep hb11 (List.getElem?_eq_getElem hlast) ?_)
  have hdlt := (i11.rep.okd hb11) _ (List.getElem_mem hlast)
  refine nembarTop_spec (f := 32) hE ctx i11 hdlt fun m12 s12 q12 i12 a12 => ?_
  obtain ⟨A', p1, p2, p3, p4⟩ := i12.ha
  obtain ⟨C', q1, q2, q3, q4⟩ := i12.hc
  obtain ⟨V0, v0, _⟩ := i12.h0
  obtain ⟨V1, v1, _⟩ := i12.h1
  obtain ⟨V2, v2, _⟩ := i12.h2
  refine ⟨s12, V2, i12.rep, v2, fun m13 h13 => ⟨_, V1, h13, by rw [upd_ne _ _ n12]; exact v1, fun m14 h14 =>
    ⟨_, V0, h14, by rw [upd_ne _ _ n01, upd_ne _ _ n02]; exact v0, fun m15 h15 => ?_⟩⟩⟩
  refine hQ m15 _ A' C' h15 ?_ p2 p3 ?_ q2 q3 ?_ ?_
  · rw [upd_ne _ _ (ne0 ha), upd_ne _ _ (ne1 ha), upd_ne _ _ (ne2 ha)]; exact p1
  · rw [upd_ne _ _ (ne0 hc), upd_ne _ _ (ne1 hc), upd_ne _ _ (ne2 hc)]; exact q1
  · rw [q4, a12, negPower_eq]
    have e1 : val (List.take (B.used - 1) (List.drop 0 B.buf)) + 2 ^ (32 * (B.used - 1)) * B.buf[B.used - 1] = B.mag := by
      unfold Cell.mag
      conv => rhs; rw [show B.used = B.used - 1 + 1 by omega]
      rw [val_take_succ _ _ hlast, pow𝔹]; simp
    have dl : Dig (List.take (B.used - 1) (List.drop 0 B.buf)) := ((h.okd hb).drop 0).take _
    have ll : val (List.take (B.used - 1) (List.drop 0 B.buf)) < 2 ^ (32 * (B.used - 1)) := by
      have := val_lt dl
      rw [List.length_take, List.length_drop, Nat.min_eq_left (by omega), pow𝔹] at this
      exact this
    have sp := np_split D.mag (32 * (B.used - 1)) 32 _ B.buf[B.used - 1] (A.mag, 1) ll
    rw [e1] at sp
    rw [← sp]
    refine np_indep _ ?_
    have := mag_lt (h.okd hb) uB
    rw [pow𝔹] at this
    rw [show 32 * (B.used - 1) + 32 = 32 * B.used by omega]; exact this
  · intro y y1 y2
    by_cases e0 : y = t0
    · rw [e0, upd_self, f0]
    · rw [upd_ne _ _ e0]
      by_cases e1 : y = t1
      · rw [e1, upd_self, f1']
      · rw [upd_ne _ _ e1]
        by_cases e2 : y = t2
        · rw [e2, upd_self, f2']
        · rw [upd_ne _ _ e2, i12.out y y1 y2 e0 e1 e2, xo y e0 e1 e2]



/-! ### At the level of values -/

theorem s_brmu_all {Q : Int → Mem → Prop} {z md : Id} (hE : Ref env E) (h : R2 m σ)
    (hz : σ z = some w) (hm : σ md = some v) (ho : z.own = true) (hne : z ≠ md)
    (hQ0 : v = 0 → ∀ m', R2 m' (upd σ z (some ((if w < 0 then -1 else 1) * 2 ^ (64 * ndig v)))) → Q MP_UNDEF m')
    (hQ : v ≠ 0 → ∀ m', R2 m' (upd σ z (some (((if w < 0 then -1 else 1) * 2 ^ (64 * ndig v)).tdiv v))) → Q MP_OK m') :
    wp env E (s_brmu z md) Q m := by
  unfold s_brmu
  refine wp_bind (MP_USED_val h hm fun hk => ?_)
  generalize ndig v = k at *
  obtain ⟨s, r, g⟩ := h
  obtain ⟨C, hC, gC⟩ := g.get hz
  rw [u32_of_lt (by omega)]
  refine wp_bind (s_pad_spec hE r hC ho (by omega) fun m1 C1 h1 g1 l1 => ?_)
  refine wp_if_pos rfl ?_
  have lC1 := (h1.okl (upd_self _ _ _)).2
  rw [u32_of_lt (show 32 * (k * 2) < 4294967296 by omega)]
  refine wp_bind (s_2expt_rep hE h1 (upd_self _ _ _) ho (by omega) fun m2 C2 h2 n2 s2 _ v2 => ?_)
  rw [upd_upd] at h2
  rw [show 32 * (k * 2) = 64 * k by omega] at v2
  have r2 : R2 m2 (upd σ z (some ((if w < 0 then -1 else 1) * 2 ^ (64 * k)))) := by
    have gg : Good C2 _ := n2.goodOf rfl fun _ => by rw [v2]; positivity
    rw [s2, g1.neg, gC.neg_eq, v2] at gg
    refine ⟨_, h2, g.upd ?_⟩
    convert gg using 1
    unfold sval
    by_cases hw : w < 0 <;> simp [hw]
  refine mp_int_div_spec hE r2 (upd_self _ _ _) (by rw [upd_ne _ _ (Ne.symm hne)]; exact hm) (by simp) (fun y hy => ?_) (by simp)
    (fun h0 => hQ0 h0 _ r2) fun h0 m3 r3 => hQ h0 m3 ?_
  · cases hy; exact ⟨⟨_, upd_self _ _ _⟩, ho⟩
  · simp only [updO] at r3
    rw [upd_upd] at r3
    exact r3


theorem s_embar_neg_spec {Q : Int → Mem → Prop} {bv mv : Nat} {u : Int} (hE : Ref env E) (h : R2 m σ)
    (ha : σ a = some x) (hb : σ b = some (bv : Int)) (hm : σ md = some (-(mv : Int)))
    (hu : σ mu = some u) (hu' : u.natAbs = 𝔹 ^ (2 * k) / mv) (hc : σ c = some w)
    (oa : a.own = true) (oc : c.own = true) (ac : a ≠ c) (ab : b ≠ a) (cb : b ≠ c) (am : a ≠ md) (au : a ≠ mu)
    (cm : c ≠ md) (cu : c ≠ mu) (hlt : x.natAbs < 2 * mv) (hk : NDig mv k)
    (hQ : ∀ m' w', R2 m' (upd (upd σ a (some w')) c (some ((negPower mv (Nat.size bv) bv x.natAbs 1 : Nat) : Int))) → Q MP_OK m') :
    wp env E (s_embar a b md mu c) Q m := by
  obtain ⟨s, r, g⟩ := h
  obtain ⟨A, hA, gA⟩ := g.get ha
  obtain ⟨B, hB, gB⟩ := g.get hb
  obtain ⟨D, hD, gD⟩ := g.get hm
  obtain ⟨U, hU, gU⟩ := g.get hu
  obtain ⟨C, hC, gC⟩ := g.get hc
  have a1 := gA.natAbs.symm
  have b1 := gB.ofNat
  have d1 : D.mag = mv := by rw [← gD.natAbs]; omega
  have u1 := gU.natAbs.symm
  have hmv : 0 < mv := by omega
  have hku : D.used = k := hk.used gD.norm (r.okd hD) d1
  have sD : D.neg = true := by rw [gD.neg_eq]; simp; omega
  refine s_embar_neg hE r hA hB hD hU hC oa oc ac ab cb am au cm cu gA.norm gB.norm gD.norm gU.norm gA.sign sD
    (by rw [a1, d1]; exact hlt) (by omega) (by rw [u1, hu', hku, d1]) fun m' s' A' C' h' e1 e2 e3 e4 e5 e6 e7 e8 => ?_
  rw [a1, b1.2, d1] at e7
  refine hQ m' (sval A'.neg A'.mag) ⟨s', h', fun y => ?_⟩
  by_cases hyc : y = c
  · rw [hyc, upd_self, e4]; exact e5.good_nat e6 e7
  · rw [upd_ne _ _ hyc]
    by_cases hya : y = a
    · rw [hya, upd_self, e1]; exact e2.goodOf rfl e3
    · rw [upd_ne _ _ hya, e8 y hya hyc]; exact g y

theorem modOf_neg_lt (x : Int) {mv : Nat} (hm : 0 < mv) : (modOf x (-(mv : Int))).natAbs < 2 * mv := by
  unfold modOf
  have h1 : (x.tmod (-(mv : Int))).natAbs < mv := by
    rw [Int.natAbs_tmod]
    have : (-(mv : Int)).natAbs = mv := by omega
    rw [this]; exact Nat.mod_lt _ hm
  split <;> omega

theorem mp_int_exptmod_neg {Q : Int → Mem → Prop} (hE : Ref env E) (h : R2 m σ)
    (ha : σ a = some x) (hb : σ b = some y) (hm : σ md = some v) (hc : σ c = some w) (ho : c.own = true) (hv : v < 0) (hy0 : 0 ≤ y)
    (hQ : ∀ m', R2 m' (upd σ c (some ((negResult x y.toNat v : Nat) : Int))) → Q MP_OK m') :
    wp env E (mp_int_exptmod a b md c) Q m := by
  unfold mp_int_exptmod
  refine wp_bind (CMPZ_spec h hm ?_)
  refine wp_if_neg (by rw [Int.sign_eq_neg_one_of_neg hv]; decide) ?_
  refine wp_bind (CMPZ_spec h hb ?_)
  refine wp_if_neg (by have := Int.sign_nonneg_iff.2 hy0; omega) ?_
  obtain ⟨bv, rfl⟩ := Int.eq_ofNat_of_zero_le hy0
  obtain ⟨mv, emv⟩ : ∃ mv : Nat, v = -(mv : Int) := ⟨v.natAbs, by omega⟩
  subst emv
  have hmv : 0 < mv := by omega
  obtain ⟨k, hk⟩ := exists_ndig hmv
  have hnd : ndig (-(mv : Int)) = k := by
    unfold ndig
    rw [show (-(mv : Int)).natAbs = mv by omega]
    exact ndig_of hk.1 hk.2.2 fun _ => hk.2.1
  have hmu : (((if (0 : Int) < 0 then (-1 : Int) else 1) * 2 ^ (64 * k)).tdiv (-(mv : Int))).natAbs = 𝔹 ^ (2 * k) / mv := by
    rw [Int.natAbs_tdiv, if_neg (by decide), one_mul, show (-(mv : Int)).natAbs = mv by omega, Int.natAbs_pow, pow𝔹,
      show 32 * (2 * k) = 64 * k by omega]; rfl
  have key : negPower mv (Nat.size bv) bv (modOf x (-(mv : Int))).natAbs 1 = negResult x ((bv : Int)).toNat (-(mv : Int)) := by
    unfold negResult modOf
    rw [Int.toNat_natCast, show (-(mv : Int)).natAbs = mv by omega]
  have hxlt := modOf_neg_lt x hmv
  obtain ⟨s, r, g⟩ := h
  obtain ⟨D, hD, gD⟩ := g.get hm
  refine wp_bind (wp_USED r hD ?_)
  have lD := (r.okl hD).2
  have uD := gD.norm.le
  rw [u32_of_lt (show 2 * D.used < 4294967296 by omega)]
  have h : R2 m σ := ⟨s, r, g⟩
  refine withTemp3_spec h fun T V σ1 m1 g1 r1 hV => ?_
  replace g1 := g1.start [0, 0, 0] hV
  refine wp_require (GROW_r2 hE r1 (g1.get 0) (g1.ow 0) (by omega) fun m2 r2 => ⟨rfl, ?_⟩)
  refine wp_require (GROW_r2 hE r2 (g1.get 1) (g1.ow 1) (by omega) fun m3 r3 => ⟨rfl, ?_⟩)
  by_cases hal : c = b ∨ c = md
  · simp only [if_pos hal]
    refine wp_require (GROW_r2 hE r3 (g1.get 2) (g1.ow 2) (by omega) fun m4 r4 => ⟨rfl, ?_⟩)
    refine wp_require (mp_int_mod_spec hE r4 (g1.out ha) (g1.out hm) (g1.get 0) (g1.ow 0) (fun h0 => absurd h0 (by omega))
      fun _ m5 r5 => ⟨rfl, ?_⟩)
    obtain ⟨σ2, r5, g2⟩ := g1.up 0 r5
    tsimp at g2
    refine wp_require (s_brmu_all hE r5 (g2.get 1) (g2.out hm) (g2.ow 1) (g2.ne hm 1 (by decide)) (fun h0 => absurd h0 (by omega))
      fun _ m6 r6 => ⟨rfl, ?_⟩)
    tsimp at r6
    rw [hnd] at r6
    obtain ⟨σ3, r6, g3⟩ := g2.up 1 r6
    tsimp at g3
    have e0 := g3.get 0; tsimp at e0
    have e1 := g3.get 1; tsimp at e1
    have e2 := g3.get 2; tsimp at e2
    refine wp_require (s_embar_neg_spec hE r6 e0 (g3.out hb) (g3.out hm) e1 hmu e2 (g3.ow 0) (g3.ow 2) (g3.neq 0 2)
      (g3.ne hb 0 (by decide)).symm (g3.ne hb 2 (by decide)).symm (g3.ne hm 0 (by decide)) (g3.neq 0 1) (g3.ne hm 2 (by decide)) (g3.neq 2 1)
      hxlt hk fun m7 w' r7 => ⟨rfl, ?_⟩)
    obtain ⟨σ4, hσ4⟩ : ∃ σ4, σ4 = upd σ3 (T 0) (some w') := ⟨_, rfl⟩
    have g4 := g3.lset 0 w'
    tsimp at g4
    rw [← hσ4] at g4 r7
    obtain ⟨σ5, r7, g5⟩ := g4.up 2 r7
    have e3 := g5.get 2; tsimp at e3
    refine wp_require (mp_int_copy_spec hE r7 e3 (g5.out hc) ho fun m8 r8 => ⟨rfl, wp_pure ?_⟩)
    obtain ⟨σ6, r8, g6⟩ := g5.up_out hc r8
    rw [key] at g6
    exact .mk g6 r8 hQ
  · simp only [if_neg hal]
    have hcb : c ≠ b := fun e => hal (.inl e)
    have hcm : c ≠ md := fun e => hal (.inr e)
    refine wp_require (wp_pure ⟨rfl, ?_⟩)
    refine wp_require (mp_int_mod_spec hE r3 (g1.out ha) (g1.out hm) (g1.get 0) (g1.ow 0) (fun h0 => absurd h0 (by omega))
      fun _ m5 r5 => ⟨rfl, ?_⟩)
    obtain ⟨σ2, r5, g2⟩ := g1.up 0 r5
    tsimp at g2
    refine wp_require (s_brmu_all hE r5 (g2.get 1) (g2.out hm) (g2.ow 1) (g2.ne hm 1 (by decide)) (fun h0 => absurd h0 (by omega))
      fun _ m6 r6 => ⟨rfl, ?_⟩)
    tsimp at r6
    rw [hnd] at r6
    obtain ⟨σ3, r6, g3⟩ := g2.up 1 r6
    tsimp at g3
    have e0 := g3.get 0; tsimp at e0
    have e1 := g3.get 1; tsimp at e1
    refine wp_require (s_embar_neg_spec hE r6 e0 (g3.out hb) (g3.out hm) e1 hmu (g3.out hc) (g3.ow 0) ho (g3.ne hc 0 (by decide))
      (g3.ne hb 0 (by decide)).symm (Ne.symm hcb) (g3.ne hm 0 (by decide)) (g3.neq 0 1) hcm (g3.ne hc 1 (by decide)).symm
      hxlt hk fun m7 w' r7 => ⟨rfl, ?_⟩)
    obtain ⟨σ4, hσ4⟩ : ∃ σ4, σ4 = upd σ3 (T 0) (some w') := ⟨_, rfl⟩
    have g4 := g3.lset 0 w'
    tsimp at g4
    rw [← hσ4] at g4 r7
    obtain ⟨σ5, r7, g5⟩ := g4.up_out hc r7
    refine wp_require (mp_int_copy_spec hE r7 (g5.out (upd_self _ _ _)) (g5.out (upd_self _ _ _)) ho fun m8 r8 => ⟨rfl, wp_pure ?_⟩)
    obtain ⟨σ6, r8, g6⟩ := g5.up_out (upd_self _ _ _) r8
    rw [upd_upd, key] at g6
    exact .mk g6 r8 hQ

theorem mp_int_exptmod_evalue_neg {Q : Int → Mem → Prop} (hE : Ref env E) (h : R2 m σ)
    (hv1 : SMALL_MIN < y) (hv2 : y ≤ SMALL_MAX)
    (ha : σ a = some x) (hm : σ md = some v) (hc : σ c = some w) (ho : c.own = true) (hv : v < 0) (hy : 0 ≤ y)
    (hQ : ∀ m', R2 m' (upd σ c (some ((negResult x y.toNat v : Nat) : Int))) → Q MP_OK m') :
    wp env E (mp_int_exptmod_evalue a y md c) Q m := by
  refine withFake_spec hv1 hv2 h fun t m1 ht hto h1 => ?_
  have htc := ne_of_none ht hc
  refine mp_int_exptmod_neg hE h1 (by rw [upd_ne _ _ (Ne.symm (ne_of_none ht ha))]; exact ha) (upd_self ..)
    (by rw [upd_ne _ _ (Ne.symm (ne_of_none ht hm))]; exact hm) (by rw [upd_ne _ _ (Ne.symm htc)]; exact hc) ho hv hy fun m2 h2 => ?_
  refine ⟨_, y, h2, by rw [upd_ne _ _ htc, upd_self], fun m3 h3 => hQ m3 ?_⟩
  rwa [upd_tmp _ ht htc] at h3

theorem mp_int_exptmod_bvalue_neg {Q : Int → Mem → Prop} (hE : Ref env E) (h : R2 m σ)
    (hv1 : SMALL_MIN < x) (hv2 : x ≤ SMALL_MAX)
    (hb : σ b = some y) (hm : σ md = some v) (hc : σ c = some w) (ho : c.own = true) (hv : v < 0) (hy : 0 ≤ y)
    (hQ : ∀ m', R2 m' (upd σ c (some ((negResult x y.toNat v : Nat) : Int))) → Q MP_OK m') :
    wp env E (mp_int_exptmod_bvalue x b md c) Q m := by
  refine withFake_spec hv1 hv2 h fun t m1 ht hto h1 => ?_
  have htc := ne_of_none ht hc
  refine mp_int_exptmod_neg hE h1 (upd_self ..) (by rw [upd_ne _ _ (Ne.symm (ne_of_none ht hb))]; exact hb)
    (by rw [upd_ne _ _ (Ne.symm (ne_of_none ht hm))]; exact hm) (by rw [upd_ne _ _ (Ne.symm htc)]; exact hc) ho hv hy fun m2 h2 => ?_
  refine ⟨_, x, h2, by rw [upd_ne _ _ htc, upd_self], fun m3 h3 => hQ m3 ?_⟩
  rwa [upd_tmp _ ht htc] at h3

theorem mp_int_exptmod_known_neg {Q : Int → Mem → Prop} {k : Nat} {u : Int} (hE : Ref env E) (h : R2 m σ)
    (ha : σ a = some x) (hb : σ b = some y) (hm : σ md = some v) (hu : σ mu = some u) (hmu : u.natAbs = 𝔹 ^ (2 * k) / v.natAbs)
    (hk : NDig v.natAbs k) (hcu : c ≠ mu) (hc : σ c = some w) (ho : c.own = true) (hv : v < 0) (hy0 : 0 ≤ y)
    (hQ : ∀ m', R2 m' (upd σ c (some ((negResult x y.toNat v : Nat) : Int))) → Q MP_OK m') :
    wp env E (mp_int_exptmod_known a b md mu c) Q m := by
  unfold mp_int_exptmod_known
  refine wp_bind (CMPZ_spec h hm ?_)
  refine wp_if_neg (by rw [Int.sign_eq_neg_one_of_neg hv]; decide) ?_
  refine wp_bind (CMPZ_spec h hb ?_)
  refine wp_if_neg (by have := Int.sign_nonneg_iff.2 hy0; omega) ?_
  obtain ⟨bv, rfl⟩ := Int.eq_ofNat_of_zero_le hy0
  obtain ⟨mv, emv⟩ : ∃ mv : Nat, v = -(mv : Int) := ⟨v.natAbs, by omega⟩
  subst emv
  have eabs : (-(mv : Int)).natAbs = mv := by omega
  rw [eabs] at hmu hk
  have hmv : 0 < mv := by omega
  have key : negPower mv (Nat.size bv) bv (modOf x (-(mv : Int))).natAbs 1 = negResult x ((bv : Int)).toNat (-(mv : Int)) := by
    unfold negResult modOf
    rw [Int.toNat_natCast, eabs]
  have hxlt := modOf_neg_lt x hmv
  obtain ⟨s, r, g⟩ := h
  obtain ⟨D, hD, gD⟩ := g.get hm
  refine wp_bind (wp_USED r hD ?_)
  have lD := (r.okl hD).2
  have uD := gD.norm.le
  rw [u32_of_lt (show 2 * D.used < 4294967296 by omega)]
  have h : R2 m σ := ⟨s, r, g⟩
  refine withTemp2_spec h fun T V σ1 m1 g1 r1 hV => ?_
  replace g1 := g1.start [0, 0] hV
  refine wp_require (GROW_r2 hE r1 (g1.get 0) (g1.ow 0) (by omega) fun m2 r2 => ⟨rfl, ?_⟩)
  by_cases hal : c = b ∨ c = md
  · simp only [if_pos hal]
    refine wp_require (GROW_r2 hE r2 (g1.get 1) (g1.ow 1) (by omega) fun m4 r4 => ⟨rfl, ?_⟩)
    refine wp_require (mp_int_mod_spec hE r4 (g1.out ha) (g1.out hm) (g1.get 0) (g1.ow 0) (fun h0 => absurd h0 (by omega))
      fun _ m5 r5 => ⟨rfl, ?_⟩)
    obtain ⟨σ3, r6, g3⟩ := g1.up 0 r5
    tsimp at g3
    have e0 := g3.get 0; tsimp at e0
    have e2 := g3.get 1; tsimp at e2
    refine wp_require (s_embar_neg_spec hE r6 e0 (g3.out hb) (g3.out hm) (g3.out hu) hmu e2 (g3.ow 0) (g3.ow 1) (g3.neq 0 1)
      (g3.ne hb 0 (by decide)).symm (g3.ne hb 1 (by decide)).symm (g3.ne hm 0 (by decide)) (g3.ne hu 0 (by decide)) (g3.ne hm 1 (by decide)) (g3.ne hu 1 (by decide))
      hxlt hk fun m7 w' r7 => ⟨rfl, ?_⟩)
    obtain ⟨σ4, hσ4⟩ : ∃ σ4, σ4 = upd σ3 (T 0) (some w') := ⟨_, rfl⟩
    have g4 := g3.lset 0 w'
    tsimp at g4
    rw [← hσ4] at g4 r7
    obtain ⟨σ5, r7, g5⟩ := g4.up 1 r7
    have e3 := g5.get 1; tsimp at e3
    refine wp_require (mp_int_copy_spec hE r7 e3 (g5.out hc) ho fun m8 r8 => ⟨rfl, wp_pure ?_⟩)
    obtain ⟨σ6, r8, g6⟩ := g5.up_out hc r8
    rw [key] at g6
    exact .mk g6 r8 hQ
  · simp only [if_neg hal]
    have hcb : c ≠ b := fun e => hal (.inl e)
    have hcm : c ≠ md := fun e => hal (.inr e)
    refine wp_require (wp_pure ⟨rfl, ?_⟩)
    refine wp_require (mp_int_mod_spec hE r2 (g1.out ha) (g1.out hm) (g1.get 0) (g1.ow 0) (fun h0 => absurd h0 (by omega))
      fun _ m5 r5 => ⟨rfl, ?_⟩)
    obtain ⟨σ3, r6, g3⟩ := g1.up 0 r5
    tsimp at g3
    have e0 := g3.get 0; tsimp at e0
    refine wp_require (s_embar_neg_spec hE r6 e0 (g3.out hb) (g3.out hm) (g3.out hu) hmu (g3.out hc) (g3.ow 0) ho (g3.ne hc 0 (by decide))
      (g3.ne hb 0 (by decide)).symm (Ne.symm hcb) (g3.ne hm 0 (by decide)) (g3.ne hu 0 (by decide)) hcm hcu
      hxlt hk fun m7 w' r7 => ⟨rfl, ?_⟩)
    obtain ⟨σ4, hσ4⟩ : ∃ σ4, σ4 = upd σ3 (T 0) (some w') := ⟨_, rfl⟩
    have g4 := g3.lset 0 w'
    tsimp at g4
    rw [← hσ4] at g4 r7
    obtain ⟨σ5, r7, g5⟩ := g4.up_out hc r7
    refine wp_require (mp_int_copy_spec hE r7 (g5.out (upd_self _ _ _)) (g5.out (upd_self _ _ _)) ho fun m8 r8 => ⟨rfl, wp_pure ?_⟩)
    obtain ⟨σ6, r8, g6⟩ := g5.up_out (upd_self _ _ _) r8
    rw [upd_upd, key] at g6
    exact .mk g6 r8 hQ

/-- As long as the exponent is positive, the result is at least twice the absolute value of the modulus. -/
theorem negPower_ge {M : Nat} (hM : 0 < M) : ∀ (n e a c : Nat), 0 < e → e < 2 ^ n → 2 * M ≤ negPower M n e a c
  | 0, e, _, _, h0, h1 => by simp at h1; omega
  | n + 1, e, a, c, h0, h1 => by
    obtain ⟨k, hk⟩ := exists_ndig hM
    unfold negPower
    by_cases he : e / 2 = 0
    · have e1 : e = 1 := by omega
      subst e1
      rw [if_pos rfl, show 1 / 2 = 0 from rfl, negPower_eq, np_zero]
      exact (negReduce_bound hk).1
    · exact negPower_ge hM n (e / 2) _ _ (by omega) (by rw [pow_succ] at h1; omega)

theorem negResult_ge {x v : Int} {e : Nat} (hv : v < 0) (he : 0 < e) : 2 * v.natAbs ≤ negResult x e v :=
  negPower_ge (by omega) _ _ _ _ he (Nat.lt_size_self e)

end Imath
