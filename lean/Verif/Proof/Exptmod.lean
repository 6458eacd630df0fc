import Verif.Proof.Barrett
import Mathlib.Data.Int.ModEq

/-! # Modular exponentiation -/

namespace Imath

variable {env : Env} {E : Fault → Prop} {m : Mem} {s s0 : Id → Option Cell} {σ : Id → Option Int}
  {z a b c md mu t0 t1 t2 : Id} {A B C D U : Cell} {k cap av cv : Nat} {x y w v : Int}

/-- The fixed part of the state of `s_embar`. -/
structure ECtx (s0 : Id → Option Cell) (a md mu c t0 t1 t2 : Id) (D U : Cell) (k cap : Nat) : Prop where
  hm : s0 md = some D
  hu : s0 mu = some U
  nM : Norm D
  nU : Norm U
  sM : D.neg = false
  hk : D.used = k
  hM0 : D.mag ≠ 0
  mlt : D.mag < 𝔹 ^ k
  hU : U.mag = 𝔹 ^ (2 * k) / D.mag
  hUk : U.used ≤ k + 2
  hcap : 4 * k + 4 ≤ cap
  hcap' : kext U.used ≤ cap
  t01 : t0 ≠ t1
  t02 : t0 ≠ t2
  t12 : t1 ≠ t2
  a0 : t0 ≠ a
  a1 : t1 ≠ a
  a2 : t2 ≠ a
  c0 : t0 ≠ c
  c1 : t1 ≠ c
  c2 : t2 ≠ c
  m0 : t0 ≠ md
  m1 : t1 ≠ md
  m2 : t2 ≠ md
  u0 : t0 ≠ mu
  u1 : t1 ≠ mu
  u2 : t2 ≠ mu
  ac : a ≠ c
  am : a ≠ md
  au : a ≠ mu
  cm : c ≠ md
  cu : c ≠ mu
  oa : a.own = true
  oc : c.own = true
  o0 : t0.own = true
  o1 : t1.own = true

/-- The varying part: base power `av`, accumulator `cv`. -/
structure EInv (m : Mem) (s0 s : Id → Option Cell) (a c t0 t1 t2 : Id) (k cap av cv : Nat) : Prop where
  rep : Rep m s
  ha : ∃ A, s a = some A ∧ Norm A ∧ A.neg = false ∧ A.mag = av
  hc : ∃ C, s c = some C ∧ Norm C ∧ C.neg = false ∧ C.mag = cv
  h0 : ∃ X, s t0 = some X ∧ Norm X ∧ X.neg = false ∧ cap ≤ X.buf.length ∧ X.buf[k + 1]? = some 0
  h1 : ∃ X, s t1 = some X ∧ Norm X ∧ X.neg = false ∧ cap ≤ X.buf.length
  h2 : ∃ X, s t2 = some X ∧ Norm X ∧ X.neg = false ∧ cap ≤ X.buf.length
  out : ∀ y, y ≠ a → y ≠ c → y ≠ t0 → y ≠ t1 → y ≠ t2 → s y = s0 y

theorem Same.magEq {A C : Cell} (h : Same A C) : C.mag = A.mag := by
  unfold Cell.mag; rw [h.used, h.take]

/-- `s_reduce` of the product in `t0`. -/
theorem embar_reduce {Q : Bool → Mem → Prop} {X : Cell} (hE : Ref env E)
    (ctx : ECtx s0 a md mu c t0 t1 t2 D U k cap) (h : EInv m s0 s a c t0 t1 t2 k cap av cv) {m1 : Mem}
    (hr : Rep m1 (upd s t0 (some X))) (nX : Norm X) (sX : X.neg = false) (lX : cap ≤ X.buf.length)
    (bX : X.mag < 𝔹 ^ (2 * k)) (zX : X.used ≤ k + 1 → X.buf[k + 1]? = some 0)
    (hQ : ∀ m' s', EInv m' s0 s' a c t0 t1 t2 k cap av cv →
      (∃ X', s' t0 = some X' ∧ Norm X' ∧ X'.neg = false ∧ X'.mag = X.mag % D.mag) → Q true m') :
    wp env E (s_reduce t0 md mu t1 t2) Q m1 := by
  obtain ⟨Q1, q1, q1n, q1s, q1l⟩ := h.h1
  obtain ⟨Q2, q2, q2n, q2s, q2l⟩ := h.h2
  refine s_reduce_rep (X := X) (M := D) (U := U) (Q1 := Q1) (Q2 := Q2) (k := k) (cap := cap) hE hr (upd_self _ _ _) ?_ ?_ ?_ ?_
    ctx.o0 ctx.o1 ctx.t01 ctx.t02 ctx.t12 ctx.m0 ctx.u0 ctx.m1 ctx.m2 ctx.u1 ctx.u2 nX ctx.nM ctx.nU q2n sX ctx.sM q2s ctx.hk ctx.hM0
    ctx.hU bX ctx.hcap ctx.hcap' ctx.hUk lX q1l q2l zX fun m' s' h' r' => ?_
  · rw [upd_ne _ _ (Ne.symm ctx.m0), h.out _ (Ne.symm ctx.am) (Ne.symm ctx.cm) (Ne.symm ctx.m0) (Ne.symm ctx.m1) (Ne.symm ctx.m2)]
    exact ctx.hm
  · rw [upd_ne _ _ (Ne.symm ctx.u0), h.out _ (Ne.symm ctx.au) (Ne.symm ctx.cu) (Ne.symm ctx.u0) (Ne.symm ctx.u1) (Ne.symm ctx.u2)]
    exact ctx.hu
  · rw [upd_ne _ _ (Ne.symm ctx.t01)]; exact q1
  · rw [upd_ne _ _ (Ne.symm ctx.t02)]; exact q2
  · obtain ⟨X', x1, x2, x3, x4, x5, x6⟩ := r'.hx
    refine hQ m' s' ⟨h', ?_, ?_, ⟨X', x1, x2, x3, x5, x6⟩, r'.h1, r'.h2, ?_⟩ ⟨X', x1, x2, x3, x4⟩
    · rw [r'.out _ (Ne.symm ctx.a0) (Ne.symm ctx.a1) (Ne.symm ctx.a2), upd_ne _ _ (Ne.symm ctx.a0)]; exact h.ha
    · rw [r'.out _ (Ne.symm ctx.c0) (Ne.symm ctx.c1) (Ne.symm ctx.c2), upd_ne _ _ (Ne.symm ctx.c0)]; exact h.hc
    · intro y y1 y2 y3 y4 y5
      rw [r'.out _ y3 y4 y5, upd_ne _ _ y3]; exact h.out y y1 y2 y3 y4 y5

theorem embarMul_spec {Q : Int → Mem → Prop} {kont : M Int} (hE : Ref env E)
    (ctx : ECtx s0 a md mu c t0 t1 t2 D U k cap) (h : EInv m s0 s a c t0 t1 t2 k cap av cv)
    (hav : av < D.mag) (hcv : cv < 𝔹 ^ k)
    (hQ : ∀ m' s', EInv m' s0 s' a c t0 t1 t2 k cap av (cv * av % D.mag) → wp env E kont Q m') :
    wp env E (embarMul a md mu c t0 t1 t2 kont) Q m := by
  unfold embarMul
  obtain ⟨A, a1, a2, a3, a4⟩ := h.ha
  obtain ⟨C, c1, c2, c3, c4⟩ := h.hc
  obtain ⟨X, x1, x2, x3, x4, x5⟩ := h.h0
  have mlt := ctx.mlt
  have pk : 1 ≤ k := by rw [← ctx.hk]; exact ctx.nM.pos
  have uA : A.used ≤ k := a2.used_le pk (by omega)
  have uC : C.used ≤ k := c2.used_le pk (by omega)
  have hcap := ctx.hcap
  refine wp_bind (UMUL_rep hE h.rep c1 a1 x1 ctx.c0 ctx.a0 c2 a2 ?_ fun m1 X1 h1 n1 s1 l1 g1 z1 => ?_)
  · unfold kext; omega
  have hb : C.mag * A.mag < 𝔹 ^ (2 * k) := by
    rw [show 2 * k = k + k by omega, Nat.pow_add]
    exact Nat.mul_lt_mul'' (by omega) (by omega)
  refine wp_bind (embar_reduce hE ctx h h1 n1 (by rw [s1, x3]) (by omega) (by rw [g1]; exact hb)
    (fun hu => z1 _ hu x5) fun m2 s2 h2 ⟨X', y1, y2, y3, y4⟩ => ?_)
  refine wp_if_pos rfl ?_
  obtain ⟨C2, d1, d2, d3, d4⟩ := h2.hc
  refine wp_bind (mp_int_copy_rep hE h2.rep y1 d1 ctx.oc y2.le fun m3 C3 h3 sm l3 => ?_)
  refine hQ m3 _ ⟨h3, ?_, ⟨C3, upd_self _ _ _, sm.norm y2, by rw [sm.neg, y3], by rw [sm.magEq, y4, g1, a4, c4]⟩,
    ?_, ?_, ?_, ?_⟩
  · rw [upd_ne _ _ ctx.ac]; exact h2.ha
  · rw [upd_ne _ _ ctx.c0]; exact h2.h0
  · rw [upd_ne _ _ ctx.c1]; exact h2.h1
  · rw [upd_ne _ _ ctx.c2]; exact h2.h2
  · intro y z1 z2 z3 z4 z5
    rw [upd_ne _ _ z2]; exact h2.out y z1 z2 z3 z4 z5

theorem embarSqr_spec {Q : Int → Mem → Prop} {kont : M Int} {chk : Bool} (hE : Ref env E)
    (ctx : ECtx s0 a md mu c t0 t1 t2 D U k cap) (h : EInv m s0 s a c t0 t1 t2 k cap av cv)
    (hav : av < D.mag)
    (hQ : ∀ m' s', EInv m' s0 s' a c t0 t1 t2 k cap (av * av % D.mag) cv → wp env E kont Q m') :
    wp env E (embarSqr chk a md mu t0 t1 t2 kont) Q m := by
  unfold embarSqr
  obtain ⟨A, a1, a2, a3, a4⟩ := h.ha
  obtain ⟨X, x1, x2, x3, x4, x5⟩ := h.h0
  have mlt := ctx.mlt
  have pk : 1 ≤ k := by rw [← ctx.hk]; exact ctx.nM.pos
  have uA : A.used ≤ k := a2.used_le pk (by omega)
  have hcap := ctx.hcap
  refine wp_bind (USQR_rep hE h.rep a1 x1 ctx.a0 a2 ?_ fun m1 X1 h1 n1 s1 l1 g1 z1 => ?_)
  · unfold kext; omega
  have hb : A.mag * A.mag < 𝔹 ^ (2 * k) := by
    rw [show 2 * k = k + k by omega, Nat.pow_add]
    exact Nat.mul_lt_mul'' (by omega) (by omega)
  have sX1 : X1.neg = false := by rw [s1, x3]
  have red := embar_reduce (Q := fun r m' => wp env E (if r = true then do
        cwhen (chk = true) do cassert (!(← MP_SIGN t0))
        let _ ← mp_int_copy t0 a
        kont
      else pure MP_MEMORY) Q m') hE ctx h h1 n1 sX1 (by omega) (by rw [g1]; exact hb)
    (fun hu => z1 _ hu x5) fun m2 s2 h2 ⟨X', y1, y2, y3, y4⟩ => ?_
  · refine wp_bind (wp_cwhen (fun hc => ?_) (fun hc => ?_))
    · refine wp_bind (wp_SIGN h1 (upd_self _ _ _) ?_)
      rw [sX1]
      exact wp_cassert rfl (wp_bind red)
    · exact wp_bind red
  refine wp_if_pos rfl ?_
  obtain ⟨C2, d1, d2, d3, d4⟩ := h2.ha
  have cp : wp env E (do
        let _ ← mp_int_copy t0 a
        kont) Q m2 := by
    refine wp_bind (mp_int_copy_rep hE h2.rep y1 d1 ctx.oa y2.le fun m3 C3 h3 sm l3 => ?_)
    refine hQ m3 _ ⟨h3, ⟨C3, upd_self _ _ _, sm.norm y2, by rw [sm.neg, y3], by rw [sm.magEq, y4, g1, a4]⟩, ?_,
      ?_, ?_, ?_, ?_⟩
    · rw [upd_ne _ _ (Ne.symm ctx.ac)]; exact h2.hc
    · rw [upd_ne _ _ ctx.a0]; exact h2.h0
    · rw [upd_ne _ _ ctx.a1]; exact h2.h1
    · rw [upd_ne _ _ ctx.a2]; exact h2.h2
    · intro y z1 z2 z3 z4 z5
      rw [upd_ne _ _ z1]; exact h2.out y z1 z2 z3 z4 z5
  refine wp_bind (wp_cwhen (fun hc => ?_) (fun hc => ?_))
  · refine wp_bind (wp_SIGN h2.rep y1 ?_)
    rw [y3]
    exact wp_cassert rfl cp
  · exact cp

/-- The accumulator holds `v ^ e` (modulo `mv`). -/
def Acc (mv v e cv : Nat) : Prop := cv % mv = v ^ e % mv ∧ ((e ≠ 0 ∧ cv < mv) ∨ (e = 0 ∧ cv = 1))

theorem Acc.mul {mv v e cv j : Nat} (h : Acc mv v e cv) (h0 : mv ≠ 0) :
    Acc mv v (e + 2 ^ j) (cv * (v ^ 2 ^ j % mv) % mv) := by
  refine ⟨?_, .inl ⟨by have := Nat.pow_pos (n := j) (show 0 < 2 by decide); omega, Nat.mod_lt _ (by omega)⟩⟩
  rw [Nat.mod_mod, Nat.mul_mod, h.1, Nat.mod_mod, ← Nat.mul_mod, Nat.pow_add]

theorem Acc.lt {mv v e cv k : Nat} (h : Acc mv v e cv) (hm : mv < 𝔹 ^ k) (hk : 1 ≤ k) : cv < 𝔹 ^ k := by
  have : 𝔹 ^ 1 ≤ 𝔹 ^ k := Nat.pow_le_pow_right (by decide) hk
  rcases h.2 with ⟨_, h⟩ | ⟨_, h⟩ <;> omega

theorem sqr_pow {v mv j : Nat} : (v ^ 2 ^ j % mv) * (v ^ 2 ^ j % mv) % mv = v ^ 2 ^ (j + 1) % mv := by
  rw [← Nat.mul_mod, ← Nat.pow_add, show 2 ^ j + 2 ^ j = 2 ^ (j + 1) by rw [Nat.pow_succ]; omega]

theorem bit_split (d : Nat) : d = 2 * (d >>> 1) + (d &&& 1) ∧ d &&& 1 ≤ 1 := by
  rw [Nat.shiftRight_eq_div_pow, Nat.and_one_is_mod]; omega

theorem embarBits_spec {Q : Int → Mem → Prop} {kont : M Int} {v e j n d : Nat} (hE : Ref env E)
    (ctx : ECtx s0 a md mu c t0 t1 t2 D U k cap) (h : EInv m s0 s a c t0 t1 t2 k cap (v ^ 2 ^ j % D.mag) cv)
    (hA : Acc D.mag v e cv)
    (hQ : ∀ m' s' cv', EInv m' s0 s' a c t0 t1 t2 k cap (v ^ 2 ^ (j + n) % D.mag) cv' →
      Acc D.mag v (e + 2 ^ j * (d % 2 ^ n)) cv' → wp env E kont Q m') :
    wp env E (embarBits a md mu c t0 t1 t2 kont n d) Q m := by
  have pk : 1 ≤ k := by rw [← ctx.hk]; exact ctx.nM.pos
  have hM0 := ctx.hM0
  induction n generalizing m s d j e cv with
  | zero => exact hQ m s cv h (by rw [Nat.pow_zero, Nat.mod_one]; exact hA)
  | succ n ih =>
    simp only [embarBits]
    obtain ⟨b1, b2⟩ := bit_split d
    have key : d % 2 ^ (n + 1) = (d &&& 1) + 2 * ((d >>> 1) % 2 ^ n) := by
      conv => lhs; rw [b1]
      rw [Nat.pow_succ, Nat.mul_comm (2 ^ n) 2, Nat.add_comm, Nat.mod_mul]
      congr 1
      · omega
      · congr 2; omega
    have tail : ∀ m1 s1 cv1, EInv m1 s0 s1 a c t0 t1 t2 k cap (v ^ 2 ^ j % D.mag) cv1 →
        Acc D.mag v (e + 2 ^ j * (d &&& 1)) cv1 →
        wp env E (embarSqr true a md mu t0 t1 t2 (embarBits a md mu c t0 t1 t2 kont n (d >>> 1))) Q m1 := by
      intro m1 s1 cv1 h1 hA1
      refine embarSqr_spec hE ctx h1 (Nat.mod_lt _ (by omega)) fun m2 s2 h2 => ?_
      rw [sqr_pow] at h2
      refine ih h2 hA1 fun m3 s3 cv3 h3 hA3 => hQ m3 s3 cv3 ?_ ?_
      · rw [show j + (n + 1) = j + 1 + n by omega]; exact h3
      · rw [key]
        have : e + 2 ^ j * ((d &&& 1) + 2 * (d >>> 1 % 2 ^ n)) = e + 2 ^ j * (d &&& 1) + 2 ^ (j + 1) * (d >>> 1 % 2 ^ n) := by
          rw [Nat.pow_succ]; ring
        rw [this]; exact hA3
    refine wp_ite (fun hb => ?_) (fun hb => ?_)
    · have e1 : d &&& 1 = 1 := by omega
      refine embarMul_spec hE ctx h (Nat.mod_lt _ (by omega)) (hA.lt ctx.mlt pk) fun m1 s1 h1 => tail m1 s1 _ h1 ?_
      rw [e1, Nat.mul_one]; exact hA.mul hM0
    · have e1 : d &&& 1 = 0 := by omega
      refine tail m s cv h ?_
      rw [e1]; exact hA

theorem embarTop_spec {Q : Int → Mem → Prop} {v e j f d : Nat} (hE : Ref env E)
    (ctx : ECtx s0 a md mu c t0 t1 t2 D U k cap) (h : EInv m s0 s a c t0 t1 t2 k cap (v ^ 2 ^ j % D.mag) cv)
    (hA : Acc D.mag v e cv) (hd : d < 2 ^ f) 
    (hQ : ∀ m' s' av' cv', EInv m' s0 s' a c t0 t1 t2 k cap av' cv' →
      Acc D.mag v (e + 2 ^ j * d) cv' → Q MP_OK m') :
    wp env E (embarTop a md mu c t0 t1 t2 (f + 1) d) Q m := by
  have pk : 1 ≤ k := by rw [← ctx.hk]; exact ctx.nM.pos
  have hM0 := ctx.hM0
  induction f generalizing m s d j e cv with
  | zero =>
    have : d = 0 := by simpa using hd
    subst this
    simp only [embarTop]
    refine wp_if_neg (by simp) (wp_if_pos (by simp) (wp_pure (hQ m s _ cv h (by simpa using hA))))
  | succ f ih =>
    rw [embarTop]
    obtain ⟨b1, b2⟩ := bit_split d
    have tail : ∀ m1 s1 cv1, EInv m1 s0 s1 a c t0 t1 t2 k cap (v ^ 2 ^ j % D.mag) cv1 →
        Acc D.mag v (e + 2 ^ j * (d &&& 1)) cv1 →
        wp env E (if d >>> 1 = 0 then pure MP_OK
          else embarSqr false a md mu t0 t1 t2 (embarTop a md mu c t0 t1 t2 (f + 1) (d >>> 1))) Q m1 := by
      intro m1 s1 cv1 h1 hA1
      refine wp_ite (fun h0 => ?_) (fun h0 => ?_)
      · refine wp_pure (hQ m1 s1 _ cv1 h1 ?_)
        rw [h0, Nat.mul_zero, Nat.zero_add] at b1
        rw [b1]; exact hA1
      · refine embarSqr_spec hE ctx h1 (Nat.mod_lt _ (by omega)) fun m2 s2 h2 => ?_
        rw [sqr_pow] at h2
        refine ih h2 hA1 (by rw [Nat.pow_succ] at hd; omega) fun m3 s3 av3 cv3 h3 hA3 => hQ m3 s3 av3 cv3 h3 ?_
        have : e + 2 ^ j * d = e + 2 ^ j * (d &&& 1) + 2 ^ (j + 1) * (d >>> 1) := by
          conv => lhs; rw [b1]
          rw [Nat.pow_succ]; ring
        rw [this]; exact hA3
    refine wp_ite (fun hb => ?_) (fun hb => ?_)
    · have e1 : d &&& 1 = 1 := by omega
      refine embarMul_spec hE ctx h (Nat.mod_lt _ (by omega)) (hA.lt ctx.mlt pk) fun m1 s1 h1 => tail m1 s1 _ h1 ?_
      rw [e1, Nat.mul_one]; exact hA.mul hM0
    · have e1 : d &&& 1 = 0 := by omega
      refine tail m s cv h ?_
      rw [e1]; exact hA

theorem embarDigits_spec {Q : Int → Mem → Prop} {kont : M Int} {v e j n i : Nat} (hE : Ref env E)
    (ctx : ECtx s0 a md mu c t0 t1 t2 D U k cap) (hb : s0 b = some B)
    (ab : b ≠ a) (cb : b ≠ c) (b0 : b ≠ t0) (b1 : b ≠ t1) (b2 : b ≠ t2) (hn : i + n ≤ B.buf.length)
    (h : EInv m s0 s a c t0 t1 t2 k cap (v ^ 2 ^ j % D.mag) cv)
    (hA : Acc D.mag v e cv)
    (hQ : ∀ m' s' cv', EInv m' s0 s' a c t0 t1 t2 k cap (v ^ 2 ^ (j + 32 * n) % D.mag) cv' →
      Acc D.mag v (e + 2 ^ j * val ((B.buf.drop i).take n)) cv' → wp env E kont Q m') :
    wp env E (embarDigits a md mu c t0 t1 t2 kont n (B.ptr.add i)) Q m := by
  induction n generalizing m s i j e cv with
  | zero => exact hQ m s cv h (by simpa using hA)
  | succ n ih =>
    simp only [embarDigits]
    have hi : i < B.buf.length := by omega
    have hbs : s b = some B := by rw [h.out b ab cb b0 b1 b2]; exact hb
    refine wp_bind (wp_rdz (i := i) h.rep hbs (List.getElem?_eq_getElem hi) ?_)
    have hdlt := (h.rep.okd hbs) _ (List.getElem_mem hi)
    refine embarBits_spec hE ctx h hA fun m1 s1 cv1 h1 hA1 => ?_
    rw [Nat.mod_eq_of_lt (show B.buf[i] < 2 ^ 32 from hdlt)] at hA1
    rw [show (B.ptr.add i).add 1 = B.ptr.add (i + 1) by simp [Ptr.add, Nat.add_assoc]]
    refine ih (by omega) h1 hA1 fun m2 s2 cv2 h2 hA2 => hQ m2 s2 cv2 ?_ ?_
    · rw [show j + 32 * (n + 1) = j + 32 + 32 * n by omega]; exact h2
    · rw [List.drop_eq_getElem_cons hi, List.take_succ_cons, val_cons]
      have : e + 2 ^ j * (B.buf[i] + 𝔹 * val (List.take n (List.drop (i + 1) B.buf))) =
          e + 2 ^ j * B.buf[i] + 2 ^ (j + 32) * val (List.take n (List.drop (i + 1) B.buf)) := by
        rw [Nat.pow_add, show (2 : Nat) ^ 32 = 𝔹 from rfl]; ring
      rw [this]; exact hA2

/-- A freshly zeroed buffer. -/
theorem zeroed_rep {Q : Int → Mem → Prop} {kont : M Int} {t : Id} (h : Rep m s) (ht : s t = some C) (nC : Norm C) (u1 : C.used = 1) (sC : C.neg = false)
    (hQ : ∀ m' C', Rep m' (upd s t (some C')) → Norm C' → C'.neg = false → C'.buf = List.replicate C.buf.length 0 → wp env E kont Q m') :
    wp env E (do
      ZERO (← MP_DIGITS t) (← MP_ALLOC t)
      kont) Q m := by
  have lC := h.okl ht
  refine wp_bind (wp_DIGITS h ht ?_)
  refine wp_bind (wp_ALLOC h ht ?_)
  refine wp_bind (ZERO_spec (h.at ht) rfl (by omega) ?_)
  have h1 := h.write ht (k := 0) (Dig_replicate_zero C.buf.length)
  rw [show C.ptr.add 0 = C.ptr from rfl, spliceL_self _ _ (by simp)] at h1
  refine hQ _ _ h1 ⟨nC.pos, by simpa using nC.le, fun hh => ?_⟩ sC rfl
  simp only at hh; omega

theorem set_one_rep {Q : Int → Mem → Prop} (hE : Ref env E) (h : Rep m s) (hc : s c = some C) (ho : c.own = true)
    (hQ : ∀ m' C', Rep m' (upd s c (some C')) → Norm C' → C'.neg = false → C'.mag = 1 → Q MP_OK m') :
    wp env E (mp_int_set_value c 1) Q m := by
  refine withFake_rep (by decide) (by decide) h fun t m1 F ht hto h1 gF => ?_
  have htc := ne_of_none ht hc
  refine mp_int_copy_rep hE h1 (upd_self _ _ _) (by rw [upd_ne _ _ (Ne.symm htc)]; exact hc) ho gF.norm.le fun m2 C2 h2 sm _ => ?_
  refine ⟨_, F, h2, by rw [upd_ne _ _ htc, upd_self], fun m3 h3 => ?_⟩
  rw [upd_tmp _ ht htc] at h3
  obtain ⟨g1, g2⟩ := Good.ofNat (x := 1) gF
  exact hQ m3 C2 h3 (sm.norm gF.norm) (by rw [sm.neg, g1]) (by rw [sm.mag, g2])

theorem upd_out_none {α : Type} {f g : Id → Option α} {a c t : Id} (ht : g t = none)
    (h : ∀ y, y ≠ a → y ≠ c → y ≠ t → f y = g y) : ∀ y, y ≠ a → y ≠ c → upd f t none y = g y := by
  intro y y1 y2
  by_cases e : y = t
  · rw [e, upd_self, ht]
  · rw [upd_ne _ _ e]; exact h y y1 y2 e

/-- `s_embar`: the accumulator ends as a power. -/
theorem s_embar_rep {Q : Int → Mem → Prop} (hE : Ref env E) (h : Rep m s)
    (ha : s a = some A) (hb : s b = some B) (hm : s md = some D) (hu : s mu = some U) (hc : s c = some C)
    (oa : a.own = true) (oc : c.own = true) (ac : a ≠ c) (ab : b ≠ a) (cb : b ≠ c) (am : a ≠ md) (au : a ≠ mu)
    (cm : c ≠ md) (cu : c ≠ mu)
    (nA : Norm A) (nB : Norm B) (nD : Norm D) (nU : Norm U) (sA : A.neg = false) (sD : D.neg = false)
    (hA : A.mag < D.mag) (hU : U.mag = 𝔹 ^ (2 * D.used) / D.mag)
    (hQ : ∀ m' s' A' C', Rep m' s' → s' a = some A' → Norm A' → A'.neg = false → s' c = some C' → Norm C' → C'.neg = false →
      Acc D.mag A.mag B.mag C'.mag → (∀ y, y ≠ a → y ≠ c → s' y = s y) → Q MP_OK m') :
    wp env E (s_embar a b md mu c) Q m := by
  unfold s_embar
  have pD := nD.pos
  have uD := nD.le
  have lD := (h.okl hm).2
  have lU := (h.okl hu).2
  have uU := nU.le
  have uB := nB.le
  have pB := nB.pos
  have mlt : D.mag < 𝔹 ^ D.used := mag_lt (h.okd hm) uD
  have hD0 : 0 < D.mag := by omega
  have mge : 𝔹 ^ (D.used - 1) ≤ D.mag := by
    by_cases hk1 : D.used = 1
    · rw [hk1]; simp; omega
    · exact nD.mag_ge (by omega)
  have pw : 𝔹 ^ (2 * D.used) = 𝔹 ^ D.used * 𝔹 ^ D.used := by rw [← Nat.pow_add, show D.used + D.used = 2 * D.used by omega]
  have pw' : 𝔹 ^ (2 * D.used) = 𝔹 ^ (D.used + 1) * 𝔹 ^ (D.used - 1) := by
    rw [← Nat.pow_add, show D.used + 1 + (D.used - 1) = 2 * D.used by omega]
  have hU1 : 𝔹 ^ D.used ≤ U.mag := by
    rw [hU, Nat.le_div_iff_mul_le hD0, pw]
    exact Nat.mul_le_mul_left _ mlt.le
  have hU2 : U.mag ≤ 𝔹 ^ (D.used + 1) := by
    have := Nat.mul_le_mul_left (𝔹 ^ (D.used + 1)) mge
    rw [hU]
    refine Nat.div_le_of_le_mul ?_
    rw [pw', Nat.mul_comm D.mag]; exact this
  have k1 : D.used + 1 ≤ U.used := by
    by_contra hcon
    have h1 := mag_lt (h.okd hu) uU
    have h2 : 𝔹 ^ U.used ≤ 𝔹 ^ D.used := Nat.pow_le_pow_right (by decide) (by omega)
    omega
  have k2 : U.used ≤ D.used + 2 := by
    refine nU.used_le (by omega) (Nat.lt_of_le_of_lt hU2 ?_)
    exact Nat.pow_lt_pow_right (by decide) (by omega)
  refine wp_bind (wp_USED h hu ?_)
  refine wp_bind (wp_DIGITS h hb ?_)
  refine wp_bind (wp_USED h hb ?_)
  have lB := (h.okl hb).2
  rw [u32_of_lt (show 4 * U.used < 4294967296 by omega), sub32_of_le pB (by omega)]
  refine withTemp_rep h fun t0 m1 f0 o0 h1 => ?_
  refine withTemp_rep h1 fun t1 m2 f1 o1 h2 => ?_
  refine withTemp_rep h2 fun t2 m3 f2 o2 h3 => ?_
  have n01 : t0 ≠ t1 := fun e => by rw [← e, upd_self] at f1; cases f1
  have n12 : t1 ≠ t2 := fun e => by rw [← e, upd_self] at f2; cases f2
  have n02 : t0 ≠ t2 := fun e => by rw [← e, upd_ne _ _ n01, upd_self] at f2; cases f2
  have f1' : s t1 = none := by rw [upd_ne _ _ (Ne.symm n01)] at f1; exact f1
  have f2' : s t2 = none := by
    rw [upd_ne _ _ (Ne.symm n12), upd_ne _ _ (Ne.symm n02)] at f2; exact f2
  have ne0 : ∀ {y Y}, s y = some Y → y ≠ t0 := fun hy e => by rw [e, f0] at hy; cases hy
  have ne1 : ∀ {y Y}, s y = some Y → y ≠ t1 := fun hy e => by rw [e, f1'] at hy; cases hy
  have ne2 : ∀ {y Y}, s y = some Y → y ≠ t2 := fun hy e => by rw [e, f2'] at hy; cases hy
  obtain ⟨s3, es3⟩ : ∃ s3, s3 = upd (upd (upd s t0 (some (zeroCell t0))) t1 (some (zeroCell t1))) t2 (some (zeroCell t2)) := ⟨_, rfl⟩
  rw [← es3] at h3
  have z0 : s3 t0 = some (zeroCell t0) := by rw [es3, upd_ne _ _ n02, upd_ne _ _ n01, upd_self]
  have z1 : s3 t1 = some (zeroCell t1) := by rw [es3, upd_ne _ _ n12, upd_self]
  have z2 : s3 t2 = some (zeroCell t2) := by rw [es3, upd_self]
  have zo : ∀ y, y ≠ t0 → y ≠ t1 → y ≠ t2 → s3 y = s y := by
    intro y y0 y1 y2
    rw [es3, upd_ne _ _ y2, upd_ne _ _ y1, upd_ne _ _ y0]
  refine wp_require (GROW_spec hE h3 z0 o0 (by omega) fun m4 X0 h4 g0 l0 => ⟨rfl, ?_⟩)
  refine wp_require (GROW_spec hE h4 (by rw [upd_ne _ _ (Ne.symm n01)]; exact z1) o1 (by omega) fun m5 X1 h5 g1 l1 => ⟨rfl, ?_⟩)
  refine wp_require (GROW_spec hE h5 (by rw [upd_ne _ _ (Ne.symm n12), upd_ne _ _ (Ne.symm n02)]; exact z2) o2 (by omega)
    fun m6 X2 h6 g2 l2 => ⟨rfl, ?_⟩)
  have N : ∀ {t : Id} {X : Cell}, Grow (zeroCell t) X → Norm X ∧ X.used = 1 ∧ X.neg = false := by
    intro t X g
    exact ⟨(zeroCell_good t).norm.grow g, g.used, g.neg⟩
  obtain ⟨s6, es6⟩ : ∃ s6, s6 = upd (upd (upd s3 t0 (some X0)) t1 (some X1)) t2 (some X2) := ⟨_, rfl⟩
  rw [← es6] at h6
  have y0 : s6 t0 = some X0 := by rw [es6, upd_ne _ _ n02, upd_ne _ _ n01, upd_self]
  have y1 : s6 t1 = some X1 := by rw [es6, upd_ne _ _ n12, upd_self]
  have y2 : s6 t2 = some X2 := by rw [es6, upd_self]
  have yo : ∀ y, y ≠ t0 → y ≠ t1 → y ≠ t2 → s6 y = s y := by
    intro y y0 y1 y2
    rw [es6, upd_ne _ _ y2, upd_ne _ _ y1, upd_ne _ _ y0, zo y y0 y1 y2]
  refine zeroed_rep h6 y0 (N g0).1 (N g0).2.1 (N g0).2.2 ?_
  intro m7 W0 h7 w0n w0s w0b
  refine zeroed_rep h7 (by rw [upd_ne _ _ (Ne.symm n01)]; exact y1) (N g1).1 (N g1).2.1 (N g1).2.2 fun m8 W1 h8 w1n w1s w1b => ?_
  refine zeroed_rep h8 (by rw [upd_ne _ _ (Ne.symm n12), upd_ne _ _ (Ne.symm n02)]; exact y2) (N g2).1 (N g2).2.1 (N g2).2.2
    fun m9 W2 h9 w2n w2s w2b => ?_
  obtain ⟨s9, es9⟩ : ∃ s9, s9 = upd (upd (upd s6 t0 (some W0)) t1 (some W1)) t2 (some W2) := ⟨_, rfl⟩
  rw [← es9] at h9
  have x0 : s9 t0 = some W0 := by rw [es9, upd_ne _ _ n02, upd_ne _ _ n01, upd_self]
  have x1 : s9 t1 = some W1 := by rw [es9, upd_ne _ _ n12, upd_self]
  have x2 : s9 t2 = some W2 := by rw [es9, upd_self]
  have xo : ∀ y, y ≠ t0 → y ≠ t1 → y ≠ t2 → s9 y = s y := by
    intro y y0 y1 y2
    rw [es9, upd_ne _ _ y2, upd_ne _ _ y1, upd_ne _ _ y0, yo y y0 y1 y2]
  have xs : ∀ {y Y}, s y = some Y → s9 y = some Y := fun hy => by
    rw [xo _ (ne0 hy) (ne1 hy) (ne2 hy)]; exact hy
  refine wp_bind (set_one_rep hE h9 (xs hc) oc fun m10 C1 h10 c1n c1s c1v => ?_)
  have L0 : 4 * U.used ≤ W0.buf.length := by rw [w0b]; simpa using l0
  have ctx : ECtx s9 a md mu c t0 t1 t2 D U D.used (4 * U.used) :=
    { hm := xs hm, hu := xs hu, nM := nD, nU := nU, sM := sD, hk := rfl, hM0 := by omega, mlt := mlt, hU := hU, hUk := k2,
      hcap := by omega, hcap' := by unfold kext; omega, t01 := n01, t02 := n02, t12 := n12,
      a0 := (ne0 ha).symm, a1 := (ne1 ha).symm, a2 := (ne2 ha).symm, c0 := (ne0 hc).symm, c1 := (ne1 hc).symm, c2 := (ne2 hc).symm,
      m0 := (ne0 hm).symm, m1 := (ne1 hm).symm, m2 := (ne2 hm).symm, u0 := (ne0 hu).symm, u1 := (ne1 hu).symm, u2 := (ne2 hu).symm,
      ac := ac, am := am, au := au, cm := cm, cu := cu, oa := oa, oc := oc, o0 := o0, o1 := o1 }
  have inv : EInv m10 s9 (upd s9 c (some C1)) a c t0 t1 t2 D.used (4 * U.used) (A.mag ^ 2 ^ 0 % D.mag) 1 := by
    refine ⟨h10, ⟨A, ?_, nA, sA, ?_⟩, ⟨C1, upd_self _ _ _, c1n, c1s, c1v⟩, ⟨W0, ?_, w0n, w0s, L0, ?_⟩, ⟨W1, ?_, w1n, w1s, ?_⟩,
      ⟨W2, ?_, w2n, w2s, ?_⟩, ?_⟩
    · rw [upd_ne _ _ ac]; exact xs ha
    · rw [Nat.pow_zero, Nat.pow_one, Nat.mod_eq_of_lt hA]
    · rw [upd_ne _ _ (ne0 hc).symm]; exact x0
    · rw [w0b, List.getElem?_replicate, if_pos (by omega)]
    · rw [upd_ne _ _ (ne1 hc).symm]; exact x1
    · rw [w1b]; simpa using l1
    · rw [upd_ne _ _ (ne2 hc).symm]; exact x2
    · rw [w2b]; simpa using l2
    · intro y _ y2 _ _ _; rw [upd_ne _ _ y2]
  have hlast : B.used - 1 < B.buf.length := by omega
  refine embarDigits_spec (i := 0) (v := A.mag) (e := 0) (j := 0) hE ctx (xs hb) ab cb (ne0 hb) (ne1 hb) (ne2 hb) (by omega) inv
    ⟨by simp, .inr ⟨rfl, rfl⟩⟩ fun m11 s11 cv11 i11 a11 => ?_
  have hb11 : s11 b = some B := by rw [i11.out b ab cb (ne0 hb) (ne1 hb) (ne2 hb)]; exact xs hb
  refine wp_bind (wp_rdz (i := B.used - 1) i11.rep hb11 (List.getElem?_eq_getElem hlast) ?_)
  have hdlt := (i11.rep.okd hb11) _ (List.getElem_mem hlast)
  refine embarTop_spec (f := 32) hE ctx i11 a11 hdlt fun m12 s12 av12 cv12 i12 a12 => ?_
  obtain ⟨A', p1, p2, p3, p4⟩ := i12.ha
  obtain ⟨C', q1, q2, q3, q4⟩ := i12.hc
  obtain ⟨V0, v0, _⟩ := i12.h0
  obtain ⟨V1, v1, _⟩ := i12.h1
  obtain ⟨V2, v2, _⟩ := i12.h2
  refine ⟨s12, V2, i12.rep, v2, fun m13 h13 => ⟨_, V1, h13, by rw [upd_ne _ _ n12]; exact v1, fun m14 h14 =>
    ⟨_, V0, h14, by rw [upd_ne _ _ n01, upd_ne _ _ n02]; exact v0, fun m15 h15 => ?_⟩⟩⟩
  refine hQ m15 _ A' C' h15 ?_ p2 p3 ?_ q2 q3 ?_ ?_
  · rw [upd_ne _ _ (ne0 ha), upd_ne _ _ (ne1 ha), upd_ne _ _ (ne2 ha)]; exact p1
  · rw [upd_ne _ _ (ne0 hc), upd_ne _ _ (ne1 hc), upd_ne _ _ (ne2 hc)]; exact q1
  · rw [q4]
    have e1 : 0 + 2 ^ 0 * val (List.take (B.used - 1) (List.drop 0 B.buf)) + 2 ^ (0 + 32 * (B.used - 1)) * B.buf[B.used - 1] = B.mag := by
      unfold Cell.mag
      conv => rhs; rw [show B.used = B.used - 1 + 1 by omega]
      rw [val_take_succ _ _ hlast, pow𝔹]; simp
    rw [← e1]; exact a12
  · intro y y1 y2
    by_cases e0 : y = t0
    · rw [e0, upd_self, f0]
    · rw [upd_ne _ _ e0]
      by_cases e1 : y = t1
      · rw [e1, upd_self, f1']
      · rw [upd_ne _ _ e1]
        by_cases e2 : y = t2
        · rw [e2, upd_self, f2']
        · rw [upd_ne _ _ e2, i12.out y y1 y2 e0 e1 e2, xo y e0 e1 e2]

/-! ### At the level of values -/

theorem GROW_r2 {Q : Int → Mem → Prop} {n : Nat} (hE : Ref env E) (h : R2 m σ) (hz : σ z = some v) (ho : z.own = true)
    (hn : n < 4294967295) (hQ : ∀ m', R2 m' σ → Q MP_OK m') : wp env E (GROW z n) Q m := by
  obtain ⟨s, r, g⟩ := h
  obtain ⟨C, hC, gC⟩ := g.get hz
  exact GROW_spec hE r hC ho hn fun m' C' h' g' _ => hQ m' ⟨_, h', g.grow hC g'⟩

/-- `k` is the number of 32-bit digits of `n`. -/
def NDig (n k : Nat) : Prop := 1 ≤ k ∧ 𝔹 ^ (k - 1) ≤ n ∧ n < 𝔹 ^ k

theorem NDig.used {n : Nat} (hk : NDig n k) (h : Norm C) (hd : Dig C.buf) (hm : C.mag = n) : C.used = k := by
  have h1 := h.used_le hk.1 (by rw [hm]; exact hk.2.2)
  have h2 := mag_lt hd h.le
  by_contra hne
  have h3 : 𝔹 ^ C.used ≤ 𝔹 ^ (k - 1) := Nat.pow_le_pow_right (by decide) (by omega)
  have := hk.2.1
  omega

theorem exists_ndig {n : Nat} (hn : 0 < n) : ∃ k, NDig n k := by
  have hex : ∃ k, n < 𝔹 ^ k := ⟨n, Nat.lt_pow_self (by decide)⟩
  have h1 := Nat.find_spec hex
  have h2 : Nat.find hex ≠ 0 := fun h0 => by rw [h0] at h1; simp at h1; omega
  refine ⟨Nat.find hex, by omega, ?_, h1⟩
  have := Nat.find_min hex (show Nat.find hex - 1 < Nat.find hex by omega)
  omega

/-- The result of modular exponentiation. -/
def expR (x : Nat) (e mv : Nat) : Nat := if e = 0 then 1 else x ^ e % mv

theorem Acc.eq {mv v e cv : Nat} (h : Acc mv v e cv) : e = 0 ∧ cv = 1 ∨ e ≠ 0 ∧ cv = v ^ e % mv := by
  rcases h.2 with h1 | h1
  · right; have := h.1; rw [Nat.mod_eq_of_lt h1.2] at this; exact ⟨h1.1, this⟩
  · exact .inl h1

theorem s_embar_spec {Q : Int → Mem → Prop} {xv bv mv : Nat} {u : Int} (hE : Ref env E) (h : R2 m σ)
    (ha : σ a = some (xv : Int)) (hb : σ b = some (bv : Int)) (hm : σ md = some (mv : Int))
    (hu : σ mu = some u) (hu' : u.natAbs = 𝔹 ^ (2 * k) / mv) (hc : σ c = some w)
    (oa : a.own = true) (oc : c.own = true) (ac : a ≠ c) (ab : b ≠ a) (cb : b ≠ c) (am : a ≠ md) (au : a ≠ mu)
    (cm : c ≠ md) (cu : c ≠ mu) (hlt : xv < mv) (hk : NDig mv k)
    (hQ : ∀ m' w' r, Acc mv xv bv r → R2 m' (upd (upd σ a (some w')) c (some (r : Int))) → Q MP_OK m') :
    wp env E (s_embar a b md mu c) Q m := by
  obtain ⟨s, r, g⟩ := h
  obtain ⟨A, hA, gA⟩ := g.get ha
  obtain ⟨B, hB, gB⟩ := g.get hb
  obtain ⟨D, hD, gD⟩ := g.get hm
  obtain ⟨U, hU, gU⟩ := g.get hu
  obtain ⟨C, hC, gC⟩ := g.get hc
  have a1 := gA.ofNat
  have b1 := gB.ofNat
  have d1 := gD.ofNat
  have u1 := gU.natAbs.symm
  have hku : D.used = k := hk.used gD.norm (r.okd hD) d1.2
  refine s_embar_rep hE r hA hB hD hU hC oa oc ac ab cb am au cm cu gA.norm gB.norm gD.norm gU.norm a1.1 d1.1
    (by rw [a1.2, d1.2]; exact hlt) (by rw [u1, hu', hku, d1.2]) fun m' s' A' C' h' e1 e2 e3 e4 e5 e6 e7 e8 => ?_
  rw [a1.2, b1.2, d1.2] at e7
  refine hQ m' A'.mag C'.mag e7 ⟨s', h', fun y => ?_⟩
  by_cases hyc : y = c
  · rw [hyc, upd_self, e4]; exact e5.good_nat e6 rfl
  · rw [upd_ne _ _ hyc]
    by_cases hya : y = a
    · rw [hya, upd_self, e1]; exact e2.good_nat e3 rfl
    · rw [upd_ne _ _ hya, e8 y hya hyc]; exact g y

theorem s_brmu_spec {Q : Int → Mem → Prop} {mv : Nat} (hE : Ref env E) (h : R2 m σ)
    (hz : σ z = some w) (hm : σ md = some (mv : Int)) (ho : z.own = true) (hw : 0 ≤ w) (hne : z ≠ md) (hk : NDig mv k)
    (hQ : ∀ m', R2 m' (upd σ z (some ((𝔹 ^ (2 * k) / mv : Nat) : Int))) → Q MP_OK m') :
    wp env E (s_brmu z md) Q m := by
  obtain ⟨s, r, g⟩ := h
  obtain ⟨C, hC, gC⟩ := g.get hz
  obtain ⟨D, hD, gD⟩ := g.get hm
  have d1 := gD.ofNat
  have hku : D.used = k := hk.used gD.norm (r.okd hD) d1.2
  have lD := (r.okl hD).2
  have uD := gD.norm.le
  unfold s_brmu
  refine wp_bind (wp_USED r hD ?_)
  rw [hku, u32_of_lt (by omega)]
  refine wp_bind (s_pad_spec hE r hC ho (by omega) fun m1 C1 h1 g1 l1 => ?_)
  refine wp_if_pos rfl ?_
  have lC1 := (h1.okl (upd_self _ _ _)).2
  have cn : C1.neg = false := by
    rw [g1.neg]
    have := gC.neg_iff
    cases hn : C.neg with
    | false => rfl
    | true => have := this.1 hn; omega
  rw [u32_of_lt (show 32 * (k * 2) < 4294967296 by omega)]
  refine wp_bind (s_2expt_rep hE h1 (upd_self _ _ _) ho (by omega) fun m2 C2 h2 n2 s2 _ v2 => ?_)
  rw [upd_upd] at h2
  have e : (2 : Nat) ^ (32 * (k * 2)) = 𝔹 ^ (2 * k) := by rw [pow𝔹, Nat.mul_comm k 2]
  rw [e] at v2
  have r2 : R2 m2 (upd σ z (some ((𝔹 ^ (2 * k) : Nat) : Int))) :=
    ⟨_, h2, g.upd (n2.good_nat (by rw [s2, cn]) v2)⟩
  have hmv : 0 < mv := Nat.lt_of_lt_of_le (Nat.pow_pos (by decide)) hk.2.1
  refine mp_int_div_spec hE r2 (upd_self _ _ _) (by rw [upd_ne _ _ (Ne.symm hne)]; exact hm) (by simp) (fun y hy => ?_) (by simp)
    (fun h0 => absurd h0 (by omega)) fun _ m3 r3 => hQ m3 ?_
  · cases hy; exact ⟨⟨_, upd_self _ _ _⟩, ho⟩
  · simp only [updO] at r3
    rw [upd_upd] at r3
    rw [show ((𝔹 ^ (2 * k) / mv : Nat) : Int) = Int.tdiv ((𝔹 ^ (2 * k) : Nat) : Int) mv by
      rw [Int.natCast_div, Int.tdiv_eq_ediv_of_nonneg (Int.natCast_nonneg _)]]
    exact r3

/-- `a^b mod m` from the reduced base. -/
theorem acc_emod {x : Int} {xv bv mv r : Nat} (hm : 0 < mv) (hx : (xv : Int) = x % mv) (hA : Acc mv xv bv r)
    (hb : bv ≠ 0 ∨ mv ≠ 1) : (r : Int) = x ^ bv % mv := by
  have e : (xv ^ bv % mv : Nat) = x ^ bv % (mv : Int) := by
    push_cast
    rw [hx]
    exact (Int.ModEq.pow bv (Int.mod_modEq x mv))
  rcases hA.eq with ⟨h0, h1⟩ | ⟨_, h1⟩
  · subst h0
    rw [h1]
    have : mv ≠ 1 := by omega
    rw [pow_zero]
    exact (Int.emod_eq_of_lt (by decide) (by omega)).symm
  · rw [h1, e]

theorem mp_int_exptmod_spec {Q : Int → Mem → Prop} (hE : Ref env E) (h : R2 m σ)
    (ha : σ a = some x) (hb : σ b = some y) (hm : σ md = some v) (hc : σ c = some w) (ho : c.own = true) (hv : 0 < v)
    (hQ0 : y < 0 → Q MP_RANGE m)
    (hQ : 0 ≤ y → ∀ m', R2 m' (upd σ c (some (if y = 0 ∧ v = 1 then 1 else x ^ y.toNat % v))) → Q MP_OK m') :
    wp env E (mp_int_exptmod a b md c) Q m := by
  unfold mp_int_exptmod
  refine wp_bind (CMPZ_spec h hm ?_)
  refine wp_if_neg (by rw [Int.sign_eq_one_of_pos hv]; decide) ?_
  refine wp_bind (CMPZ_spec h hb ?_)
  refine wp_ite (fun hy => wp_pure (hQ0 (by simpa using hy))) (fun hy => ?_)
  have hy0 : 0 ≤ y := by
    by_contra hcon
    exact hy (by rw [Int.sign_eq_neg_one_of_neg (by omega)]; decide)
  obtain ⟨bv, rfl⟩ := Int.eq_ofNat_of_zero_le hy0
  obtain ⟨mv, rfl⟩ := Int.eq_ofNat_of_zero_le hv.le
  have hmv : 0 < mv := by omega
  obtain ⟨k, hk⟩ := exists_ndig hmv
  have key : ∀ {xv r : Nat}, (xv : Int) = x % mv → Acc mv xv bv r →
      (r : Int) = if ((bv : Int)) = 0 ∧ (mv : Int) = 1 then 1 else x ^ ((bv : Int)).toNat % mv := by
    intro xv r hx hA
    rw [Int.toNat_natCast]
    by_cases hh : (bv : Int) = 0 ∧ (mv : Int) = 1
    · rw [if_pos hh]
      have h1 : bv = 0 := by omega
      have h2 : mv = 1 := by omega
      rcases hA.eq with ⟨_, h3⟩ | ⟨h3, _⟩
      · rw [h3]; rfl
      · exact absurd h1 h3
    · rw [if_neg hh]
      exact acc_emod hmv hx hA (by omega)
  obtain ⟨s, r, g⟩ := h
  obtain ⟨D, hD, gD⟩ := g.get hm
  refine wp_bind (wp_USED r hD ?_)
  have lD := (r.okl hD).2
  have uD := gD.norm.le
  rw [u32_of_lt (show 2 * D.used < 4294967296 by omega)]
  have h : R2 m σ := ⟨s, r, g⟩
  refine withTemp3_spec h fun T V σ1 m1 g1 r1 hV => ?_
  replace g1 := g1.start [0, 0, 0] hV
  refine wp_require (GROW_r2 hE r1 (g1.get 0) (g1.ow 0) (by omega) fun m2 r2 => ⟨rfl, ?_⟩)
  refine wp_require (GROW_r2 hE r2 (g1.get 1) (g1.ow 1) (by omega) fun m3 r3 => ⟨rfl, ?_⟩)
  by_cases hal : c = b ∨ c = md
  · simp only [if_pos hal]
    refine wp_require (GROW_r2 hE r3 (g1.get 2) (g1.ow 2) (by omega) fun m4 r4 => ⟨rfl, ?_⟩)
    refine wp_require (mp_int_mod_spec hE r4 (g1.out ha) (g1.out hm) (g1.get 0) (g1.ow 0) (fun h0 => absurd h0 (by omega))
      fun _ m5 r5 => ⟨rfl, ?_⟩)
    rw [modOf_pos _ hv] at r5
    obtain ⟨xv, hxv⟩ := Int.eq_ofNat_of_zero_le (Int.emod_nonneg x (show (mv : Int) ≠ 0 by omega))
    have hxlt : xv < mv := by have := Int.emod_lt_of_pos x hv; omega
    rw [hxv] at r5
    obtain ⟨σ2, r5, g2⟩ := g1.up 0 r5
    tsimp at g2
    refine wp_require (s_brmu_spec hE r5 (g2.get 1) (g2.out hm) (g2.ow 1) (Int.le_refl 0) (g2.ne hm 1 (by decide)) hk fun m6 r6 => ⟨rfl, ?_⟩)
    obtain ⟨σ3, r6, g3⟩ := g2.up 1 r6
    tsimp at g3
    have e0 := g3.get 0; tsimp at e0
    have e1 := g3.get 1; tsimp at e1
    have e2 := g3.get 2; tsimp at e2
    refine wp_require (s_embar_spec hE r6 e0 (g3.out hb) (g3.out hm) e1 (Int.natAbs_natCast _) e2 (g3.ow 0) (g3.ow 2) (g3.neq 0 2)
      (g3.ne hb 0 (by decide)).symm (g3.ne hb 2 (by decide)).symm (g3.ne hm 0 (by decide)) (g3.neq 0 1) (g3.ne hm 2 (by decide)) (g3.neq 2 1)
      hxlt hk fun m7 w' rr hA r7 => ⟨rfl, ?_⟩)
    obtain ⟨σ4, hσ4⟩ : ∃ σ4, σ4 = upd σ3 (T 0) (some w') := ⟨_, rfl⟩
    have g4 := g3.lset 0 w'
    tsimp at g4
    rw [← hσ4] at g4 r7
    obtain ⟨σ5, r7, g5⟩ := g4.up 2 r7
    have e3 := g5.get 2; tsimp at e3
    refine wp_require (mp_int_copy_spec hE r7 e3 (g5.out hc) ho fun m8 r8 => ⟨rfl, wp_pure ?_⟩)
    obtain ⟨σ6, r8, g6⟩ := g5.up_out hc r8
    rw [key (by omega) hA] at g6
    exact .mk g6 r8 (hQ hy0)
  · simp only [if_neg hal]
    have hcb : c ≠ b := fun e => hal (.inl e)
    have hcm : c ≠ md := fun e => hal (.inr e)
    refine wp_require (wp_pure ⟨rfl, ?_⟩)
    refine wp_require (mp_int_mod_spec hE r3 (g1.out ha) (g1.out hm) (g1.get 0) (g1.ow 0) (fun h0 => absurd h0 (by omega))
      fun _ m5 r5 => ⟨rfl, ?_⟩)
    rw [modOf_pos _ hv] at r5
    obtain ⟨xv, hxv⟩ := Int.eq_ofNat_of_zero_le (Int.emod_nonneg x (show (mv : Int) ≠ 0 by omega))
    have hxlt : xv < mv := by have := Int.emod_lt_of_pos x hv; omega
    rw [hxv] at r5
    obtain ⟨σ2, r5, g2⟩ := g1.up 0 r5
    tsimp at g2
    refine wp_require (s_brmu_spec hE r5 (g2.get 1) (g2.out hm) (g2.ow 1) (Int.le_refl 0) (g2.ne hm 1 (by decide)) hk fun m6 r6 => ⟨rfl, ?_⟩)
    obtain ⟨σ3, r6, g3⟩ := g2.up 1 r6
    tsimp at g3
    have e0 := g3.get 0; tsimp at e0
    have e1 := g3.get 1; tsimp at e1
    refine wp_require (s_embar_spec hE r6 e0 (g3.out hb) (g3.out hm) e1 (Int.natAbs_natCast _) (g3.out hc) (g3.ow 0) ho (g3.ne hc 0 (by decide))
      (g3.ne hb 0 (by decide)).symm (Ne.symm hcb) (g3.ne hm 0 (by decide)) (g3.neq 0 1) hcm (g3.ne hc 1 (by decide)).symm
      hxlt hk fun m7 w' rr hA r7 => ⟨rfl, ?_⟩)
    obtain ⟨σ4, hσ4⟩ : ∃ σ4, σ4 = upd σ3 (T 0) (some w') := ⟨_, rfl⟩
    have g4 := g3.lset 0 w'
    tsimp at g4
    rw [← hσ4] at g4 r7
    obtain ⟨σ5, r7, g5⟩ := g4.up_out hc r7
    refine wp_require (mp_int_copy_spec hE r7 (g5.out (upd_self _ _ _)) (g5.out (upd_self _ _ _)) ho fun m8 r8 => ⟨rfl, wp_pure ?_⟩)
    obtain ⟨σ6, r8, g6⟩ := g5.up_out (upd_self _ _ _) r8
    rw [upd_upd, key (by omega) hA] at g6
    exact .mk g6 r8 (hQ hy0)

theorem mp_int_exptmod_known_spec {Q : Int → Mem → Prop} {k : Nat} {u : Int} (hE : Ref env E) (h : R2 m σ)
    (ha : σ a = some x) (hb : σ b = some y) (hm : σ md = some v) (hu : σ mu = some u) (hu1 : u.natAbs = 𝔹 ^ (2 * k) / v.toNat)
    (hc : σ c = some w) (ho : c.own = true) (hv : 0 < v) (hk : NDig v.toNat k) (hcu : c ≠ mu)
    (hQ0 : y < 0 → Q MP_RANGE m)
    (hQ : 0 ≤ y → ∀ m', R2 m' (upd σ c (some (if y = 0 ∧ v = 1 then 1 else x ^ y.toNat % v))) → Q MP_OK m') :
    wp env E (mp_int_exptmod_known a b md mu c) Q m := by
  unfold mp_int_exptmod_known
  refine wp_bind (CMPZ_spec h hm ?_)
  refine wp_if_neg (by rw [Int.sign_eq_one_of_pos hv]; decide) ?_
  refine wp_bind (CMPZ_spec h hb ?_)
  refine wp_ite (fun hy => wp_pure (hQ0 (by simpa using hy))) (fun hy => ?_)
  have hy0 : 0 ≤ y := by
    by_contra hcon
    exact hy (by rw [Int.sign_eq_neg_one_of_neg (by omega)]; decide)
  obtain ⟨bv, rfl⟩ := Int.eq_ofNat_of_zero_le hy0
  obtain ⟨mv, rfl⟩ := Int.eq_ofNat_of_zero_le hv.le
  have hmv : 0 < mv := by omega
  rw [Int.toNat_natCast] at hk
  rw [Int.toNat_natCast] at hu1
  have hu' := hu
  have key : ∀ {xv r : Nat}, (xv : Int) = x % mv → Acc mv xv bv r →
      (r : Int) = if ((bv : Int)) = 0 ∧ (mv : Int) = 1 then 1 else x ^ ((bv : Int)).toNat % mv := by
    intro xv r hx hA
    rw [Int.toNat_natCast]
    by_cases hh : (bv : Int) = 0 ∧ (mv : Int) = 1
    · rw [if_pos hh]
      have h1 : bv = 0 := by omega
      have h2 : mv = 1 := by omega
      rcases hA.eq with ⟨_, h3⟩ | ⟨h3, _⟩
      · rw [h3]; rfl
      · exact absurd h1 h3
    · rw [if_neg hh]
      exact acc_emod hmv hx hA (by omega)
  obtain ⟨s, r, g⟩ := h
  obtain ⟨D, hD, gD⟩ := g.get hm
  refine wp_bind (wp_USED r hD ?_)
  have lD := (r.okl hD).2
  have uD := gD.norm.le
  rw [u32_of_lt (show 2 * D.used < 4294967296 by omega)]
  have h : R2 m σ := ⟨s, r, g⟩
  refine withTemp2_spec h fun T V σ1 m1 g1 r1 hV => ?_
  replace g1 := g1.start [0, 0] hV
  refine wp_require (GROW_r2 hE r1 (g1.get 0) (g1.ow 0) (by omega) fun m2 r2 => ⟨rfl, ?_⟩)
  by_cases hal : c = b ∨ c = md
  · simp only [if_pos hal]
    refine wp_require (GROW_r2 hE r2 (g1.get 1) (g1.ow 1) (by omega) fun m4 r4 => ⟨rfl, ?_⟩)
    refine wp_require (mp_int_mod_spec hE r4 (g1.out ha) (g1.out hm) (g1.get 0) (g1.ow 0) (fun h0 => absurd h0 (by omega))
      fun _ m5 r5 => ⟨rfl, ?_⟩)
    rw [modOf_pos _ hv] at r5
    obtain ⟨xv, hxv⟩ := Int.eq_ofNat_of_zero_le (Int.emod_nonneg x (show (mv : Int) ≠ 0 by omega))
    have hxlt : xv < mv := by have := Int.emod_lt_of_pos x hv; omega
    rw [hxv] at r5
    obtain ⟨σ3, r6, g3⟩ := g1.up 0 r5
    tsimp at g3
    have e0 := g3.get 0; tsimp at e0
    have e2 := g3.get 1; tsimp at e2
    refine wp_require (s_embar_spec hE r6 e0 (g3.out hb) (g3.out hm) (g3.out hu') hu1 e2 (g3.ow 0) (g3.ow 1) (g3.neq 0 1)
      (g3.ne hb 0 (by decide)).symm (g3.ne hb 1 (by decide)).symm (g3.ne hm 0 (by decide)) (g3.ne hu' 0 (by decide)) (g3.ne hm 1 (by decide)) (g3.ne hu' 1 (by decide))
      hxlt hk fun m7 w' rr hA r7 => ⟨rfl, ?_⟩)
    obtain ⟨σ4, hσ4⟩ : ∃ σ4, σ4 = upd σ3 (T 0) (some w') := ⟨_, rfl⟩
    have g4 := g3.lset 0 w'
    tsimp at g4
    rw [← hσ4] at g4 r7
    obtain ⟨σ5, r7, g5⟩ := g4.up 1 r7
    have e3 := g5.get 1; tsimp at e3
    refine wp_require (mp_int_copy_spec hE r7 e3 (g5.out hc) ho fun m8 r8 => ⟨rfl, wp_pure ?_⟩)
    obtain ⟨σ6, r8, g6⟩ := g5.up_out hc r8
    rw [key (by omega) hA] at g6
    exact .mk g6 r8 (hQ hy0)
  · simp only [if_neg hal]
    have hcb : c ≠ b := fun e => hal (.inl e)
    have hcm : c ≠ md := fun e => hal (.inr e)
    refine wp_require (wp_pure ⟨rfl, ?_⟩)
    refine wp_require (mp_int_mod_spec hE r2 (g1.out ha) (g1.out hm) (g1.get 0) (g1.ow 0) (fun h0 => absurd h0 (by omega))
      fun _ m5 r5 => ⟨rfl, ?_⟩)
    rw [modOf_pos _ hv] at r5
    obtain ⟨xv, hxv⟩ := Int.eq_ofNat_of_zero_le (Int.emod_nonneg x (show (mv : Int) ≠ 0 by omega))
    have hxlt : xv < mv := by have := Int.emod_lt_of_pos x hv; omega
    rw [hxv] at r5
    obtain ⟨σ3, r6, g3⟩ := g1.up 0 r5
    tsimp at g3
    have e0 := g3.get 0; tsimp at e0
    refine wp_require (s_embar_spec hE r6 e0 (g3.out hb) (g3.out hm) (g3.out hu') hu1 (g3.out hc) (g3.ow 0) ho (g3.ne hc 0 (by decide))
      (g3.ne hb 0 (by decide)).symm (Ne.symm hcb) (g3.ne hm 0 (by decide)) (g3.ne hu' 0 (by decide)) hcm hcu
      hxlt hk fun m7 w' rr hA r7 => ⟨rfl, ?_⟩)
    obtain ⟨σ4, hσ4⟩ : ∃ σ4, σ4 = upd σ3 (T 0) (some w') := ⟨_, rfl⟩
    have g4 := g3.lset 0 w'
    tsimp at g4
    rw [← hσ4] at g4 r7
    obtain ⟨σ5, r7, g5⟩ := g4.up_out hc r7
    refine wp_require (mp_int_copy_spec hE r7 (g5.out (upd_self _ _ _)) (g5.out (upd_self _ _ _)) ho fun m8 r8 => ⟨rfl, wp_pure ?_⟩)
    obtain ⟨σ6, r8, g6⟩ := g5.up_out (upd_self _ _ _) r8
    rw [upd_upd, key (by omega) hA] at g6
    exact .mk g6 r8 (hQ hy0)

theorem mp_int_exptmod_undef {Q : Int → Mem → Prop} (h : R2 m σ) (hm : σ md = some 0) (hQ : Q MP_UNDEF m) :
    wp env E (mp_int_exptmod a b md c) Q m := by
  unfold mp_int_exptmod
  refine wp_bind (CMPZ_spec h hm ?_)
  exact wp_if_pos (by decide) (wp_pure hQ)

theorem mp_int_exptmod_known_undef {Q : Int → Mem → Prop} (h : R2 m σ) (hm : σ md = some 0) (hQ : Q MP_UNDEF m) :
    wp env E (mp_int_exptmod_known a b md mu c) Q m := by
  unfold mp_int_exptmod_known
  refine wp_bind (CMPZ_spec h hm ?_)
  exact wp_if_pos (by decide) (wp_pure hQ)

theorem mp_int_exptmod_evalue_spec {Q : Int → Mem → Prop} (hE : Ref env E) (h : R2 m σ)
    (hv1 : SMALL_MIN < y) (hv2 : y ≤ SMALL_MAX)
    (ha : σ a = some x) (hm : σ md = some v) (hc : σ c = some w) (ho : c.own = true) (hv : 0 ≤ v)
    (hQu : v = 0 → ∀ m', R2 m' σ → Q MP_UNDEF m')
    (hQ0 : v ≠ 0 → y < 0 → ∀ m', R2 m' σ → Q MP_RANGE m')
    (hQ : v ≠ 0 → 0 ≤ y → ∀ m', R2 m' (upd σ c (some (if y = 0 ∧ v = 1 then 1 else x ^ y.toNat % v))) → Q MP_OK m') :
    wp env E (mp_int_exptmod_evalue a y md c) Q m := by
  refine withFake_spec hv1 hv2 h fun t m1 ht hto h1 => ?_
  have htc := ne_of_none ht hc
  have back : ∀ m2 r, (∀ m', R2 m' σ → Q r m') → R2 m2 (upd σ t (some y)) →
      ∃ σ'' v, R2 m2 σ'' ∧ σ'' t = some v ∧ ∀ m3, R2 m3 (upd σ'' t none) → Q r m3 := fun m2 r hq h2 =>
    ⟨_, y, h2, upd_self .., fun m3 h3 => hq m3 (by rwa [upd_upd, upd_same _ ht] at h3)⟩
  have hm' : upd σ t (some y) md = some v := by rw [upd_ne _ _ (Ne.symm (ne_of_none ht hm))]; exact hm
  by_cases h0 : v = 0
  · subst h0
    exact mp_int_exptmod_undef h1 hm' (back m1 _ (hQu rfl) h1)
  · refine mp_int_exptmod_spec hE h1 (by rw [upd_ne _ _ (Ne.symm (ne_of_none ht ha))]; exact ha) (upd_self ..) hm'
      (by rw [upd_ne _ _ (Ne.symm htc)]; exact hc) ho (by omega) (fun hy => back m1 _ (hQ0 h0 hy) h1) fun hy m2 h2 => ?_
    refine ⟨_, y, h2, by rw [upd_ne _ _ htc, upd_self], fun m3 h3 => hQ h0 hy m3 ?_⟩
    rwa [upd_tmp _ ht htc] at h3

theorem mp_int_exptmod_bvalue_spec {Q : Int → Mem → Prop} (hE : Ref env E) (h : R2 m σ)
    (hv1 : SMALL_MIN < x) (hv2 : x ≤ SMALL_MAX)
    (hb : σ b = some y) (hm : σ md = some v) (hc : σ c = some w) (ho : c.own = true) (hv : 0 ≤ v)
    (hQu : v = 0 → ∀ m', R2 m' σ → Q MP_UNDEF m')
    (hQ0 : v ≠ 0 → y < 0 → ∀ m', R2 m' σ → Q MP_RANGE m')
    (hQ : v ≠ 0 → 0 ≤ y → ∀ m', R2 m' (upd σ c (some (if y = 0 ∧ v = 1 then 1 else x ^ y.toNat % v))) → Q MP_OK m') :
    wp env E (mp_int_exptmod_bvalue x b md c) Q m := by
  refine withFake_spec hv1 hv2 h fun t m1 ht hto h1 => ?_
  have htc := ne_of_none ht hc
  have back : ∀ m2 r, (∀ m', R2 m' σ → Q r m') → R2 m2 (upd σ t (some x)) →
      ∃ σ'' v, R2 m2 σ'' ∧ σ'' t = some v ∧ ∀ m3, R2 m3 (upd σ'' t none) → Q r m3 := fun m2 r hq h2 =>
    ⟨_, x, h2, upd_self .., fun m3 h3 => hq m3 (by rwa [upd_upd, upd_same _ ht] at h3)⟩
  have hm' : upd σ t (some x) md = some v := by rw [upd_ne _ _ (Ne.symm (ne_of_none ht hm))]; exact hm
  by_cases h0 : v = 0
  · subst h0
    exact mp_int_exptmod_undef h1 hm' (back m1 _ (hQu rfl) h1)
  · refine mp_int_exptmod_spec hE h1 (upd_self ..) (by rw [upd_ne _ _ (Ne.symm (ne_of_none ht hb))]; exact hb) hm'
      (by rw [upd_ne _ _ (Ne.symm htc)]; exact hc) ho (by omega) (fun hy => back m1 _ (hQ0 h0 hy) h1) fun hy m2 h2 => ?_
    refine ⟨_, x, h2, by rw [upd_ne _ _ htc, upd_self], fun m3 h3 => hQ h0 hy m3 ?_⟩
    rwa [upd_tmp _ ht htc] at h3

theorem mp_int_redux_const_spec {Q : Int → Mem → Prop} {mv : Nat} (hE : Ref env E) (h : R2 m σ)
    (hc : σ c = some w) (hm : σ md = some (mv : Int)) (ho : c.own = true) (hw : 0 ≤ w) (hne : c ≠ md) (hk : NDig mv k)
    (hQ : ∀ m', R2 m' (upd σ c (some ((𝔹 ^ (2 * k) / mv : Nat) : Int))) → Q MP_OK m') :
    wp env E (mp_int_redux_const md c) Q m := by
  unfold mp_int_redux_const
  exact wp_bind (wp_cassert (decide_eq_true (Ne.symm hne)) (s_brmu_spec hE h hc hm ho hw hne hk hQ))

end Imath
