import Verif.Proof.Add

/-! # Initialisation, release and exchange -/

namespace Imath

variable {env : Env} {E : Fault → Prop} {m : Mem} {s : Id → Option Cell} {σ : Id → Option Int}
  {z a b c : Id} {A B C : Cell} {x y w v : Int}

/-- `z` is declared (it may be uninitialised). -/
structure Decl (m : Mem) (z : Id) : Prop where
  int : ∃ Z, m.int z = some Z
  sng : ∃ d, m.dig (.single z) = some [d]
  own : z.own = true
  old : ∀ n, m.next ≤ n → z ≠ .tmp n

theorem Rep.declVar (h : Rep m s) (n : Nat) : Decl m (.var n) :=
  ⟨(h.decl n).1, (h.decl n).2, rfl, fun _ _ => by simp⟩

theorem Id.own_ne_fake {n : Nat} (h : z.own = true) : z ≠ .fake n := by
  intro he; rw [he] at h; simp [Id.own] at h

theorem mp_int_init_rep {Q : Int → Mem → Prop} (h : Rep m s) (hd : Decl m z) (hs : s z = none)
    (hQ : ∀ m', Rep m' (upd s z (some (zeroCell z))) → Q MP_OK m') :
    wp env E (mp_int_init z) Q m := by
  obtain ⟨Z, hZ⟩ := hd.int
  obtain ⟨d, hdd⟩ := hd.sng
  refine mp_int_init_raw hZ hdd (hQ _ ?_)
  refine h.insert (C := zeroCell z) hs ?_ ?_ ?_ ?_ ?_ (.inl rfl) ?_ ?_ ?_ ?_ rfl rfl
  · intro y
    by_cases hy : y = z
    · simp [Mem.setInt, hy]
    · simp [Mem.setInt, Mem.setDig, hy]
  · simp [Mem.setInt, Mem.setDig, zeroCell]
  · exact ⟨0, by simp [Mem.setInt, Mem.setDig]⟩
  · have := hd.own
    cases z <;> simp_all [okBase, zeroCell, Id.own]
  · intro b _ hb; simp [Mem.setInt, Mem.setDig, hb]
  · exact Nat.le_refl _
  · intro n hn
    exact ⟨hd.old n hn, Id.own_ne_fake hd.own, by simp [zeroCell], by simp [zeroCell]⟩
  · simp [zeroCell]
  · simp [zeroCell]

theorem mp_int_init_size_rep {Q : Int → Mem → Prop} {prec : Nat} (hE : Ref env E) (h : Rep m s)
    (hd : Decl m z) (hs : s z = none) (hp : prec < 4294967295)
    (hQ : ∀ m' C, Rep m' (upd s z (some C)) → Good C 0 → prec ≤ C.buf.length → Q MP_OK m') :
    wp env E (mp_int_init_size z prec) Q m := by
  unfold mp_int_init_size
  refine wp_bind (wp_getMem ?_)
  refine wp_ite (fun h1 => ?_) (fun h1 => ?_)
  · refine mp_int_init_rep h hd hs fun m' h' => hQ m' _ h' (zeroCell_good z) (by simp [zeroCell, h1])
  · have hpr := h.prec
    obtain ⟨Z, hZ⟩ := hd.int
    obtain ⟨d, hdd⟩ := hd.sng
    have hsz : ∃ N, (if prec = 0 then m.defPrec else s_round_prec prec) = N ∧ 1 ≤ N ∧ prec ≤ N := by
      refine ⟨_, rfl, ?_⟩
      split
      · omega
      · rw [s_round_prec_eq hp]; omega
    obtain ⟨N, hN, hN1, hN2⟩ := hsz
    simp only [hN]
    refine wp_bind (wp_mallocD hE fun l hll hdl hn => ?_)
    have hfresh := h.freshH m.next (Nat.le_refl _)
    obtain ⟨l0, ls, hls⟩ : ∃ l0 ls, l = l0 :: ls := by
      match l, hll with
      | [], hll => simp at hll; omega
      | l0 :: ls, _ => exact ⟨l0, ls, rfl⟩
    subst hls
    refine wp_bind (wp_setDigits (Z := Z) hZ ?_)
    refine wp_bind (wp_wr (y := l0) ?_ ?_)
    · simp [Mem.get, Mem.setInt, Mem.setDig, Mem.bump]
    refine wp_bind (wp_setI (Z := { Z with digits := some ⟨.heap m.next, 0⟩ }) (setInt_int_self _ _ _) ?_)
    refine wp_bind (wp_setI (setInt_int_self _ _ _) ?_)
    refine wp_bind (wp_setI (setInt_int_self _ _ _) ?_)
    refine wp_pure ?_
    have hdls : Dig ls := by simp only [Dig_cons] at hdl; exact hdl.2
    have hlls : (0 :: ls).length = N := by simpa using hll
    refine hQ _ ⟨.heap m.next, 0 :: ls, 1, false⟩ (h.insert hs ?_ ?_ ?_ ?_ ?_ (.inr hfresh) ?_ ?_ ?_ ?_ rfl rfl) ?_ ?_
    · intro y
      simp only [Mem.setInt, Mem.splice, Mem.bump, Mem.setDig, Cell.mpz, hlls]
      split <;> rfl
    · simp [Mem.setInt, Mem.splice, Mem.bump, Mem.setDig, spliceL_zero_append]
    · exact ⟨d, by simp [Mem.setInt, Mem.splice, Mem.bump, Mem.setDig, hdd]⟩
    · exact okBase_heap hd.own
    · intro b hb hb2
      simp only at hb
      simp [Mem.setInt, Mem.splice, Mem.bump, Mem.setDig, hb]
    · show m.next ≤ m.next + 1
      omega
    · intro n hn'
      have hn2 : m.next + 1 ≤ n := hn'
      refine ⟨hd.old n (by omega), Id.own_ne_fake hd.own, by simp, ?_⟩
      simp; omega
    · simp [hdls]
    · simp only [hlls]; omega
    · exact ⟨⟨Nat.le_refl _, by simp, by simp⟩, by simp, by simp [Cell.mag, sval]⟩
    · simp only [hlls]; exact hN2

/-- A value of one digit is stored in the variable itself. -/
theorem mp_int_init_copy_rep' {Q : Int → Mem → Prop} (hE : Ref env E) (h : Rep m s)
    (hd : Decl m z) (hs : s z = none) (ha : s a = some A) (nA : Norm A)
    (hQ : ∀ m' C, Rep m' (upd s z (some C)) → Same A C → (A.used = 1 → C.base = .single z) → Q MP_OK m') :
    wp env E (mp_int_init_copy z a) Q m := by
  unfold mp_int_init_copy
  have hza : z ≠ a := ne_of_none hs ha
  have hpr := h.prec
  have lA := (h.okl ha).2
  have uA := nA.le
  have pA := nA.pos
  refine wp_bind (wp_USED h ha ?_)
  have key : ∀ m1 C1, Rep m1 (upd s z (some C1)) → A.used ≤ C1.buf.length → (A.used = 1 → C1.base = .single z) →
      wp env E (if MP_OK ≠ MP_OK then pure MP_OK
        else do
          setUsed z A.used
          setSign z (← MP_SIGN a)
          COPY (← MP_DIGITS a) (← MP_DIGITS z) A.used
          pure MP_OK) Q m1 := by
    intro m1 C1 h1 hl hsg
    refine wp_if_neg (by simp) ?_
    refine wp_bind (wp_setUsed h1 (upd_self _ _ _) fun m2 h2 => ?_)
    rw [upd_upd] at h2
    have ga : ∀ D, upd s z (some D) a = some A := fun D => by rw [upd_ne _ _ (Ne.symm hza)]; exact ha
    refine wp_bind (wp_SIGN h2 (ga _) ?_)
    refine wp_bind (wp_setSign h2 (upd_self _ _ _) fun m3 h3 => ?_)
    rw [upd_upd] at h3
    refine wp_bind (wp_DIGITS h3 (ga _) ?_)
    refine wp_bind (wp_DIGITS h3 (upd_self _ _ _) ?_)
    refine wp_bind (COPY_spec (xs := A.buf.take A.used) (os := C1.buf.take A.used)
      ((h3.at (ga _)).take _) ((h3.at (upd_self _ _ _)).take _) (by rw [List.length_take]; omega)
      (by rw [List.length_take]; omega) ?_ (by omega) ?_)
    · left
      intro hb
      exact hza (h3.inj (upd_self _ _ _) (ga _) hb.symm)
    refine wp_pure ?_
    have h4 := h3.write (upd_self _ _ _) (k := 0) ((h.okd ha).take A.used)
    rw [upd_upd] at h4
    have hlen : (A.buf.take A.used).length = A.used := by rw [List.length_take]; omega
    refine hQ _ _ h4 ⟨rfl, rfl, ?_, by simpa using hl⟩ hsg
    show (spliceL C1.buf 0 (A.buf.take A.used)).take A.used = A.buf.take A.used
    rw [spliceL_zero_append _ _ (by omega), List.take_append_of_le_length (by omega),
        List.take_of_length_le (by omega)]
  refine wp_bind (wp_cif (fun h1 => ?_) (fun h1 => ?_))
  · exact mp_int_init_rep h hd hs fun m1 hr1 => key m1 _ hr1 (by simp [zeroCell, h1]) fun _ => rfl
  · refine wp_bind (wp_getMem ?_)
    rw [MAX_eq]
    exact mp_int_init_size_rep hE h hd hs (by omega) fun m1 C1 hr1 _ hl => key m1 _ hr1 (by omega) fun h => absurd h h1

theorem mp_int_init_copy_rep {Q : Int → Mem → Prop} (hE : Ref env E) (h : Rep m s)
    (hd : Decl m z) (hs : s z = none) (ha : s a = some A) (nA : Norm A)
    (hQ : ∀ m' C, Rep m' (upd s z (some C)) → Same A C → Q MP_OK m') :
    wp env E (mp_int_init_copy z a) Q m := mp_int_init_copy_rep' hE h hd hs ha nA fun m' C h1 h2 _ => hQ m' C h1 h2

theorem mp_int_init_spec {Q : Int → Mem → Prop} (h : R2 m σ) (hd : Decl m z) (hz : σ z = none)
    (hQ : ∀ m', R2 m' (upd σ z (some 0)) → Q MP_OK m') :
    wp env E (mp_int_init z) Q m := by
  obtain ⟨s, hr, hg⟩ := h
  exact mp_int_init_rep hr hd (hg.none_iff.2 hz) fun m' h' => hQ m' ⟨_, h', hg.upd (zeroCell_good z)⟩

theorem mp_int_init_size_spec {Q : Int → Mem → Prop} {prec : Nat} (hE : Ref env E) (h : R2 m σ) (hd : Decl m z)
    (hz : σ z = none) (hp : prec < 4294967295)
    (hQ : ∀ m', R2 m' (upd σ z (some 0)) → Q MP_OK m') :
    wp env E (mp_int_init_size z prec) Q m := by
  obtain ⟨s, hr, hg⟩ := h
  exact mp_int_init_size_rep hE hr hd (hg.none_iff.2 hz) hp fun m' C h' hC _ => hQ m' ⟨_, h', hg.upd hC⟩

theorem mp_int_init_copy_spec {Q : Int → Mem → Prop} (hE : Ref env E) (h : R2 m σ) (hd : Decl m z)
    (hz : σ z = none) (ha : σ a = some x)
    (hQ : ∀ m', R2 m' (upd σ z (some x)) → Q MP_OK m') :
    wp env E (mp_int_init_copy z a) Q m := by
  obtain ⟨s, hr, hg⟩ := h
  obtain ⟨A, hA, gA⟩ := hg.get ha
  exact mp_int_init_copy_rep hE hr hd (hg.none_iff.2 hz) hA gA.norm fun m' C h' hC =>
    hQ m' ⟨_, h', hg.upd (hC.good gA)⟩

theorem R2.declVar (h : R2 m σ) (n : Nat) : Decl m (.var n) := by
  obtain ⟨s, hr, hg⟩ := h
  exact hr.declVar n

theorem mp_int_init_value_spec {Q : Int → Mem → Prop} {n : Nat} (hE : Ref env E)
    (hv1 : SMALL_MIN < v) (hv2 : v ≤ SMALL_MAX) (h : R2 m σ) (hz : σ (.var n) = none)
    (hQ : ∀ m', R2 m' (upd σ (.var n) (some v)) → Q MP_OK m') :
    wp env E (mp_int_init_value (.var n) v) Q m := by
  refine withFake_spec hv1 hv2 h fun t m1 ht hto h1 => ?_
  have htc : t ≠ .var n := by intro he; rw [he] at hto; simp [Id.own] at hto
  refine mp_int_init_copy_spec hE h1 (h1.declVar n) (by rw [upd_ne _ _ (Ne.symm htc)]; exact hz) (upd_self _ _ _)
    fun m2 h2 => ?_
  refine ⟨_, v, h2, by rw [upd_ne _ _ htc, upd_self], fun m3 h3 => hQ m3 ?_⟩
  rwa [upd_tmp _ ht htc] at h3

theorem mp_int_init_uvalue_spec {Q : Int → Mem → Prop} {n uv : Nat} (hE : Ref env E)
    (huv : uv < 18446744073709551616) (h : R2 m σ) (hz : σ (.var n) = none)
    (hQ : ∀ m', R2 m' (upd σ (.var n) (some (uv : Int))) → Q MP_OK m') :
    wp env E (mp_int_init_uvalue (.var n) uv) Q m := by
  refine withUFake_spec huv h fun t m1 ht hto h1 => ?_
  have htc : t ≠ .var n := by intro he; rw [he] at hto; simp [Id.own] at hto
  refine mp_int_init_copy_spec hE h1 (h1.declVar n) (by rw [upd_ne _ _ (Ne.symm htc)]; exact hz) (upd_self _ _ _)
    fun m2 h2 => ?_
  refine ⟨_, (uv : Int), h2, by rw [upd_ne _ _ htc, upd_self], fun m3 h3 => hQ m3 ?_⟩
  rwa [upd_tmp _ ht htc] at h3

theorem mp_int_clear_spec {Q : Unit → Mem → Prop} {n : Nat} (h : R2 m σ) (hz : σ (.var n) = some x)
    (hQ : ∀ m', R2 m' (upd σ (.var n) none) → Q () m') :
    wp env E (mp_int_clear (.var n)) Q m := by
  obtain ⟨s, hr, hg⟩ := h
  obtain ⟨C, hC, gC⟩ := hg.get hz
  refine mp_int_clear_raw hr hC rfl fun m' g1 g2 g3 g4 g5 g6 => ?_
  refine hQ m' ⟨_, hr.remove hC g1 ?_ ?_ ?_ ?_ (by omega) g5 g6, hg.upd_none⟩
  · intro b hb _; rw [g3, if_neg]; exact fun hh => hb hh.2
  · intro k hb; rw [g3, hb]; simp [Base.isHeap]
  · intro k hb
    rcases okBase_own (z := .var n) rfl (hr.kind hC) with h5 | ⟨j, h5⟩ <;> rw [h5] at hb <;> simp at hb
  · intro k hk
    refine ⟨⟨_, g2⟩, ?_⟩
    obtain ⟨d, hd⟩ := (hr.decl n).2
    exact ⟨d, by rw [g3, if_neg (by simp [Base.isHeap])]; exact hd⟩

/-! ### Exchange -/

/-- A cell whose digits live in its own object moves to another object. -/
def Cell.reloc (C : Cell) (z : Id) : Cell :=
  { C with base := if C.base.isHeap then C.base else .single z }

@[simp] theorem Cell.reloc_buf (C : Cell) (z : Id) : (C.reloc z).buf = C.buf := rfl

theorem Good.reloc (h : Good C v) (z : Id) : Good (C.reloc z) v := ⟨⟨h.norm.pos, h.norm.le, h.norm.top⟩, h.sign, h.val⟩

theorem Rep.swap {m' : Mem} (h : Rep m s) (ha : s a = some A) (hc : s c = some C) (hne : a ≠ c)
    (oa : a.own = true) (oc : c.own = true)
    (hint : ∀ y, m'.int y = if y = a then some (C.reloc a).mpz else
      if y = c then some (A.reloc c).mpz else m.int y)
    (hdig : ∀ b, m'.dig b = if b = .single a then m.dig (.single c) else
      if b = .single c then m.dig (.single a) else m.dig b)
    (hn : m'.next = m.next) (hp : m'.defPrec = m.defPrec) (ht : m'.mulThr = m.mulThr) :
    Rep m' (upd (upd s a (some (C.reloc a))) c (some (A.reloc c))) := by
  have hget : ∀ {y D}, upd (upd s a (some (C.reloc a))) c (some (A.reloc c)) y = some D →
      (y = a ∧ D = C.reloc a) ∨ (y = c ∧ D = A.reloc c) ∨ (y ≠ a ∧ y ≠ c ∧ s y = some D) := by
    intro y D hy
    simp only [upd] at hy
    split at hy
    · exact .inr (.inl ⟨‹_›, (Option.some.inj hy).symm⟩)
    · split at hy
      · exact .inl ⟨‹_›, (Option.some.inj hy).symm⟩
      · exact .inr (.inr ⟨‹_›, ‹_›, hy⟩)
  have hbA : (A.base = .single a ∧ (A.reloc c).base = .single c) ∨ ∃ k, A.base = .heap k ∧ (A.reloc c).base = .heap k := by
    rcases okBase_own oa (h.kind ha) with hb | ⟨k, hb⟩
    · left; simp [Cell.reloc, hb, Base.isHeap]
    · right; exact ⟨k, by simp [Cell.reloc, hb, Base.isHeap]⟩
  have hbC : (C.base = .single c ∧ (C.reloc a).base = .single a) ∨ ∃ k, C.base = .heap k ∧ (C.reloc a).base = .heap k := by
    rcases okBase_own oc (h.kind hc) with hb | ⟨k, hb⟩
    · left; simp [Cell.reloc, hb, Base.isHeap]
    · right; exact ⟨k, by simp [Cell.reloc, hb, Base.isHeap]⟩
  have hsy : ∀ {y D}, s y = some D → ∀ {x}, D.base = .single x → x = y := by
    intro y D hy x hb
    have := h.kind hy
    rw [hb] at this
    exact okBase_single this
  refine
    { int := ?_, dig := ?_, kind := ?_, inj := ?_, sng := ?_, decl := ?_, owned := ?_, freshH := ?_,
      freshI := ?_, freshS := ?_, okd := ?_, okl := ?_, prec := by rw [hp]; exact h.prec,
      thr := by rw [ht]; exact h.thr }
  · intro y D hy
    rw [hint]
    rcases hget hy with ⟨rfl, rfl⟩ | ⟨rfl, rfl⟩ | ⟨h1, h2, hy⟩
    · simp
    · simp [Ne.symm hne]
    · rw [if_neg h1, if_neg h2]; exact h.int hy
  · intro y D hy
    rw [hdig]
    rcases hget hy with ⟨rfl, rfl⟩ | ⟨rfl, rfl⟩ | ⟨h1, h2, hy⟩
    · rcases hbC with ⟨h1, h2⟩ | ⟨k, h1, h2⟩
      · rw [h2, if_pos rfl, ← h1]; exact h.dig hc
      · rw [h2, if_neg (by simp), if_neg (by simp), ← h1]; exact h.dig hc
    · rcases hbA with ⟨h1, h2⟩ | ⟨k, h1, h2⟩
      · rw [h2, if_neg (by simp [Ne.symm hne]), if_pos rfl, ← h1]; exact h.dig ha
      · rw [h2, if_neg (by simp), if_neg (by simp), ← h1]; exact h.dig ha
    · rw [if_neg (fun hb => h1 (hsy hy hb).symm), if_neg (fun hb => h2 (hsy hy hb).symm)]; exact h.dig hy
  · intro y D hy
    rcases hget hy with ⟨rfl, rfl⟩ | ⟨rfl, rfl⟩ | ⟨h1, h2, hy⟩
    · rcases hbC with ⟨h1, h2⟩ | ⟨k, h1, h2⟩
      · rw [h2]; cases y <;> simp_all [okBase, Id.own]
      · rw [h2]; exact okBase_heap oa
    · rcases hbA with ⟨h1, h2⟩ | ⟨k, h1, h2⟩
      · rw [h2]; cases y <;> simp_all [okBase, Id.own]
      · rw [h2]; exact okBase_heap oc
    · exact h.kind hy
  · have hac : (C.reloc a).base ≠ (A.reloc c).base := by
      rcases hbC with ⟨h1, h2⟩ | ⟨k, h1, h2⟩ <;> rcases hbA with ⟨h3, h4⟩ | ⟨j, h3, h4⟩ <;> rw [h2, h4]
      · simp [hne]
      · simp
      · simp
      · intro hb; exact hne (h.inj ha hc (by rw [h1, h3, hb]))
    have hoC : ∀ {y D}, s y = some D → y ≠ a → y ≠ c → D.base ≠ (C.reloc a).base := by
      intro y D hy h5 h6 hb
      rcases hbC with ⟨h1, h2⟩ | ⟨k, h1, h2⟩ <;> rw [h2] at hb
      · exact h5 (hsy hy hb).symm
      · exact h6 (h.inj hy hc (by rw [h1, hb]))
    have hoA : ∀ {y D}, s y = some D → y ≠ a → y ≠ c → D.base ≠ (A.reloc c).base := by
      intro y D hy h5 h6 hb
      rcases hbA with ⟨h1, h2⟩ | ⟨k, h1, h2⟩ <;> rw [h2] at hb
      · exact h6 (hsy hy hb).symm
      · exact h5 (h.inj hy ha (by rw [h1, hb]))
    intro y y' D D' hy hy' hb
    rcases hget hy with ⟨e1, e2⟩ | ⟨e1, e2⟩ | ⟨h1, h2, hy⟩ <;>
    rcases hget hy' with ⟨e1', e2'⟩ | ⟨e1', e2'⟩ | ⟨h1', h2', hy'⟩
    · rw [e1, e1']
    · rw [e2, e2'] at hb; exact absurd hb hac
    · rw [e2] at hb; exact absurd hb.symm (hoC hy' h1' h2')
    · rw [e2, e2'] at hb; exact absurd hb.symm hac
    · rw [e1, e1']
    · rw [e2] at hb; exact absurd hb.symm (hoA hy' h1' h2')
    · rw [e2'] at hb; exact absurd hb (hoC hy h1 h2)
    · rw [e2'] at hb; exact absurd hb (hoA hy h1 h2)
    · exact h.inj hy hy' hb
  · intro y D hy
    rw [hdig]
    rcases hget hy with ⟨e1, e2⟩ | ⟨e1, e2⟩ | ⟨h1, h2, hy⟩
    · rw [e1, if_pos rfl]; exact h.sng hc
    · rw [e1, if_neg (by simp [Ne.symm hne]), if_pos rfl]; exact h.sng ha
    · rw [if_neg (by simp [h1]), if_neg (by simp [h2])]; exact h.sng hy
  · intro n
    rw [hint, hdig]
    constructor
    · split
      · exact ⟨_, rfl⟩
      · split
        · exact ⟨_, rfl⟩
        · exact (h.decl n).1
    · split
      · exact h.sng hc
      · split
        · exact h.sng ha
        · exact (h.decl n).2
  · intro k l hl
    rw [hdig, if_neg (by simp), if_neg (by simp)] at hl
    obtain ⟨y, D, hy, hb⟩ := h.owned hl
    by_cases hya : y = a
    · subst hya
      rw [ha] at hy; cases hy
      refine ⟨c, _, upd_self _ _ _, ?_⟩
      simp [Cell.reloc, hb, Base.isHeap]
    · by_cases hyc : y = c
      · subst hyc
        rw [hc] at hy; cases hy
        refine ⟨a, C.reloc a, by rw [upd_ne _ _ hne, upd_self], ?_⟩
        simp [Cell.reloc, hb, Base.isHeap]
      · exact ⟨y, D, by rw [upd_ne _ _ hyc, upd_ne _ _ hya]; exact hy, hb⟩
  · intro k hk
    rw [hdig, if_neg (by simp), if_neg (by simp)]
    exact h.freshH k (by omega)
  · intro k hk
    have h1 := h.freshI k (by omega)
    have g1 := ne_of_none h1.1 ha
    have g2 := ne_of_none h1.1 hc
    have g3 := ne_of_none h1.2 ha
    have g4 := ne_of_none h1.2 hc
    rw [upd_ne _ _ g2, upd_ne _ _ g1, upd_ne _ _ g4, upd_ne _ _ g3]
    exact h1
  · intro k hk
    rw [hdig, if_neg (by simp), if_neg (by simp)]
    exact h.freshS k (by omega)
  · intro y D hy
    rcases hget hy with ⟨e1, e2⟩ | ⟨e1, e2⟩ | ⟨h1, h2, hy⟩
    · rw [e2, Cell.reloc_buf]; exact h.okd hc
    · rw [e2, Cell.reloc_buf]; exact h.okd ha
    · exact h.okd hy
  · intro y D hy
    rcases hget hy with ⟨e1, e2⟩ | ⟨e1, e2⟩ | ⟨h1, h2, hy⟩
    · rw [e2, Cell.reloc_buf]; exact h.okl hc
    · rw [e2, Cell.reloc_buf]; exact h.okl ha
    · exact h.okl hy

theorem mp_int_swap_rep {Q : Unit → Mem → Prop} (hr : Rep m s) (hA : s a = some A) (hC : s c = some C)
    (oa : a.own = true) (oc : c.own = true) (hne : a ≠ c)
    (hQ : ∀ m', Rep m' (upd (upd s a (some (C.reloc a))) c (some (A.reloc c))) → Q () m') :
    wp env E (mp_int_swap a c) Q m := by
  unfold mp_int_swap
  refine wp_if_pos hne ?_
  obtain ⟨da, hda⟩ := hr.sng hA
  obtain ⟨dc, hdc⟩ := hr.sng hC
  have iA := hr.int hA
  have iC := hr.int hC
  refine wp_bind (wp_getI iA ?_)
  refine wp_bind (wp_rd (x := da) (by simp [Mem.get, singlePtr, hda]) ?_)
  refine wp_bind (wp_getI iC ?_)
  refine wp_bind (wp_rd (x := dc) (by simp [Mem.get, singlePtr, hdc]) ?_)
  refine wp_bind (wp_setI iA ?_)
  refine wp_bind (wp_wr (y := da) (by simp [Mem.get, singlePtr, Mem.setInt, hda]) ?_)
  refine wp_bind (wp_setI (Z := C.mpz) (by simp [Mem.setInt, Mem.splice, Ne.symm hne, iC]) ?_)
  refine wp_bind (wp_wr (y := dc) (by simp [Mem.get, singlePtr, Mem.setInt, Mem.splice, Ne.symm hne, hdc]) ?_)
  refine wp_bind (wp_getI (Z := C.mpz) (by simp [Mem.setInt, Mem.splice, hne]) ?_)
  have fin : ∀ m', (∀ y, m'.int y = if y = a then some (C.reloc a).mpz else
      if y = c then some (A.reloc c).mpz else m.int y) →
      (∀ b, m'.dig b = if b = .single a then m.dig (.single c) else
      if b = .single c then m.dig (.single a) else m.dig b) → m'.next = m.next → m'.defPrec = m.defPrec →
      m'.mulThr = m.mulThr → Q () m' := by
    intro m' h1 h2 h3 h4 h5
    exact hQ m' (hr.swap hA hC hne oa oc h1 h2 h3 h4 h5)
  have hsa : (A.base = .single a ∧ A.base.isHeap = false) ∨ (A.base ≠ .single a ∧ A.base.isHeap = true) := by
    rcases okBase_own oa (hr.kind hA) with hb | ⟨k, hb⟩ <;> rw [hb] <;> simp [Base.isHeap]
  have hsc : (C.base = .single c ∧ C.base.isHeap = false) ∨ (C.base ≠ .single c ∧ C.base.isHeap = true) := by
    rcases okBase_own oc (hr.kind hC) with hb | ⟨k, hb⟩ <;> rw [hb] <;> simp [Base.isHeap]
  have step2 : ∀ m1, (∀ y, m1.int y = if y = a then some (C.reloc a).mpz else
      if y = c then some A.mpz else m.int y) →
      (∀ b, m1.dig b = if b = .single a then m.dig (.single c) else
      if b = .single c then m.dig (.single a) else m.dig b) → m1.next = m.next → m1.defPrec = m.defPrec →
      m1.mulThr = m.mulThr → wp env E (do
        cwhen ((← getI c).digits = some (singlePtr a)) (setDigits c (some (singlePtr c)))) Q m1 := by
    intro m1 h1 h2 h3 h4 h5
    have i1 : m1.int c = some A.mpz := by rw [h1, if_neg (Ne.symm hne), if_pos rfl]
    refine wp_bind (wp_getI i1 ?_)
    refine wp_cwhen (fun hh => ?_) (fun hh => ?_)
    · have hb : A.base = .single a := by simpa [Cell.mpz, singlePtr] using hh
      refine wp_setDigits i1 (fin _ ?_ h2 h3 h4 h5)
      intro y
      by_cases hy : y = c
      · subst hy
        rw [setInt_int_self, if_neg (Ne.symm hne), if_pos rfl]
        simp [Cell.reloc, hb, Base.isHeap, Cell.mpz, singlePtr]
      · rw [show (m1.setInt c _).int y = m1.int y from if_neg hy, h1, if_neg hy, if_neg hy]
    · have hb : A.base ≠ .single a := by simpa [Cell.mpz, singlePtr] using hh
      refine fin _ ?_ h2 h3 h4 h5
      have : A.reloc c = A := by
        rcases hsa with hs | hs
        · exact absurd hs.1 hb
        · simp [Cell.reloc, hs.2]
      intro y; rw [h1, this]
  refine wp_bind (wp_cwhen (fun hh => ?_) (fun hh => ?_))
  · have hb : C.base = .single c := by simpa [Cell.mpz, singlePtr] using hh
    refine wp_setDigits (Z := C.mpz) (by simp [Mem.setInt, Mem.splice, hne]) (step2 _ ?_ ?_ rfl rfl rfl)
    · intro y
      simp only [Mem.setInt, Mem.splice]
      by_cases hy : y = a
      · simp [hy, Cell.reloc, hb, Base.isHeap, Cell.mpz, singlePtr]
      · simp [hy]
    · intro b
      by_cases h1 : b = .single a
      · simp [h1, Mem.setInt, Mem.splice, singlePtr, hne, hda, hdc, spliceL]
      · by_cases h2 : b = .single c
        · simp [h2, Mem.setInt, Mem.splice, singlePtr, Ne.symm hne, hda, hdc, spliceL]
        · simp [h1, h2, Mem.setInt, Mem.splice, singlePtr]
  · have hb : C.base ≠ .single c := by simpa [Cell.mpz, singlePtr] using hh
    have : C.reloc a = C := by
      rcases hsc with hs | hs
      · exact absurd hs.1 hb
      · simp [Cell.reloc, hs.2]
    refine step2 _ ?_ ?_ rfl rfl rfl
    · intro y
      simp only [Mem.setInt, Mem.splice, this]
      by_cases hy : y = a
      · simp [hy, hne]
      · simp [hy]
    · intro b
      by_cases h1 : b = .single a
      · simp [h1, Mem.setInt, Mem.splice, singlePtr, hne, hda, hdc, spliceL]
      · by_cases h2 : b = .single c
        · simp [h2, Mem.setInt, Mem.splice, singlePtr, Ne.symm hne, hda, hdc, spliceL]
        · simp [h1, h2, Mem.setInt, Mem.splice, singlePtr]

theorem mp_int_swap_spec {Q : Unit → Mem → Prop} (h : R2 m σ) (ha : σ a = some x) (hc : σ c = some y)
    (oa : a.own = true) (oc : c.own = true)
    (hQ : ∀ m', R2 m' (upd (upd σ a (some y)) c (some x)) → Q () m') :
    wp env E (mp_int_swap a c) Q m := by
  by_cases heq : a = c
  · subst heq
    rw [ha] at hc; cases hc
    unfold mp_int_swap
    refine wp_if_neg (by simp) (wp_pure (hQ m ?_))
    rw [upd_upd, upd_same _ ha]; exact h
  · obtain ⟨s, hr, hg⟩ := h
    obtain ⟨A, hA, gA⟩ := hg.get ha
    obtain ⟨C, hC, gC⟩ := hg.get hc
    exact mp_int_swap_rep hr hA hC oa oc heq fun m' h' => hQ m' ⟨_, h', (hg.upd (gC.reloc a)).upd (gA.reloc c)⟩

end Imath
