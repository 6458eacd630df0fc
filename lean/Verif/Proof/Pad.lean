import Verif.Proof.Rep
import Verif.Model.Int

/-! # Level 1: resizing, clamping, comparing, temporaries -/

namespace Imath

variable {env : Env} {E : Fault → Prop} {m : Mem} {s : Id → Option Cell} {z : Id} {C : Cell}

/-- `C'` is `C` with a possibly larger buffer. -/
structure Grow (C C' : Cell) : Prop where
  used : C'.used = C.used
  neg : C'.neg = C.neg
  pre : C.buf <+: C'.buf

theorem Grow.refl (C : Cell) : Grow C C := ⟨rfl, rfl, List.prefix_refl _⟩

theorem Grow.trans {A B C : Cell} (h1 : Grow A B) (h2 : Grow B C) : Grow A C :=
  ⟨h2.used.trans h1.used, h2.neg.trans h1.neg, h1.pre.trans h2.pre⟩

theorem Grow.len {A B : Cell} (h : Grow A B) : A.buf.length ≤ B.buf.length := h.pre.length_le

theorem Grow.take {A B : Cell} (h : Grow A B) {n : Nat} (hn : n ≤ A.buf.length) :
    B.buf.take n = A.buf.take n := by
  obtain ⟨t, ht⟩ := h.pre
  rw [← ht, List.take_append_of_le_length hn]

theorem Grow.get {A B : Cell} (h : Grow A B) {i : Nat} (hi : i < A.buf.length) :
    B.buf[i]? = A.buf[i]? := by
  obtain ⟨t, ht⟩ := h.pre
  rw [← ht, List.getElem?_append_left hi]

/-- Looking up an object after another one was changed. -/
theorem upd_get {α : Type} {s : Id → Option α} {c a : Id} {C A : α} (hc : s c = some C)
    (ha : s a = some A) (C' : α) :
    ∃ A', upd s c (some C') a = some A' ∧ (a = c → A' = C' ∧ A = C) ∧ (a ≠ c → A' = A) := by
  by_cases h : a = c
  · subst h
    rw [hc] at ha; cases ha
    exact ⟨C', upd_self _ _ _, fun _ => ⟨rfl, rfl⟩, fun h => absurd rfl h⟩
  · exact ⟨A, by rw [upd_ne _ _ h, ha], fun h' => absurd h' h, fun _ => rfl⟩

theorem Grow.get' {s : Id → Option Cell} {c a : Id} {C C' A : Cell} (hg : Grow C C')
    (hc : s c = some C) (ha : s a = some A) :
    ∃ A', upd s c (some C') a = some A' ∧ Grow A A' := by
  obtain ⟨A', h1, h2, h3⟩ := upd_get hc ha C'
  refine ⟨A', h1, ?_⟩
  by_cases h : a = c
  · rw [(h2 h).1, (h2 h).2]; exact hg
  · rw [h3 h]; exact Grow.refl _

theorem s_round_prec_eq {n : Nat} (h : n < 4294967295) :
    s_round_prec n = 2 * ((n + 1) / 2) := by
  unfold s_round_prec u32; omega

theorem wp_setDigits {Q : Unit → Mem → Prop} {Z : Mpz} {p : Option Ptr} (hz : m.int z = some Z)
    (h : Q () (m.setInt z (some { Z with digits := p }))) : wp env E (setDigits z p) Q m :=
  wp_setI hz h

theorem wp_setAlloc {Q : Unit → Mem → Prop} {Z : Mpz} {n : Nat} (hz : m.int z = some Z)
    (h : Q () (m.setInt z (some { Z with alloc := n }))) : wp env E (setAlloc z n) Q m :=
  wp_setI hz h

@[simp] theorem setInt_setInt (m : Mem) (z : Id) (v w : Option Mpz) :
    (m.setInt z v).setInt z w = m.setInt z w := by
  apply Mem.ext' <;> try (intros; rfl)
  intro y; simp only [Mem.setInt]; split <;> rfl

@[simp] theorem setInt_int_self (m : Mem) (z : Id) (v : Option Mpz) : (m.setInt z v).int z = v := by
  simp [Mem.setInt]

theorem wp_reallocD {k n : Nat} {l : List Nat} {Q : Ptr → Mem → Prop}
    (hE : Ref env E) (hl : m.dig (.heap k) = some l) (hln : l.length ≤ n)
    (h : ∀ l', l'.length = n - l.length → Dig l' → n ≤ MAXD →
      Q ⟨.heap m.next, 0⟩
        (((m.setDig (.heap k) none).setDig (.heap m.next) (some (l ++ l'))).bump (m.next + 1))) :
    wp env E (reallocD ⟨.heap k, 0⟩ n) Q m := by
  unfold wp reallocD
  simp only [hl]
  by_cases hg : env.grant m.next n = true
  · simp only [hg, if_true]
    rw [List.take_of_length_le hln]
    refine h _ (by simp [junkBlock]) ?_ (env.grant_le _ _ hg)
    intro x hx
    have hx := List.mem_of_mem_drop hx
    simp only [junkBlock, List.mem_map] at hx
    obtain ⟨i, _, rfl⟩ := hx
    exact Nat.mod_lt _ (by decide)
  · simp only [hg]
    exact hE m.next n (by simpa using hg)

theorem s_pad_spec' {min : Nat} {Q : Bool → Mem → Prop} (hE : Ref env E) (h : Rep m s)
    (hz : s z = some C) (hown : z.own = true) (hmin : min < 4294967295)
    (hQ : ∀ m' C', Rep m' (upd s z (some C')) → Grow C C' → min ≤ C'.buf.length →
      (min ≤ C.buf.length → C' = C) → Q true m') :
    wp env E (s_pad z min) Q m := by
  unfold s_pad
  refine wp_bind (wp_ALLOC h hz ?_)
  refine wp_ite (fun hlt => ?_) (fun hge => ?_)
  · rw [s_round_prec_eq hmin]
    refine wp_bind (wp_DIGITS h hz ?_)
    rcases okBase_own hown (h.kind hz) with hb | ⟨k, hb⟩
    · have hlen := h.single_len hz hb
      refine wp_if_pos (by simp [Cell.ptr, singlePtr, hb]) ?_
      refine wp_bind (wp_mallocD hE fun l hll hdl hn => ?_)
      have hfresh := h.freshH m.next (Nat.le_refl _)
      obtain ⟨x, hx⟩ := List.length_eq_one_iff.1 hlen
      have hsd : m.dig (.single z) = some [x] := by rw [← hb, h.dig hz, hx]
      refine wp_bind (wp_rd (x := x) ?_ ?_)
      · simp [Mem.get, Mem.setDig, Mem.bump, singlePtr, hsd]
      obtain ⟨l0, ls, hls⟩ : ∃ l0 ls, l = l0 :: ls := by
        match l, hll with
        | [], hll => simp at hll; omega
        | l0 :: ls, _ => exact ⟨l0, ls, rfl⟩
      subst hls
      refine wp_bind (wp_wr (y := l0) ?_ ?_)
      · simp [Mem.get, Mem.setDig, Mem.bump]
      refine wp_bind (wp_setDigits (Z := C.mpz) ?_ ?_)
      · exact h.int hz
      refine wp_bind (wp_setAlloc (setInt_int_self _ _ _) ?_)
      refine wp_pure ?_
      have hxd : x < 𝔹 := h.okd hz x (by simp [hx])
      have hdls : Dig ls := by simp only [Dig_cons] at hdl; exact hdl.2
      have hlls : (x :: ls).length = 2 * ((min + 1) / 2) := by simpa using hll
      refine hQ _ ⟨.heap m.next, x :: ls, C.used, C.neg⟩ (h.newBlock hz hown (k := m.next) ?_ ?_ ?_ ?_ hfresh ?_ ?_ rfl rfl) ?_ ?_
        (fun hle => absurd hlt (by simpa using hle))
      · simp [hxd, hdls]
      · omega
      · intro y
        simp only [setInt_setInt]
        simp [Mem.setInt, Mem.splice, Mem.bump, Mem.setDig, Cell.mpz, ← hlls]
      · intro b
        simp only [Mem.setInt, Mem.splice, Mem.bump, Mem.setDig]
        by_cases hbb : b = .heap m.next
        · subst hbb
          simp [spliceL_zero_append]
        · simp only [if_neg hbb]
          rw [if_neg]
          rintro ⟨h1, h2⟩
          rw [h2, hb] at h1
          simp [Base.isHeap] at h1
      · simp [Mem.setInt, Mem.splice, Mem.bump]
      · simp [Mem.setInt, Mem.splice, Mem.bump]
      · exact ⟨rfl, rfl, by rw [hx]; exact ⟨ls, rfl⟩⟩
      · show min ≤ (x :: ls).length
        omega
    · refine wp_if_neg (by simp [Cell.ptr, singlePtr, hb]) ?_
      have hptr : C.ptr = ⟨.heap k, 0⟩ := by rw [Cell.ptr, hb]
      rw [hptr]
      have hdk : m.dig (.heap k) = some C.buf := by rw [← hb]; exact h.dig hz
      refine wp_bind (wp_reallocD hE hdk (by omega) fun l' hl' hdl' hn => ?_)
      have hfresh := h.freshH m.next (Nat.le_refl _)
      refine wp_bind (wp_setDigits (Z := C.mpz) ?_ ?_)
      · exact h.int hz
      refine wp_bind (wp_setAlloc (setInt_int_self _ _ _) ?_)
      refine wp_pure ?_
      have hll : (C.buf ++ l').length = 2 * ((min + 1) / 2) := by simp [hl']; omega
      refine hQ _ ⟨.heap m.next, C.buf ++ l', C.used, C.neg⟩ (h.newBlock hz hown (k := m.next) ?_ ?_ ?_ ?_ hfresh ?_ ?_ rfl rfl) ?_ ?_
        (fun hle => absurd hlt (by simpa using hle))
      · simp [h.okd hz, hdl']
      · omega
      · intro y
        simp only [setInt_setInt, hll]
        simp [Mem.setInt, Mem.bump, Mem.setDig, Cell.mpz]
      · intro b
        simp only [Mem.setInt, Mem.bump, Mem.setDig]
        by_cases hbb : b = .heap m.next
        · simp [hbb]
        · simp only [if_neg hbb]
          by_cases hbk : b = .heap k
          · rw [if_pos hbk, if_pos ⟨by rw [hbk]; rfl, by rw [hbk, hb]⟩]
          · rw [if_neg hbk, if_neg]
            rintro ⟨_, h2⟩; exact hbk (h2.trans hb)
      · simp [Mem.setInt, Mem.bump]
      · simp [Mem.setInt, Mem.bump]
      · exact ⟨rfl, rfl, ⟨l', rfl⟩⟩
      · show min ≤ (C.buf ++ l').length
        omega
  · refine wp_pure (hQ m C ?_ (Grow.refl _) (by omega) fun _ => rfl)
    rw [upd_same _ hz]; exact h

theorem s_pad_spec {min : Nat} {Q : Bool → Mem → Prop} (hE : Ref env E) (h : Rep m s)
    (hz : s z = some C) (hown : z.own = true) (hmin : min < 4294967295)
    (hQ : ∀ m' C', Rep m' (upd s z (some C')) → Grow C C' → min ≤ C'.buf.length → Q true m') :
    wp env E (s_pad z min) Q m :=
  s_pad_spec' hE h hz hown hmin fun m' C' h1 h2 h3 _ => hQ m' C' h1 h2 h3

theorem GROW_spec {min : Nat} {Q : Int → Mem → Prop} (hE : Ref env E) (h : Rep m s)
    (hz : s z = some C) (hown : z.own = true) (hmin : min < 4294967295)
    (hQ : ∀ m' C', Rep m' (upd s z (some C')) → Grow C C' → min ≤ C'.buf.length → Q MP_OK m') :
    wp env E (GROW z min) Q m := by
  unfold GROW
  refine wp_bind (s_pad_spec hE h hz hown hmin fun m' C' h1 h2 h3 => ?_)
  exact wp_pure (hQ m' C' h1 h2 h3)

theorem CLAMP_spec {Q : Unit → Mem → Prop} (h : Rep m s) (hz : s z = some C)
    (hu : C.used ≤ C.buf.length)
    (hQ : ∀ m', Rep m' (upd s z (some { C with used := clampLen C.buf C.used })) → Q () m') :
    wp env E (CLAMP z) Q m := by
  unfold CLAMP
  refine wp_bind (wp_USED h hz ?_)
  refine wp_bind (wp_DIGITS h hz ?_)
  refine wp_bind (clampLoop_spec (h.at hz) hu ?_)
  exact wp_setUsed h hz hQ

/-! ### Normalised cells -/

/-- The magnitude of a cell. -/
def Cell.mag (C : Cell) : Nat := val (C.buf.take C.used)

/-- At least one digit is used, and there are no leading zero digits. -/
structure Norm (C : Cell) : Prop where
  pos : 1 ≤ C.used
  le : C.used ≤ C.buf.length
  top : 1 < C.used → C.buf[C.used - 1]? ≠ some 0

/-- A natural number with a sign. -/
def sval (neg : Bool) (n : Nat) : Int := if neg then -(n : Int) else n

/-- A normalised cell of value `v`; zero is not negative. -/
structure Good (C : Cell) (v : Int) : Prop where
  norm : Norm C
  sign : C.neg = true → C.mag ≠ 0
  val : v = sval C.neg C.mag

theorem Norm.grow {A B : Cell} (h : Norm A) (hg : Grow A B) : Norm B := by
  refine ⟨by rw [hg.used]; exact h.pos, by rw [hg.used]; exact Nat.le_trans h.le hg.len, ?_⟩
  rw [hg.used]; intro h1
  have h2 := h.le
  rw [hg.get (by omega)]; exact h.top h1

theorem Grow.mag {A B : Cell} (hg : Grow A B) (h : A.used ≤ A.buf.length) : B.mag = A.mag := by
  unfold Cell.mag; rw [hg.used, hg.take h]

theorem Good.grow {A B : Cell} {v : Int} (h : Good A v) (hg : Grow A B) : Good B v :=
  ⟨h.norm.grow hg, by rw [hg.neg, hg.mag h.norm.le]; exact h.sign,
    by rw [hg.neg, hg.mag h.norm.le]; exact h.val⟩

theorem Norm.clamp {C : Cell} {u : Nat} {n : Bool} (h1 : 1 ≤ u) (h2 : u ≤ C.buf.length) :
    Norm { C with used := clampLen C.buf u, neg := n } :=
  ⟨clampLen_pos _ _ h1, Nat.le_trans (clampLen_le _ _) h2, fun h => clampLen_top h⟩

theorem mag_lt {C : Cell} (hd : Dig C.buf) (hu : C.used ≤ C.buf.length) : C.mag < 𝔹 ^ C.used := by
  have := val_lt (hd.take C.used)
  rwa [List.length_take, Nat.min_eq_left hu] at this

theorem Norm.mag_ge {C : Cell} (h : Norm C) (h1 : 1 < C.used) : 𝔹 ^ (C.used - 1) ≤ C.mag := by
  have h2 := h.le
  have h3 := h.top h1
  have h4 := val_take_succ C.buf (C.used - 1) (by omega)
  rw [show C.used - 1 + 1 = C.used by omega] at h4
  unfold Cell.mag
  rw [h4]
  rw [List.getElem?_eq_getElem (by omega)] at h3
  have h5 : C.buf[C.used - 1] ≠ 0 := fun h => h3 (by rw [h])
  have h6 : 𝔹 ^ (C.used - 1) * 1 ≤ 𝔹 ^ (C.used - 1) * C.buf[C.used - 1] :=
    Nat.mul_le_mul_left _ (by omega)
  omega

theorem Norm.lt_of_used {A B : Cell} (hA : Norm A) (hB : Norm B) (hdA : Dig A.buf)
    (h : A.used < B.used) : A.mag < B.mag := by
  have h1 := mag_lt hdA hA.le
  have h2 := hB.mag_ge (by have := hA.pos; omega)
  have h3 : 𝔹 ^ A.used ≤ 𝔹 ^ (B.used - 1) := Nat.pow_le_pow_right (by decide) (by omega)
  omega

/-- A normalised cell is zero iff it has one digit that is zero. -/
theorem Norm.zero_iff {C : Cell} (h : Norm C) :
    C.mag = 0 ↔ C.used = 1 ∧ C.buf[0]? = some 0 := by
  have hle := h.le
  have hpos := h.pos
  constructor
  · intro h0
    have hu : C.used = 1 := by
      rcases Nat.lt_or_ge 1 C.used with h1 | h1
      · have h2 := h.mag_ge h1
        have h3 : 0 < 𝔹 ^ (C.used - 1) := Nat.pow_pos (by decide)
        omega
      · omega
    refine ⟨hu, ?_⟩
    unfold Cell.mag at h0
    match hb : C.buf with
    | [] => rw [hb] at hle; simp at hle; omega
    | x :: xs =>
      rw [hb, hu] at h0
      simp at h0
      simp [h0]
  · rintro ⟨h1, h2⟩
    unfold Cell.mag
    match hb : C.buf with
    | [] => rw [hb] at h2; simp at h2
    | x :: xs =>
      rw [hb] at h2
      simp at h2
      rw [h1, h2]; simp

theorem cmpN_eq (x y : Nat) : cmpN x y = (if x < y then -1 else if x = y then 0 else 1 : Int) := by
  unfold cmpN; split <;> split <;> (try split) <;> omega

theorem s_ucmp_norm {a b : Id} {A B : Cell} {Q : Int → Mem → Prop} (h : Rep m s)
    (ha : s a = some A) (hb : s b = some B) (nA : Norm A) (nB : Norm B)
    (hQ : Q (cmpN A.mag B.mag) m) : wp env E (s_ucmp a b) Q m := by
  unfold s_ucmp
  refine wp_bind (wp_USED h ha ?_)
  refine wp_bind (wp_USED h hb ?_)
  refine wp_ite (fun h1 => ?_) (fun h1 => wp_ite (fun h2 => ?_) (fun h2 => ?_))
  · have := nB.lt_of_used nA (h.okd hb) h1
    refine wp_pure ?_
    rwa [cmpN, if_pos this] at hQ
  · have := nA.lt_of_used nB (h.okd ha) h2
    refine wp_pure ?_
    rwa [cmpN, if_neg (by omega), if_pos this] at hQ
  · refine wp_bind (wp_DIGITS h ha ?_)
    refine wp_bind (wp_DIGITS h hb ?_)
    have he : A.used = B.used := by omega
    have h3 := nA.le
    have h4 := nB.le
    refine s_cdig_spec (h.at ha) (h.at hb) (by omega) (by omega) (h.okd ha) (h.okd hb) ?_
    unfold Cell.mag at hQ
    rwa [← he] at hQ

theorem CMPZ_norm {Q : Int → Mem → Prop} (h : Rep m s) (hz : s z = some C) (nC : Norm C)
    (hQ : Q (if C.mag = 0 then 0 else if C.neg then -1 else 1) m) : wp env E (CMPZ z) Q m := by
  unfold CMPZ
  have h1 := (h.okl hz).1
  refine wp_bind (wp_USED h hz ?_)
  refine wp_bind (wp_DIGITS h hz ?_)
  refine wp_bind (wp_rdz h hz (i := 0) (x := C.buf[0]) (by simp) ?_)
  have hiff := nC.zero_iff
  rw [List.getElem?_eq_getElem (by omega), Option.some.injEq] at hiff
  by_cases h0 : C.mag = 0
  · rw [if_pos h0] at hQ
    exact wp_if_pos (hiff.1 h0) (wp_pure hQ)
  · rw [if_neg h0] at hQ
    refine wp_if_neg (fun hc => h0 (hiff.2 hc)) ?_
    refine wp_bind (wp_SIGN h hz ?_)
    by_cases hn : C.neg = true
    · rw [if_pos hn] at hQ; exact wp_if_pos hn hQ
    · rw [if_neg hn] at hQ; exact wp_if_neg hn hQ

/-! ### Lifetimes -/

theorem wp_declInt {mk : Nat → Id} {Q : Id → Mem → Prop}
    (h : ∀ Z d, d < 𝔹 → Q (mk m.next)
      (((m.setInt (mk m.next) (some Z)).setDig (.single (mk m.next)) (some [d])).bump (m.next + 1))) :
    wp env E (declInt mk) Q m := by
  unfold wp declInt
  exact h _ _ (Nat.mod_lt _ (by decide))

/-- A zero in its own digit. -/
def zeroCell (z : Id) : Cell := ⟨.single z, [0], 1, false⟩

theorem zeroCell_good (z : Id) : Good (zeroCell z) 0 := by
  refine ⟨⟨Nat.le_refl _, Nat.le_refl _, ?_⟩, ?_, ?_⟩ <;> simp [zeroCell, Cell.mag, sval]

/-- `mp_int_init` of an object that is not in use. -/
theorem mp_int_init_raw {Q : Int → Mem → Prop} {Z : Mpz} {d : Nat} (hz : m.int z = some Z)
    (hd : m.dig (.single z) = some [d])
    (hQ : Q MP_OK ((m.setDig (.single z) (some [0])).setInt z (some (zeroCell z).mpz))) :
    wp env E (mp_int_init z) Q m := by
  unfold mp_int_init
  refine wp_bind (wp_wr (y := d) (by simp [Mem.get, singlePtr, hd]) ?_)
  refine wp_bind (wp_setI (Z := Z) hz ?_)
  refine wp_bind (wp_setI (setInt_int_self _ _ _) ?_)
  refine wp_bind (wp_setI (setInt_int_self _ _ _) ?_)
  refine wp_bind (wp_setI (setInt_int_self _ _ _) ?_)
  refine wp_pure ?_
  simp only [setInt_setInt]
  have : m.splice (singlePtr z) [0] = m.setDig (.single z) (some [0]) := by
    apply Mem.ext' <;> try (intros; rfl)
    intro b
    by_cases hb : b = .single z
    · subst hb
      simp [Mem.splice, Mem.setDig, singlePtr, hd, spliceL]
    · simp [Mem.splice, Mem.setDig, singlePtr, hb]
  rw [this]
  exact hQ

theorem declInt_tmp_spec {Q : Id → Mem → Prop} (h : Rep m s)
    (hQ : ∀ t m' Z d, s t = none → t.own = true → t = .tmp m.next → (∀ y, y ≠ t → m'.int y = m.int y) →
      m'.int t = some Z → m'.dig (.single t) = some [d] → (∀ b, b ≠ .single t → m'.dig b = m.dig b) →
      m'.next = m.next + 1 → m'.defPrec = m.defPrec → m'.mulThr = m.mulThr → Q t m') :
    wp env E (declInt .tmp) Q m := by
  refine wp_declInt fun Z d hd => ?_
  refine hQ _ _ Z d (h.freshI _ (Nat.le_refl _)).1 rfl rfl ?_ ?_ ?_ ?_ rfl rfl rfl
  · intro y hy; simp [Mem.setInt, Mem.setDig, Mem.bump, hy]
  · simp [Mem.setInt, Mem.setDig, Mem.bump]
  · simp [Mem.setInt, Mem.setDig, Mem.bump]
  · intro b hb; simp [Mem.setInt, Mem.setDig, Mem.bump, hb]

theorem wp_dropInt {Q : Unit → Mem → Prop} (h : Q () ((m.setInt z none).setDig (.single z) none)) :
    wp env E (dropInt z) Q m := h

/-- `mp_int_clear` of an initialised object. -/
theorem mp_int_clear_raw {Q : Unit → Mem → Prop} (h : Rep m s) (hz : s z = some C)
    (hown : z.own = true)
    (hQ : ∀ m', (∀ y, y ≠ z → m'.int y = m.int y) → m'.int z = some { C.mpz with digits := none } →
      (∀ b, m'.dig b = if b.isHeap = true ∧ b = C.base then none else m.dig b) →
      m'.next = m.next → m'.defPrec = m.defPrec → m'.mulThr = m.mulThr → Q () m') :
    wp env E (mp_int_clear z) Q m := by
  unfold mp_int_clear
  refine wp_bind (wp_getI (h.int hz) ?_)
  show wp env E (do
    cwhen ((⟨C.base, 0⟩ : Ptr) ≠ singlePtr z) (s_free ⟨C.base, 0⟩)
    setDigits z none) Q m
  rcases okBase_own hown (h.kind hz) with hb | ⟨k, hb⟩
  · refine wp_bind (wp_cwhen (fun hc => absurd (by simp [hb, singlePtr]) hc) (fun _ => ?_))
    refine wp_setDigits (h.int hz) ?_
    refine hQ _ ?_ ?_ ?_ rfl rfl rfl
    · intro y hy; exact if_neg hy
    · exact setInt_int_self _ _ _
    · intro b
      rw [if_neg]; · rfl
      rintro ⟨h1, h2⟩; rw [h2, hb] at h1; simp [Base.isHeap] at h1
  · rw [hb]
    refine wp_bind (wp_cwhen (fun _ => ?_) (fun hc => absurd (by simp [singlePtr]) hc))
    refine wp_freeD (l := C.buf) (by rw [← hb]; exact h.dig hz) ?_
    refine wp_setDigits (Z := C.mpz) (h.int hz) ?_
    refine hQ _ ?_ ?_ ?_ rfl rfl rfl
    · intro y hy; exact if_neg hy
    · exact setInt_int_self _ _ _
    · intro b
      simp only [Mem.setInt, Mem.setDig]
      by_cases hbk : b = .heap k
      · rw [if_pos hbk, if_pos ⟨by rw [hbk]; rfl, hbk.trans hb.symm⟩]
      · rw [if_neg hbk, if_neg]
        rintro ⟨_, h2⟩; exact hbk (h2.trans hb)

/-- A temporary, at level 1. -/
theorem withTemp_rep {α : Type} {k : Id → M α} {Q : α → Mem → Prop} (h : Rep m s)
    (hk : ∀ t m', s t = none → t.own = true → Rep m' (upd s t (some (zeroCell t))) →
      wp env E (k t) (fun r m'' => ∃ s'' D, Rep m'' s'' ∧ s'' t = some D ∧
        (∀ m3, Rep m3 (upd s'' t none) → Q r m3)) m') :
    wp env E (withTemp k) Q m := by
  unfold withTemp
  refine wp_bind (declInt_tmp_spec h ?_)
  intro t m1 Z d hst hown htn hi1 hi2 hd1 hd2 hn hp ht
  refine wp_bind (mp_int_init_raw hi2 hd1 ?_)
  refine wp_bind (wp_mono (hk t _ hst hown ?_) ?_)
  · refine h.insert (C := zeroCell t) hst ?_ ?_ ?_ ?_ ?_ (.inl rfl) ?_ ?_ ?_ ?_ hp ht
    · intro y
      by_cases hy : y = t
      · simp [Mem.setInt, hy]
      · simp [Mem.setInt, Mem.setDig, hy, hi1 y hy]
    · simp [Mem.setInt, Mem.setDig, zeroCell]
    · exact ⟨0, by simp [Mem.setInt, Mem.setDig]⟩
    · rw [htn]; simp [okBase, zeroCell]
    · intro b _ hb; simp [Mem.setInt, Mem.setDig, hb, hd2 b hb]
    · show m.next ≤ m1.next
      omega
    · intro n hn'
      have : m1.next ≤ n := hn'
      rw [htn]
      refine ⟨?_, ?_, ?_, ?_⟩ <;> simp [zeroCell]
      omega
    · simp [zeroCell]
    · simp [zeroCell]
  · rintro r m'' ⟨s'', D, h1, h2, h3⟩
    refine wp_bind (mp_int_clear_raw h1 h2 hown ?_)
    intro m3 g1 g2 g3 g4 g5 g6
    refine wp_bind (wp_dropInt ?_)
    refine wp_pure (h3 _ ?_)
    refine h1.remove h2 ?_ ?_ ?_ ?_ ?_ ?_ g5 g6
    · intro y hy; simp [Mem.setInt, Mem.setDig, hy, g1 y hy]
    · intro b hb1 hb2; simp [Mem.setInt, Mem.setDig, hb2, g3 b, hb1]
    · intro k' hb; simp [Mem.setInt, Mem.setDig, g3, hb, Base.isHeap]
    · intro k' hb
      rcases okBase_own hown (h1.kind h2) with h5 | ⟨j, h5⟩ <;> rw [h5] at hb <;> simp at hb
    · intro n hn'; rw [htn] at hn'; simp at hn'
    · show m''.next ≤ m3.next
      omega

end Imath
