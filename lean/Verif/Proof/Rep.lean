import Verif.Proof.Usqr

/-! # Level 1: memory as a map from objects to cells -/

namespace Imath

variable {env : Env} {E : Fault → Prop}

/-- Update of a map. -/
def upd {α : Type} (s : Id → Option α) (z : Id) (v : Option α) : Id → Option α :=
  fun z' => if z' = z then v else s z'

@[simp] theorem upd_self {α : Type} (s : Id → Option α) (z : Id) (v : Option α) : upd s z v z = v := by
  simp [upd]
theorem upd_ne {α : Type} (s : Id → Option α) {z z' : Id} (v : Option α) (h : z' ≠ z) :
    upd s z v z' = s z' := by
  simp [upd, h]
@[simp] theorem upd_upd {α : Type} (s : Id → Option α) (z : Id) (v w : Option α) :
    upd (upd s z v) z w = upd s z w := by
  funext z'; simp only [upd]; split <;> rfl
theorem upd_same {α : Type} (s : Id → Option α) {z : Id} {v : Option α} (h : s z = v) :
    upd s z v = s := by
  funext z'; simp only [upd]; split
  · subst_vars; rfl
  · rfl
theorem upd_comm {α : Type} (s : Id → Option α) {z z' : Id} (v w : Option α) (h : z ≠ z') :
    upd (upd s z v) z' w = upd (upd s z' w) z v := by
  funext y; simp only [upd]
  by_cases h1 : y = z
  · by_cases h2 : y = z'
    · exact absurd (h1.symm.trans h2) h
    · simp [h1, h]
  · simp [h1]

/-- An initialised `mpz_t` together with its digit buffer. -/
structure Cell where
  base : Base
  buf : List Nat
  used : Nat
  neg : Bool

/-- The struct that represents a cell. -/
def Cell.mpz (C : Cell) : Mpz := ⟨some ⟨C.base, 0⟩, C.buf.length, C.used, C.neg⟩

def Cell.ptr (C : Cell) : Ptr := ⟨C.base, 0⟩

@[simp] theorem Cell.ptr_base (C : Cell) : C.ptr.base = C.base := rfl
@[simp] theorem Cell.ptr_off (C : Cell) : C.ptr.off = 0 := rfl

def Base.isHeap : Base → Bool
  | .heap _ => true
  | _ => false

/-- Where the digits of `z` may live.  (`withFake` draws the identities of the struct and of its
array one after the other.) -/
def okBase : Id → Base → Prop
  | .fake n, b => b = .stack (n + 1)
  | z, .single z' => z' = z
  | _, .heap _ => True
  | _, .stack _ => False

theorem okBase_single {z y : Id} (h : okBase z (.single y)) : y = z := by
  cases z <;> simp_all [okBase]

theorem okBase_heap {z : Id} {k : Nat} (h : z.own = true) : okBase z (.heap k) := by
  cases z <;> simp_all [okBase, Id.own]

theorem okBase_own {z : Id} {b : Base} (hz : z.own = true) (h : okBase z b) :
    b = .single z ∨ ∃ k, b = .heap k := by
  cases z <;> cases b <;> simp_all [okBase, Id.own]

/-- `m` contains exactly the initialised integers `s`. -/
structure Rep (m : Mem) (s : Id → Option Cell) : Prop where
  int : ∀ {z C}, s z = some C → m.int z = some C.mpz
  dig : ∀ {z C}, s z = some C → m.dig C.base = some C.buf
  kind : ∀ {z C}, s z = some C → okBase z C.base
  inj : ∀ {z z' C C'}, s z = some C → s z' = some C' → C.base = C'.base → z = z'
  sng : ∀ {z C}, s z = some C → ∃ d, m.dig (.single z) = some [d]
  decl : ∀ n, (∃ Z, m.int (.var n) = some Z) ∧ ∃ d, m.dig (.single (.var n)) = some [d]
  owned : ∀ {k l}, m.dig (.heap k) = some l → ∃ z C, s z = some C ∧ C.base = .heap k
  freshH : Fresh m
  freshI : ∀ n, m.next ≤ n → s (.tmp n) = none ∧ s (.fake n) = none
  freshS : ∀ n, m.next ≤ n → m.dig (.stack n) = none
  okd : ∀ {z C}, s z = some C → Dig C.buf
  okl : ∀ {z C}, s z = some C → 1 ≤ C.buf.length ∧ C.buf.length ≤ MAXD
  prec : 1 ≤ m.defPrec ∧ m.defPrec < 4294967295
  thr : 8 ≤ m.mulThr

variable {m : Mem} {s : Id → Option Cell} {z : Id} {C : Cell}

theorem Rep.at (h : Rep m s) (hz : s z = some C) : At m C.ptr C.buf := by
  intro i x hi
  simp [Mem.get, Cell.ptr, h.dig hz, hi]

theorem Rep.single_len (h : Rep m s) (hz : s z = some C) {y : Id} (hb : C.base = .single y) :
    C.buf.length = 1 := by
  have h1 := h.kind hz
  rw [hb] at h1
  have h2 : y = z := okBase_single h1
  subst h2
  obtain ⟨d, hd⟩ := h.sng hz
  have h3 := h.dig hz
  rw [hb, hd] at h3
  simp only [Option.some.injEq] at h3
  rw [← h3]; rfl

theorem Rep.next_le (h : Rep m s) (hz : s z = some C) {k : Nat} (hb : C.base = .heap k) :
    k < m.next := by
  rcases Nat.lt_or_ge k m.next with h1 | h1
  · exact h1
  · have h2 := h.freshH k h1
    have h3 := h.dig hz
    rw [hb, h2] at h3
    simp at h3

/-! ### Updating a cell -/

/-- Overwrite part of the buffer of `z`. -/
theorem Rep.write (h : Rep m s) (hz : s z = some C) {k : Nat} {zs : List Nat} (hd : Dig zs) :
    Rep (m.splice (C.ptr.add k) zs) (upd s z (some { C with buf := spliceL C.buf k zs })) := by
  have hdig : ∀ b, (m.splice (C.ptr.add k) zs).dig b =
      if b = C.base then some (spliceL C.buf k zs) else m.dig b := by
    intro b
    simp only [Mem.splice, Ptr.add_base, Ptr.add_off, Cell.ptr, Nat.zero_add]
    split
    · rename_i hb; rw [hb, h.dig hz]; rfl
    · rfl
  have hget : ∀ {y D}, upd s z (some { C with buf := spliceL C.buf k zs }) y = some D →
      (y = z ∧ D = { C with buf := spliceL C.buf k zs }) ∨ (y ≠ z ∧ s y = some D) := by
    intro y D hy
    simp only [upd] at hy
    split at hy
    · exact .inl ⟨‹_›, (Option.some.inj hy).symm⟩
    · exact .inr ⟨‹_›, hy⟩
  have hbase : ∀ {y D}, upd s z (some { C with buf := spliceL C.buf k zs }) y = some D →
      ∃ D', s y = some D' ∧ D'.base = D.base := by
    intro y D hy
    rcases hget hy with ⟨rfl, rfl⟩ | ⟨_, hy⟩
    · exact ⟨C, hz, rfl⟩
    · exact ⟨D, hy, rfl⟩
  refine
    { int := ?_, dig := ?_, kind := ?_, inj := ?_, sng := ?_, decl := ?_, owned := ?_, freshH := h.freshH.splice _ _,
      freshI := ?_, freshS := ?_, okd := ?_, okl := ?_, prec := h.prec, thr := h.thr }
  · intro y D hy
    rcases hget hy with ⟨rfl, rfl⟩ | ⟨_, hy⟩
    · show m.int _ = _
      rw [h.int hz]; simp [Cell.mpz]
    · exact h.int hy
  · intro y D hy
    rw [hdig]
    rcases hget hy with ⟨rfl, rfl⟩ | ⟨hne, hy⟩
    · rw [if_pos rfl]
    · rw [if_neg, h.dig hy]
      intro hb; exact hne (h.inj hy hz hb)
  · intro y D hy
    obtain ⟨D', h1, h2⟩ := hbase hy
    rw [← h2]; exact h.kind h1
  · intro y y' D D' hy hy' hb
    obtain ⟨F, h1, h2⟩ := hbase hy
    obtain ⟨F', h1', h2'⟩ := hbase hy'
    exact h.inj h1 h1' (by rw [h2, h2', hb])
  · intro y D hy
    obtain ⟨D', h1, h2⟩ := hbase hy
    obtain ⟨d, hd'⟩ := h.sng h1
    rw [hdig]
    split
    · rename_i hb
      have h3 := h.single_len hz hb.symm
      have h4 : (spliceL C.buf k zs).length = 1 := by simp [h3]
      obtain ⟨e, he⟩ := List.length_eq_one_iff.1 h4
      exact ⟨e, by rw [he]⟩
    · exact ⟨d, hd'⟩
  · intro n
    refine ⟨(h.decl n).1, ?_⟩
    obtain ⟨d, hd'⟩ := (h.decl n).2
    rw [hdig]
    split
    · rename_i hb
      have h3 := h.single_len hz hb.symm
      have h4 : (spliceL C.buf k zs).length = 1 := by simp [h3]
      obtain ⟨e, he⟩ := List.length_eq_one_iff.1 h4
      exact ⟨e, by rw [he]⟩
    · exact ⟨d, hd'⟩
  · intro j l hl
    rw [hdig] at hl
    split at hl
    · rename_i hb
      exact ⟨z, _, upd_self _ _ _, hb.symm⟩
    · obtain ⟨y, D, hy, hb⟩ := h.owned hl
      by_cases hyz : y = z
      · subst hyz
        rw [hz] at hy
        cases hy
        exact ⟨y, _, upd_self _ _ _, hb⟩
      · exact ⟨y, D, by rw [upd_ne _ _ hyz]; exact hy, hb⟩
  · intro n hn
    have h1 := h.freshI n hn
    constructor
    · rw [upd_ne]
      · exact h1.1
      · intro he; rw [he, hz] at h1; simp at h1
    · rw [upd_ne]
      · exact h1.2
      · intro he; rw [he, hz] at h1; simp at h1
  · intro n hn
    have h1 := h.freshS n hn
    rw [hdig, if_neg, h1]
    intro hb
    have := h.dig hz
    rw [← hb, h1] at this
    simp at this
  · intro y D hy
    rcases hget hy with ⟨rfl, rfl⟩ | ⟨_, hy⟩
    · intro x hx
      obtain ⟨i, hi⟩ := List.mem_iff_getElem?.1 hx
      simp only [getElem?_spliceL] at hi
      cases hc : C.buf[i]? with
      | none => simp [hc] at hi
      | some c =>
        rw [hc] at hi
        simp only [Option.map_some, Option.some.injEq] at hi
        have hcd := h.okd hz c (List.mem_of_getElem? hc)
        split at hi
        · cases hzz : zs[i - k]? with
          | none => rw [hzz] at hi; simp at hi; omega
          | some y => rw [hzz] at hi; simp at hi; have := hd y (List.mem_of_getElem? hzz); omega
        · omega
    · exact h.okd hy
  · intro y D hy
    rcases hget hy with ⟨rfl, rfl⟩ | ⟨_, hy⟩
    · simpa using h.okl hz
    · exact h.okl hy

/-- Change the members `used` and `sign` of `z`. -/
theorem Rep.setI (h : Rep m s) (hz : s z = some C) {u : Nat} {n : Bool} :
    Rep (m.setInt z (some { C.mpz with used := u, neg := n }))
      (upd s z (some { C with used := u, neg := n })) := by
  have hget : ∀ {y D}, upd s z (some { C with used := u, neg := n }) y = some D →
      ∃ D', s y = some D' ∧ D'.base = D.base ∧ D'.buf = D.buf ∧ (y = z ∧ D = { C with used := u, neg := n } ∨ y ≠ z ∧ D = D') := by
    intro y D hy
    simp only [upd] at hy
    split at hy
    · rename_i hyz; subst hyz; cases hy; exact ⟨C, hz, rfl, rfl, .inl ⟨rfl, rfl⟩⟩
    · exact ⟨D, hy, rfl, rfl, .inr ⟨‹_›, rfl⟩⟩
  refine
    { int := ?_, dig := ?_, kind := ?_, inj := ?_, sng := ?_, decl := ?_, owned := ?_, freshH := h.freshH,
      freshI := ?_, freshS := h.freshS, okd := ?_, okl := ?_, prec := h.prec, thr := h.thr }
  · intro y D hy
    obtain ⟨D', h1, h2, h3, h4 | h4⟩ := hget hy
    · obtain ⟨rfl, rfl⟩ := h4
      simp [Mem.setInt, Cell.mpz]
    · simp only [Mem.setInt, if_neg h4.1]
      rw [h4.2]; exact h.int h1
  · intro y D hy
    obtain ⟨D', h1, h2, h3, h4⟩ := hget hy
    rw [← h2, ← h3]; exact h.dig h1
  · intro y D hy
    obtain ⟨D', h1, h2, h3, h4⟩ := hget hy
    rw [← h2]; exact h.kind h1
  · intro y y' D D' hy hy' hb
    obtain ⟨F, h1, h2, _⟩ := hget hy
    obtain ⟨F', h1', h2', _⟩ := hget hy'
    exact h.inj h1 h1' (by rw [h2, h2', hb])
  · intro y D hy
    obtain ⟨D', h1, _⟩ := hget hy
    exact h.sng h1
  · intro k
    refine ⟨?_, (h.decl k).2⟩
    simp only [Mem.setInt]
    split
    · exact ⟨_, rfl⟩
    · exact (h.decl k).1
  · intro j l hl
    obtain ⟨y, D, hy, hb⟩ := h.owned hl
    by_cases hyz : y = z
    · subst hyz
      rw [hz] at hy
      cases hy
      exact ⟨y, _, upd_self _ _ _, hb⟩
    · exact ⟨y, D, by rw [upd_ne _ _ hyz]; exact hy, hb⟩
  · intro k hk
    have h1 := h.freshI k hk
    constructor
    · rw [upd_ne]
      · exact h1.1
      · intro he; rw [he, hz] at h1; simp at h1
    · rw [upd_ne]
      · exact h1.2
      · intro he; rw [he, hz] at h1; simp at h1
  · intro y D hy
    obtain ⟨D', h1, h2, h3, h4⟩ := hget hy
    rw [← h3]; exact h.okd h1
  · intro y D hy
    obtain ⟨D', h1, h2, h3, h4⟩ := hget hy
    rw [← h3]; exact h.okl h1

theorem Rep.bump (h : Rep m s) {n : Nat} (hn : m.next ≤ n) : Rep (m.bump n) s :=
  { h with
    int := h.int, dig := h.dig, kind := h.kind, inj := h.inj, sng := h.sng, decl := h.decl
    owned := h.owned
    freshH := h.freshH.bump hn
    freshI := fun k hk => h.freshI k (Nat.le_trans hn hk)
    freshS := fun k hk => h.freshS k (Nat.le_trans hn hk)
    okd := h.okd, okl := h.okl, prec := h.prec, thr := h.thr }

/-- Give `z` a new heap block (identity `k`, not yet owned), releasing the old one. -/
theorem Rep.newBlock {m' : Mem} (h : Rep m s) (hz : s z = some C) (hown : z.own = true) {k u : Nat} {n : Bool} {l : List Nat}
    (hdl : Dig l) (hll : 1 ≤ l.length ∧ l.length ≤ MAXD)
    (hint : ∀ y, m'.int y = (m.setInt z (some ⟨some ⟨.heap k, 0⟩, l.length, u, n⟩)).int y)
    (hdig : ∀ b, m'.dig b = if b = .heap k then some l else
      if b.isHeap = true ∧ b = C.base then none else m.dig b)
    (hk : m.dig (.heap k) = none) (hkn : k < m'.next) (hnext : m.next ≤ m'.next)
    (hp : m'.defPrec = m.defPrec) (ht : m'.mulThr = m.mulThr) :
    Rep m' (upd s z (some ⟨.heap k, l, u, n⟩)) := by
  have hget : ∀ {y D}, upd s z (some ⟨.heap k, l, u, n⟩) y = some D →
      (y = z ∧ D = ⟨.heap k, l, u, n⟩) ∨ (y ≠ z ∧ s y = some D) := by
    intro y D hy
    simp only [upd] at hy
    split at hy
    · exact .inl ⟨‹_›, (Option.some.inj hy).symm⟩
    · exact .inr ⟨‹_›, hy⟩
  have hnk : ∀ {y D}, s y = some D → D.base ≠ .heap k := by
    intro y D hy hb
    have := h.dig hy
    rw [hb, hk] at this; simp at this
  refine
    { int := ?_, dig := ?_, kind := ?_, inj := ?_, sng := ?_, decl := ?_, owned := ?_, freshH := ?_,
      freshI := ?_, freshS := ?_, okd := ?_, okl := ?_, prec := by rw [hp]; exact h.prec,
      thr := by rw [ht]; exact h.thr }
  · intro y D hy
    rw [hint]
    rcases hget hy with ⟨rfl, rfl⟩ | ⟨hne, hy⟩
    · simp [Mem.setInt, Cell.mpz]
    · simp only [Mem.setInt, if_neg hne]; exact h.int hy
  · intro y D hy
    rw [hdig]
    rcases hget hy with ⟨rfl, rfl⟩ | ⟨hne, hy⟩
    · simp
    · rw [if_neg (hnk hy), if_neg, h.dig hy]
      rintro ⟨_, hb⟩
      exact hne (h.inj hy hz hb)
  · intro y D hy
    rcases hget hy with ⟨rfl, rfl⟩ | ⟨hne, hy⟩
    · exact okBase_heap hown
    · exact h.kind hy
  · intro y y' D D' hy hy' hb
    rcases hget hy with ⟨rfl, rfl⟩ | ⟨hne, hy⟩
    · rcases hget hy' with ⟨rfl, rfl⟩ | ⟨hne', hy'⟩
      · rfl
      · exact absurd hb.symm (hnk hy')
    · rename_i hy1
      rcases hget hy' with ⟨_, rfl⟩ | ⟨hne', hy'⟩
      · exact absurd hb (hnk hy)
      · exact h.inj hy hy' hb
  · intro y D hy
    have h1 : ∃ D', s y = some D' := by
      rcases hget hy with ⟨rfl, rfl⟩ | ⟨hne, hy⟩
      · exact ⟨C, hz⟩
      · exact ⟨D, hy⟩
    obtain ⟨D', h1⟩ := h1
    rw [hdig, if_neg (by simp), if_neg (by simp [Base.isHeap])]
    exact h.sng h1
  · intro j
    rw [hint, hdig, if_neg (by simp), if_neg (by simp [Base.isHeap])]
    refine ⟨?_, (h.decl j).2⟩
    simp only [Mem.setInt]
    split
    · exact ⟨_, rfl⟩
    · exact (h.decl j).1
  · intro j l' hl
    rw [hdig] at hl
    split at hl
    · rename_i hb; exact ⟨z, _, upd_self _ _ _, hb.symm⟩
    · split at hl
      · simp at hl
      · rename_i h1 h2
        obtain ⟨y, D, hy, hb⟩ := h.owned hl
        by_cases hyz : y = z
        · subst hyz
          rw [hz] at hy; cases hy
          exact absurd ⟨rfl, hb.symm⟩ h2
        · exact ⟨y, D, by rw [upd_ne _ _ hyz]; exact hy, hb⟩
  · intro j hj
    rw [hdig, if_neg (by simp; omega)]
    split
    · rfl
    · exact h.freshH j (by omega)
  · intro j hj
    have h1 := h.freshI j (by omega)
    constructor
    · rw [upd_ne]
      · exact h1.1
      · intro he; rw [he, hz] at h1; simp at h1
    · rw [upd_ne]
      · exact h1.2
      · intro he; rw [he, hz] at h1; simp at h1
  · intro j hj
    rw [hdig, if_neg (by simp), if_neg (by simp [Base.isHeap])]
    exact h.freshS j (by omega)
  · intro y D hy
    rcases hget hy with ⟨rfl, rfl⟩ | ⟨hne, hy⟩
    · exact hdl
    · exact h.okd hy
  · intro y D hy
    rcases hget hy with ⟨rfl, rfl⟩ | ⟨hne, hy⟩
    · exact hll
    · exact h.okl hy

theorem Rep.base_ne (h : Rep m s) (hz : s z = some C) {b : Base} (hb : m.dig b = none) :
    C.base ≠ b := by
  intro he
  have := h.dig hz
  rw [he, hb] at this; simp at this

theorem Rep.base_ne_single (h : Rep m s) (hz : s z = some C) {y : Id} (hy : s y = none) :
    C.base ≠ .single y := by
  intro he
  have h1 := h.kind hz
  rw [he] at h1
  rw [okBase_single h1, hz] at hy
  simp at hy

/-- A new cell appears. -/
theorem Rep.insert {m' : Mem} (h : Rep m s) (hz : s z = none)
    (hint : ∀ y, m'.int y = if y = z then some C.mpz else m.int y)
    (hd : m'.dig C.base = some C.buf) (hs : ∃ d, m'.dig (.single z) = some [d])
    (hk : okBase z C.base)
    (hdig : ∀ b, b ≠ C.base → b ≠ .single z → m'.dig b = m.dig b)
    (hC : C.base = .single z ∨ m.dig C.base = none)
    (hnext : m.next ≤ m'.next)
    (hfr : ∀ n, m'.next ≤ n → z ≠ .tmp n ∧ z ≠ .fake n ∧ C.base ≠ .stack n ∧ C.base ≠ .heap n)
    (hokd : Dig C.buf) (hokl : 1 ≤ C.buf.length ∧ C.buf.length ≤ MAXD)
    (hp : m'.defPrec = m.defPrec) (ht : m'.mulThr = m.mulThr) :
    Rep m' (upd s z (some C)) := by
  have hget : ∀ {y D}, upd s z (some C) y = some D →
      (y = z ∧ D = C) ∨ (y ≠ z ∧ s y = some D) := by
    intro y D hy
    simp only [upd] at hy
    split at hy
    · exact .inl ⟨‹_›, (Option.some.inj hy).symm⟩
    · exact .inr ⟨‹_›, hy⟩
  have hbC : ∀ {y D}, s y = some D → D.base ≠ C.base := by
    intro y D hy
    rcases hC with hC | hC
    · rw [hC]; exact h.base_ne_single hy hz
    · exact h.base_ne hy hC
  refine
    { int := ?_, dig := ?_, kind := ?_, inj := ?_, sng := ?_, decl := ?_, owned := ?_, freshH := ?_,
      freshI := ?_, freshS := ?_, okd := ?_, okl := ?_, prec := by rw [hp]; exact h.prec,
      thr := by rw [ht]; exact h.thr }
  · intro y D hy
    rw [hint]
    rcases hget hy with ⟨rfl, rfl⟩ | ⟨hne, hy⟩
    · simp
    · rw [if_neg hne]; exact h.int hy
  · intro y D hy
    rcases hget hy with ⟨rfl, rfl⟩ | ⟨hne, hy⟩
    · exact hd
    · rw [hdig _ (hbC hy) (h.base_ne_single hy hz)]; exact h.dig hy
  · intro y D hy
    rcases hget hy with ⟨rfl, rfl⟩ | ⟨hne, hy⟩
    · exact hk
    · exact h.kind hy
  · intro y y' D D' hy hy' hb
    rcases hget hy with ⟨rfl, rfl⟩ | ⟨hne, hy⟩
    · rcases hget hy' with ⟨rfl, rfl⟩ | ⟨hne', hy'⟩
      · rfl
      · exact absurd hb.symm (hbC hy')
    · rcases hget hy' with ⟨_, hc⟩ | ⟨hne', hy'⟩
      · rw [hc] at hb; exact absurd hb (hbC hy)
      · exact h.inj hy hy' hb
  · intro y D hy
    rcases hget hy with ⟨rfl, rfl⟩ | ⟨hne, hy⟩
    · exact hs
    · by_cases h1 : Base.single y = C.base
      · have h2 := hk
        rw [← h1] at h2
        exact absurd (okBase_single h2) hne
      · rw [hdig _ h1 (by simp [hne])]; exact h.sng hy
  · intro j
    rw [hint]
    constructor
    · split
      · exact ⟨_, rfl⟩
      · exact (h.decl j).1
    · by_cases hj : (.var j : Id) = z
      · rw [hj]; exact hs
      · by_cases h1 : Base.single (.var j) = C.base
        · have h2 := hk
          rw [← h1] at h2
          exact absurd (okBase_single h2) hj
        · rw [hdig _ h1 (by simp [hj])]; exact (h.decl j).2
  · intro j l hl
    by_cases hj : Base.heap j = C.base
    · exact ⟨z, C, upd_self _ _ _, hj.symm⟩
    · rw [hdig _ hj (by simp)] at hl
      obtain ⟨y, D, hy, hb⟩ := h.owned hl
      refine ⟨y, D, ?_, hb⟩
      rw [upd_ne]
      · exact hy
      · intro he; rw [he, hz] at hy; simp at hy
  · intro j hj
    have := hfr j hj
    rw [hdig _ (Ne.symm this.2.2.2) (by simp)]
    exact h.freshH j (by omega)
  · intro j hj
    have h1 := hfr j hj
    have h2 := h.freshI j (by omega)
    rw [upd_ne _ _ (Ne.symm h1.1), upd_ne _ _ (Ne.symm h1.2.1)]
    exact h2
  · intro j hj
    have := hfr j hj
    rw [hdig _ (Ne.symm this.2.2.1) (by simp)]
    exact h.freshS j (by omega)
  · intro y D hy
    rcases hget hy with ⟨rfl, rfl⟩ | ⟨hne, hy⟩
    · exact hokd
    · exact h.okd hy
  · intro y D hy
    rcases hget hy with ⟨rfl, rfl⟩ | ⟨hne, hy⟩
    · exact hokl
    · exact h.okl hy

/-- A cell disappears. -/
theorem Rep.remove {m' : Mem} (h : Rep m s) (hz : s z = some C)
    (hint : ∀ y, y ≠ z → m'.int y = m.int y)
    (hdig : ∀ b, b ≠ C.base → b ≠ .single z → m'.dig b = m.dig b)
    (hheap : ∀ k, C.base = .heap k → m'.dig (.heap k) = none)
    (hstack : ∀ k, C.base = .stack k → m'.dig (.stack k) = none)
    (hdecl : ∀ n, z = .var n → (∃ Z, m'.int z = some Z) ∧ ∃ d, m'.dig (.single z) = some [d])
    (hnext : m.next ≤ m'.next)
    (hp : m'.defPrec = m.defPrec) (ht : m'.mulThr = m.mulThr) :
    Rep m' (upd s z none) := by
  have hget : ∀ {y D}, upd s z none y = some D → y ≠ z ∧ s y = some D := by
    intro y D hy
    simp only [upd] at hy
    split at hy
    · simp at hy
    · exact ⟨‹_›, hy⟩
  have hb : ∀ {y D}, y ≠ z → s y = some D → D.base ≠ C.base ∧ D.base ≠ .single z := by
    intro y D hne hy
    refine ⟨fun hb => hne (h.inj hy hz hb), fun hb => ?_⟩
    have h1 := h.kind hy
    rw [hb] at h1
    exact hne (okBase_single h1).symm
  refine
    { int := ?_, dig := ?_, kind := ?_, inj := ?_, sng := ?_, decl := ?_, owned := ?_, freshH := ?_,
      freshI := ?_, freshS := ?_, okd := ?_, okl := ?_, prec := by rw [hp]; exact h.prec,
      thr := by rw [ht]; exact h.thr }
  · intro y D hy
    obtain ⟨hne, hy⟩ := hget hy
    rw [hint _ hne]; exact h.int hy
  · intro y D hy
    obtain ⟨hne, hy⟩ := hget hy
    rw [hdig _ (hb hne hy).1 (hb hne hy).2]; exact h.dig hy
  · intro y D hy; exact h.kind (hget hy).2
  · intro y y' D D' hy hy'; exact h.inj (hget hy).2 (hget hy').2
  · intro y D hy
    obtain ⟨hne, hy⟩ := hget hy
    by_cases h1 : Base.single y = C.base
    · have h2 := h.kind hz
      rw [← h1] at h2
      exact absurd (okBase_single h2) hne
    · rw [hdig _ h1 (by simp [hne])]; exact h.sng hy
  · intro j
    by_cases hj : (.var j : Id) = z
    · rw [hj]; exact hdecl j hj.symm
    · rw [hint _ hj]
      refine ⟨(h.decl j).1, ?_⟩
      by_cases h1 : Base.single (.var j) = C.base
      · have h2 := h.kind hz
        rw [← h1] at h2
        exact absurd (okBase_single h2) hj
      · rw [hdig _ h1 (by simp [hj])]; exact (h.decl j).2
  · intro j l hl
    by_cases hj : Base.heap j = C.base
    · rw [hheap j hj.symm] at hl; simp at hl
    · rw [hdig _ hj (by simp)] at hl
      obtain ⟨y, D, hy, hbb⟩ := h.owned hl
      refine ⟨y, D, ?_, hbb⟩
      rw [upd_ne]
      · exact hy
      · intro he; rw [he, hz] at hy; cases hy; exact hj hbb.symm
  · intro j hj
    by_cases hjj : Base.heap j = C.base
    · exact hheap j hjj.symm
    · rw [hdig _ hjj (by simp)]; exact h.freshH j (by omega)
  · intro j hj
    have h2 := h.freshI j (by omega)
    constructor
    · simp only [upd]; split
      · rfl
      · exact h2.1
    · simp only [upd]; split
      · rfl
      · exact h2.2
  · intro j hj
    by_cases hjj : Base.stack j = C.base
    · exact hstack j hjj.symm
    · rw [hdig _ hjj (by simp)]; exact h.freshS j (by omega)
  · intro y D hy; exact h.okd (hget hy).2
  · intro y D hy; exact h.okl (hget hy).2

/-! ### Members -/

theorem wp_getI {Q : Mpz → Mem → Prop} {Z : Mpz} (hz : m.int z = some Z) (h : Q Z m) :
    wp env E (getI z) Q m := by
  unfold wp getI; rw [hz]; exact h

theorem wp_setI {Q : Unit → Mem → Prop} {Z : Mpz} {f : Mpz → Mpz} (hz : m.int z = some Z)
    (h : Q () (m.setInt z (some (f Z)))) : wp env E (Imath.setI z f) Q m := by
  unfold wp Imath.setI; rw [hz]; exact h

theorem wp_USED {Q : Nat → Mem → Prop} (h : Rep m s) (hz : s z = some C) (hQ : Q C.used m) :
    wp env E (MP_USED z) Q m := wp_bind (wp_getI (h.int hz) (wp_pure hQ))

theorem wp_ALLOC {Q : Nat → Mem → Prop} (h : Rep m s) (hz : s z = some C) (hQ : Q C.buf.length m) :
    wp env E (MP_ALLOC z) Q m := wp_bind (wp_getI (h.int hz) (wp_pure hQ))

theorem wp_SIGN {Q : Bool → Mem → Prop} (h : Rep m s) (hz : s z = some C) (hQ : Q C.neg m) :
    wp env E (MP_SIGN z) Q m := wp_bind (wp_getI (h.int hz) (wp_pure hQ))

theorem wp_DIGITS {Q : Ptr → Mem → Prop} (h : Rep m s) (hz : s z = some C) (hQ : Q C.ptr m) :
    wp env E (MP_DIGITS z) Q m := wp_bind (wp_getI (h.int hz) (wp_pure hQ))

theorem wp_setUsed {Q : Unit → Mem → Prop} {u : Nat} (h : Rep m s) (hz : s z = some C)
    (hQ : ∀ m', Rep m' (upd s z (some { C with used := u })) → Q () m') :
    wp env E (setUsed z u) Q m := by
  unfold setUsed
  exact wp_setI (h.int hz) (hQ _ (h.setI hz (u := u) (n := C.neg)))

theorem wp_setSign {Q : Unit → Mem → Prop} {n : Bool} (h : Rep m s) (hz : s z = some C)
    (hQ : ∀ m', Rep m' (upd s z (some { C with neg := n })) → Q () m') :
    wp env E (setSign z n) Q m := by
  unfold setSign
  exact wp_setI (h.int hz) (hQ _ (h.setI hz (u := C.used) (n := n)))

/-- Read a digit. -/
theorem wp_rdz {Q : Nat → Mem → Prop} {i x : Nat} (h : Rep m s) (hz : s z = some C)
    (hx : C.buf[i]? = some x) (hQ : Q x m) : wp env E (rd (C.ptr.add i)) Q m := by
  refine wp_rd ?_ hQ
  have := h.at hz i x hx
  simpa using this

/-- Write a digit. -/
theorem wp_wrz {Q : Unit → Mem → Prop} {i x : Nat} (h : Rep m s) (hz : s z = some C)
    (hi : i < C.buf.length) (hx : x < 𝔹)
    (hQ : ∀ m', Rep m' (upd s z (some { C with buf := spliceL C.buf i [x] })) → Q () m') :
    wp env E (wr (C.ptr.add i) x) Q m := by
  refine wp_wr (y := C.buf[i]) ?_ (hQ _ (h.write hz (by simp [hx])))
  have := h.at hz i C.buf[i] (by simp [hi])
  simpa using this

theorem spliceL_zero_append (l zs : List Nat) (h : zs.length ≤ l.length) :
    spliceL l 0 zs = zs ++ l.drop zs.length := by
  apply List.ext_getElem?; intro i
  rw [getElem?_spliceL]
  simp only [Nat.zero_le, if_true, Nat.sub_zero]
  by_cases hi : i < zs.length
  · rw [List.getElem?_append_left hi, List.getElem?_eq_getElem (show i < l.length by omega),
      List.getElem?_eq_getElem hi]; rfl
  · rw [List.getElem?_append_right (by omega), List.getElem?_drop, List.getElem?_eq_none (by omega),
      show zs.length + (i - zs.length) = i by omega]
    simp

theorem spliceL_mid (a b c zs : List Nat) (h : zs.length = b.length) :
    spliceL (a ++ b ++ c) a.length zs = a ++ zs ++ c := by
  apply List.ext_getElem?; intro i
  rw [getElem?_spliceL]
  by_cases h1 : i < a.length
  · simp [List.append_assoc, List.getElem?_append_left h1, Nat.not_le.2 h1]
  · simp only [if_pos (show a.length ≤ i by omega)]
    by_cases h2 : i < a.length + b.length
    · have e1 : (a ++ b ++ c)[i]? = some (b[i - a.length]'(by omega)) := by
        rw [List.append_assoc, List.getElem?_append_right (by omega),
          List.getElem?_append_left (by omega), List.getElem?_eq_getElem]
      have e2 : (a ++ zs ++ c)[i]? = some (zs[i - a.length]'(by omega)) := by
        rw [List.append_assoc, List.getElem?_append_right (by omega),
          List.getElem?_append_left (by omega), List.getElem?_eq_getElem]
      rw [e1, e2, List.getElem?_eq_getElem (show i - a.length < zs.length by omega)]; rfl
    · have e1 : (a ++ b ++ c)[i]? = c[i - (a.length + b.length)]? := by
        rw [List.getElem?_append_right (by simp; omega)]; simp
      have e2 : (a ++ zs ++ c)[i]? = c[i - (a.length + b.length)]? := by
        rw [List.getElem?_append_right (by simp; omega)]; simp [h]
      rw [e1, e2, List.getElem?_eq_none (show zs.length ≤ i - a.length by omega)]
      simp

end Imath
