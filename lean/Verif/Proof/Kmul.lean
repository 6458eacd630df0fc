import Verif.Proof.Umul
import Mathlib.Tactic.Positivity

/-! # Karatsuba multiplication -/

namespace Imath

variable {env : Env} {E : Fault → Prop}

/-- Advance the object counter. -/
def Mem.bump (m : Mem) (n : Nat) : Mem := { m with next := n }

/-- No heap block has an identity that is yet to be drawn. -/
def Fresh (m : Mem) : Prop := ∀ n, m.next ≤ n → m.dig (.heap n) = none

@[simp] theorem Mem.bump_bump (m : Mem) (n k : Nat) : (m.bump n).bump k = m.bump k := rfl
@[simp] theorem Mem.bump_self (m : Mem) : m.bump m.next = m := rfl
theorem Mem.bump_splice (m : Mem) (n : Nat) (p : Ptr) (zs : List Nat) :
    (m.bump n).splice p zs = (m.splice p zs).bump n := rfl
theorem Mem.bump_setDig (m : Mem) (n : Nat) (b : Base) (v : Option (List Nat)) :
    (m.bump n).setDig b v = (m.setDig b v).bump n := rfl
theorem At_bump {m : Mem} {n : Nat} {p : Ptr} {xs : List Nat} : At (m.bump n) p xs ↔ At m p xs :=
  Iff.rfl

theorem erase_splice (m : Mem) {b : Base} {p : Ptr} (zs : List Nat) (h : p.base = b) :
    (m.splice p zs).setDig b none = m.setDig b none := by
  apply Mem.ext' <;> try (intros; rfl)
  intro b'
  simp only [Mem.setDig, Mem.splice]
  split
  · rfl
  · rw [if_neg (by rw [h]; assumption)]

theorem erase_splice_ne (m : Mem) {b : Base} {p : Ptr} (zs : List Nat) (h : p.base ≠ b) :
    (m.splice p zs).setDig b none = (m.setDig b none).splice p zs := by
  apply Mem.ext' <;> try (intros; rfl)
  intro b'
  simp only [Mem.setDig, Mem.splice]
  by_cases h1 : b' = b
  · rw [if_pos h1, if_neg (by rw [h1]; exact Ne.symm h), if_pos h1]
  · simp [h1]

/-- `mk` is `m'` with an additional block `b`, and with counter `n`. -/
def Extra (mk : Mem) (b : Base) (m' : Mem) (n : Nat) : Prop :=
  mk.setDig b none = m'.bump n

theorem Extra.at {mk m' : Mem} {b : Base} {n : Nat} (h : Extra mk b m' n) {q : Ptr} {xs : List Nat}
    (hb : q.base ≠ b) (hx : At m' q xs) : At mk q xs := by
  intro i x hi
  rw [← hx i x hi]
  have : (mk.setDig b none).dig q.base = (m'.bump n).dig q.base := by
    have h' : mk.setDig b none = m'.bump n := h
    rw [h']
  simp only [Mem.setDig, Mem.bump, if_neg hb] at this
  simp only [Mem.get, this]

theorem Extra.splice {mk m' : Mem} {b : Base} {n : Nat} (h : Extra mk b m' n) {p : Ptr}
    (zs : List Nat) (hp : p.base = b) : Extra (mk.splice p zs) b m' n := by
  unfold Extra at *
  rw [erase_splice _ _ hp, h]

theorem Extra.splice_ne {mk m' : Mem} {b : Base} {n : Nat} (h : Extra mk b m' n) {p : Ptr}
    (zs : List Nat) (hp : p.base ≠ b) : Extra (mk.splice p zs) b (m'.splice p zs) n := by
  unfold Extra at *
  rw [erase_splice_ne _ _ hp, h]; rfl

theorem Extra.bump {mk m' : Mem} {b : Base} {n : Nat} (h : Extra mk b m' n) (k : Nat) :
    Extra (mk.bump k) b m' k := by
  unfold Extra at *
  rw [Mem.bump_setDig, h]; rfl

theorem Extra.thr {mk m' : Mem} {b : Base} {n : Nat} (h : Extra mk b m' n) :
    mk.mulThr = m'.mulThr := by
  have := congrArg Mem.mulThr h
  exact this

theorem Extra.next {mk m' : Mem} {b : Base} {n : Nat} (h : Extra mk b m' n) : mk.next = n := by
  have := congrArg Mem.next h
  exact this

theorem Extra.fresh {mk m' : Mem} {k n : Nat} (h : Extra mk (.heap k) m' n) (hf : Fresh m')
    (hk : k < n) (hn : m'.next ≤ n) : Fresh mk := by
  intro j hj
  rw [h.next] at hj
  have : (mk.setDig (.heap k) none).dig (.heap j) = (m'.bump n).dig (.heap j) := by
    have h' : mk.setDig (.heap k) none = m'.bump n := h
    rw [h']
  have hne : ¬ (Base.heap j = Base.heap k) := by simp; omega
  simp only [Mem.setDig, Mem.bump, if_neg hne] at this
  rw [this]
  exact hf j (by omega)

theorem Fresh.splice {m : Mem} (h : Fresh m) (p : Ptr) (zs : List Nat) : Fresh (m.splice p zs) := by
  intro n hn
  have := h n hn
  simp only [Mem.splice]
  split
  · simp [this]
  · exact this

theorem Fresh.bump {m : Mem} (h : Fresh m) {n : Nat} (hn : m.next ≤ n) : Fresh (m.bump n) :=
  fun k hk => h k (Nat.le_trans hn hk)

theorem Fresh.base_ne {m : Mem} (h : Fresh m) {p : Ptr} {xs : List Nat} (hx : At m p xs)
    (hl : 1 ≤ xs.length) : p.base ≠ .heap m.next := by
  intro hb
  have h1 := hx.get (i := 0) (by omega)
  unfold Mem.get at h1
  rw [hb, h m.next (Nat.le_refl _)] at h1
  simp at h1

/-- `E` accounts for every request that the allocator refuses. -/
def Ref (env : Env) (E : Fault → Prop) : Prop := ∀ j k, env.grant j k = false → E (.oom k)

theorem wp_mallocD {n : Nat} {m : Mem} {Q : Ptr → Mem → Prop} (hE : Ref env E)
    (h : ∀ l, l.length = n → Dig l → n ≤ MAXD →
      Q ⟨.heap m.next, 0⟩ ((m.setDig (.heap m.next) (some l)).bump (m.next + 1))) :
    wp env E (mallocD n) Q m := by
  unfold wp mallocD
  by_cases hg : env.grant m.next n = true
  · simp only [hg, if_true]
    refine h _ (by simp [junkBlock]) ?_ (env.grant_le _ _ hg)
    intro x hx
    simp only [junkBlock, List.mem_map] at hx
    obtain ⟨i, _, rfl⟩ := hx
    exact Nat.mod_lt _ (by decide)
  · simp only [hg]
    exact hE m.next n (by simpa using hg)

theorem wp_freeD {k : Nat} {l : List Nat} {m : Mem} {Q : Unit → Mem → Prop}
    (hd : m.dig (.heap k) = some l) (h : Q () (m.setDig (.heap k) none)) :
    wp env E (freeD ⟨.heap k, 0⟩) Q m := by
  unfold wp freeD
  simp only [hd]
  exact h

theorem At_alloc (m : Mem) (b : Base) (l : List Nat) (n : Nat) :
    At ((m.setDig b (some l)).bump n) ⟨b, 0⟩ l := by
  intro i x hx
  simp [Mem.get, Mem.setDig, Mem.bump, hx]

theorem Extra_alloc {m : Mem} {b : Base} (l : List Nat) (n : Nat) (h : m.dig b = none) :
    Extra ((m.setDig b (some l)).bump n) b m n := by
  unfold Extra
  apply Mem.ext' <;> try (intros; rfl)
  intro b'
  simp only [Mem.setDig, Mem.bump]
  split
  · rename_i hb; rw [hb, h]
  · rfl

theorem At.dig_ne_none {m : Mem} {p : Ptr} {xs : List Nat} (hx : At m p xs)
    (hl : 1 ≤ xs.length) : ∃ l, m.dig p.base = some l := by
  have h1 := hx.get (i := 0) (by omega)
  unfold Mem.get at h1
  cases h : m.dig p.base with
  | none => simp [h] at h1
  | some l => exact ⟨l, rfl⟩

/-- The number of digits which `s_kmul` needs at its output. -/
def kext (n : Nat) : Nat := 4 * ((n + 1) / 2)

/-- What `s_kmul` needs: operands `xs`, `ys`; at the output, room for `kext` digits of which the
first `na + nb` are zero. -/
structure KPre (m : Mem) (da db dc : Ptr) (na nb : Nat) (xs ys os : List Nat) : Prop where
  hx : At m da xs
  hy : At m db ys
  ho : At m dc (List.replicate (na + nb) 0 ++ os)
  lx : xs.length = na
  ly : ys.length = nb
  lo : na + nb + os.length = kext (max na nb)
  dx : Dig xs
  dy : Dig ys
  dos : Dig os
  hda : Disj da na dc (kext (max na nb))
  hdb : Disj db nb dc (kext (max na nb))
  fresh : Fresh m
  thr : 8 ≤ m.mulThr
  na1 : 1 ≤ na
  nb1 : 1 ≤ nb
  na2 : na < 67108864
  nb2 : nb < 67108864

/-- The full specification of `s_kmul`: digits above the product are left alone or set to zero, and
those from index `2 * max na nb` on are left alone. -/
def KGen (env : Env) (E : Fault → Prop) (rec : Ptr → Ptr → Ptr → Nat → Nat → M Int) (N : Nat) : Prop :=
  ∀ (da db dc : Ptr) (na nb : Nat) (m : Mem) (xs ys os : List Nat) (Q : Int → Mem → Prop),
    KPre m da db dc na nb xs ys os → max na nb ≤ N →
    (∀ (ps ts : List Nat) (n' : Nat), ps.length = na + nb → Dig ps → val ps = val xs * val ys →
      ts.length = os.length → (∀ i : Nat, ts[i]? = os[i]? ∨ ts[i]? = some 0) →
      (∀ i : Nat, 2 * max na nb ≤ na + nb + i → ts[i]? = os[i]?) → m.next ≤ n' →
      Q 1 ((m.splice dc (ps ++ ts)).bump n')) →
    wp env E (rec da db dc na nb) Q m

/-- The specification when the digits between `na + nb` and `2 * max na nb` are also zero. -/
def KSimple (env : Env) (E : Fault → Prop) (rec : Ptr → Ptr → Ptr → Nat → Nat → M Int) (N : Nat) : Prop :=
  ∀ (da db dc : Ptr) (na nb : Nat) (m : Mem) (xs ys os : List Nat) (Q : Int → Mem → Prop),
    KPre m da db dc na nb xs ys os → max na nb ≤ N →
    (∀ i : Nat, na + nb + i < 2 * max na nb → os[i]? = some 0) →
    (∀ (ps : List Nat) (n' : Nat), ps.length = na + nb → Dig ps → val ps = val xs * val ys → m.next ≤ n' →
      Q 1 ((m.splice dc ps).bump n')) →
    wp env E (rec da db dc na nb) Q m

theorem KGen.simple {rec : Ptr → Ptr → Ptr → Nat → Nat → M Int} {N : Nat}
    (h : KGen env E rec N) : KSimple env E rec N := by
  intro da db dc na nb m xs ys os Q hp hN hz hQ
  refine h da db dc na nb m xs ys os Q hp hN ?_
  intro ps ts n' h1 h2 h3 h4 h5 h6 h7
  have : ts = os := by
    apply List.ext_getElem?
    intro i
    by_cases hi : na + nb + i < 2 * max na nb
    · rcases h5 i with h | h
      · exact h
      · rw [h, hz i hi]
    · exact h6 i (by omega)
  subst this
  rw [← Mem.splice_append]
  have h8 := hp.ho
  rw [At_append] at h8
  have h9 : At (m.splice dc ps) (dc.add ps.length) ts := by
    rw [h1]
    have := h8.2
    simp only [List.length_replicate] at this
    refine this.splice_disj (.inr (.inr ?_))
    simp [h1]
  rw [h9.splice_same]
  exact hQ ps n' h1 h2 h3 h7

/-! ### The body -/

theorem At.splice_prefix {m : Mem} {p : Ptr} {T zs : List Nat} (h : At m p T)
    (hl : zs.length ≤ T.length) : At (m.splice p zs) p (zs ++ T.drop zs.length) := by
  rw [At_append]
  constructor
  · exact (h.take zs.length).splice_self (by simp [hl])
  · refine (h.drop zs.length).splice_disj (.inr (.inr ?_))
    simp

/-- The state of the scratch block at `t`: three regions of `2b`, `2b` and `4b` digits. -/
structure KSt (mk m' : Mem) (k n b : Nat) (t : Ptr) (T1 T2 T3 : List Nat) : Prop where
  ht : t = ⟨.heap k, 0⟩
  ex : Extra mk (.heap k) m' n
  a1 : At mk t T1
  a2 : At mk (t.add (2 * b)) T2
  a3 : At mk (t.add (2 * b + 2 * b)) T3
  l1 : T1.length = 2 * b
  l2 : T2.length = 2 * b
  l3 : T3.length = 4 * b

theorem KSt.set1 {mk m' : Mem} {k n b : Nat} {t : Ptr} {T1 T2 T3 : List Nat}
    (h : KSt mk m' k n b t T1 T2 T3) {zs : List Nat} (hl : zs.length ≤ 2 * b) :
    KSt (mk.splice t zs) m' k n b t (zs ++ T1.drop zs.length) T2 T3 where
  ht := h.ht
  ex := h.ex.splice zs (by rw [h.ht])
  a1 := h.a1.splice_prefix (by rw [h.l1]; exact hl)
  a2 := h.a2.splice_disj (.inr (.inr (by simp only [Ptr.add_off]; omega)))
  a3 := h.a3.splice_disj (.inr (.inr (by simp only [Ptr.add_off]; omega)))
  l1 := by have := h.l1; simp; omega
  l2 := h.l2
  l3 := h.l3

theorem KSt.set2 {mk m' : Mem} {k n b : Nat} {t : Ptr} {T1 T2 T3 : List Nat}
    (h : KSt mk m' k n b t T1 T2 T3) {zs : List Nat} (hl : zs.length ≤ 2 * b) :
    KSt (mk.splice (t.add (2 * b)) zs) m' k n b t T1 (zs ++ T2.drop zs.length) T3 where
  ht := h.ht
  ex := h.ex.splice zs (by rw [h.ht]; rfl)
  a1 := h.a1.splice_disj (.inr (.inl (by have := h.l1; simp only [Ptr.add_off]; omega)))
  a2 := h.a2.splice_prefix (by rw [h.l2]; exact hl)
  a3 := h.a3.splice_disj (.inr (.inr (by simp only [Ptr.add_off]; omega)))
  l1 := h.l1
  l2 := by have := h.l2; simp; omega
  l3 := h.l3

theorem KSt.set3 {mk m' : Mem} {k n b : Nat} {t : Ptr} {T1 T2 T3 : List Nat}
    (h : KSt mk m' k n b t T1 T2 T3) {zs : List Nat} (hl : zs.length ≤ 4 * b) :
    KSt (mk.splice (t.add (2 * b + 2 * b)) zs) m' k n b t T1 T2 (zs ++ T3.drop zs.length) where
  ht := h.ht
  ex := h.ex.splice zs (by rw [h.ht]; rfl)
  a1 := h.a1.splice_disj (.inr (.inl (by have := h.l1; simp only [Ptr.add_off]; omega)))
  a2 := h.a2.splice_disj (.inr (.inl (by have := h.l2; simp only [Ptr.add_off]; omega)))
  a3 := h.a3.splice_prefix (by rw [h.l3]; exact hl)
  l1 := h.l1
  l2 := h.l2
  l3 := by have := h.l3; simp; omega

theorem KSt.bump {mk m' : Mem} {k n b : Nat} {t : Ptr} {T1 T2 T3 : List Nat}
    (h : KSt mk m' k n b t T1 T2 T3) (n' : Nat) :
    KSt (mk.bump n') m' k n' b t T1 T2 T3 :=
  { h with ex := h.ex.bump n', a1 := h.a1, a2 := h.a2, a3 := h.a3 }

theorem KSt.setm {mk m' : Mem} {k n b : Nat} {t : Ptr} {T1 T2 T3 : List Nat}
    (h : KSt mk m' k n b t T1 T2 T3) {p : Ptr} (zs : List Nat) (hp : p.base ≠ .heap k) :
    KSt (mk.splice p zs) (m'.splice p zs) k n b t T1 T2 T3 :=
  { h with
    ex := h.ex.splice_ne zs hp
    a1 := h.a1.splice_disj (.inl (by rw [h.ht]; exact Ne.symm hp))
    a2 := h.a2.splice_disj (.inl (by rw [h.ht]; exact Ne.symm hp))
    a3 := h.a3.splice_disj (.inl (by rw [h.ht]; exact Ne.symm hp)) }

theorem KSt.base_ne {mk m' : Mem} {k n b : Nat} {t p : Ptr} {T1 T2 T3 : List Nat}
    (h : KSt mk m' k n b t T1 T2 T3) (hp : p.base ≠ .heap k) (i : Nat) : p.base ≠ (t.add i).base := by
  rw [h.ht]; exact hp

theorem val_take_of_lt {xs : List Nat} (hx : Dig xs) {j : Nat} (hj : j ≤ xs.length)
    (h : val xs < 𝔹 ^ j) : val (xs.take j) = val xs :=
  (val_split hx hj h (r := 0) (by simp)).1

/-- The scratch phase: after it the regions hold `x0*y0`, `x1*y1` and the middle term. -/
theorem kmul_scratch {rec : Ptr → Ptr → Ptr → Nat → Nat → M Int} {b n1 n2 N : Nat}
    {da db : Ptr} {m : Mem} {xs0 xs1 ys0 ys1 : List Nat} {Q : Int → Mem → Prop}
    {K : Ptr → M Int}
    (hrec : KSimple env E rec N) (hN : b + 1 ≤ N) (hE : Ref env E)
    (hb4 : 4 ≤ b) (hb : b < 67108863) (hn1 : 1 ≤ n1) (hn1b : n1 ≤ b) (hn2 : 1 ≤ n2) (hn12 : n2 ≤ n1)
    (fresh : Fresh m) (thr : 8 ≤ m.mulThr)
    (hx0 : At m da xs0) (hx1 : At m (da.add b) xs1) (hy0 : At m db ys0) (hy1 : At m (db.add b) ys1)
    (lx0 : xs0.length = b) (lx1 : xs1.length = n1) (ly0 : ys0.length = b) (ly1 : ys1.length = n2)
    (dx0 : Dig xs0) (dx1 : Dig xs1) (dy0 : Dig ys0) (dy1 : Dig ys1)
    (h : ∀ mk k n t p0 z2 q, KSt mk m k n b t p0 z2 q → m.next ≤ k → k < n →
      Dig p0 → Dig z2 → Dig q →
      val p0 = val xs0 * val ys0 → val z2 = val xs1 * val ys1 →
      val (q.take (2 * b + 1)) = val xs0 * val ys1 + val xs1 * val ys0 →
      wp env E (K t) Q mk) :
    wp env E (do
      let t1 ← s_alloc (u32 (4 * u32 (2 * b)))
      let t2 := t1.add (u32 (2 * b))
      let t3 := t2.add (u32 (2 * b))
      ZERO t1 (u32 (4 * u32 (2 * b)))
      let carry ← s_uadd da (da.add b) t1 b n1
      wr (t1.add b) carry
      let carry ← s_uadd db (db.add b) t2 b n2
      wr (t2.add b) carry
      let _ ← rec t1 t2 t3 (u32 (b + 1)) (u32 (b + 1))
      ZERO t1 (u32 (2 * b))
      ZERO t2 (u32 (2 * b))
      let _ ← rec da db t1 b b
      let _ ← rec (da.add b) (db.add b) t2 n1 n2
      s_usub t3 t1 t3 (u32 (u32 (2 * b) + 2)) (u32 (2 * b))
      s_usub t3 t2 t3 (u32 (u32 (2 * b) + 2)) (u32 (2 * b))
      K t1) Q m := by
  have e1 : u32 (2 * b) = 2 * b := u32_of_lt (by omega)
  have e2 : u32 (4 * (2 * b)) = 8 * b := by rw [u32_of_lt (by omega)]; omega
  have e3 : u32 (b + 1) = b + 1 := u32_of_lt (by omega)
  have e4 : u32 (2 * b + 2) = 2 * b + 2 := u32_of_lt (by omega)
  simp only [e1, e2, e4, e3, Ptr.add_add]
  have bx0 : da.base ≠ .heap m.next := fresh.base_ne hx0 (by omega)
  have by0 : db.base ≠ .heap m.next := fresh.base_ne hy0 (by omega)
  refine wp_bind (wp_mallocD hE ?_)
  intro l ll ld _
  have hk0 := At_alloc m (.heap m.next) l (m.next + 1)
  have hk0e := Extra_alloc (m := m) l (m.next + 1) (fresh m.next (Nat.le_refl _))
  generalize ((m.setDig (.heap m.next) (some l)).bump (m.next + 1)) = mk0 at hk0 hk0e
  refine wp_bind (ZERO_spec hk0 ll (by omega) ?_)
  have hs : KSt (mk0.splice ⟨.heap m.next, 0⟩ (List.replicate (8 * b) 0)) m m.next (m.next + 1) b
      ⟨.heap m.next, 0⟩ (List.replicate (2 * b) 0) (List.replicate (2 * b) 0)
      (List.replicate (4 * b) 0) := by
    have ha := hk0.splice_self (zs := List.replicate (8 * b) 0) (by simp [ll])
    have : List.replicate (8 * b) 0 = List.replicate (2 * b) 0 ++ (List.replicate (2 * b) 0 ++
      List.replicate (4 * b) 0) := by simp; omega
    rw [this, At_append, At_append] at ha
    rw [this]
    simp only [List.length_replicate, Ptr.add_add] at ha
    exact ⟨rfl, hk0e.splice _ rfl, ha.1, ha.2.1, ha.2.2, by simp, by simp, by simp⟩
  generalize mk0.splice ⟨.heap m.next, 0⟩ (List.replicate (8 * b) 0) = mk1 at hs
  clear hk0 hk0e mk0
  have hkn : m.next < m.next + 1 := by omega
  generalize (⟨.heap m.next, 0⟩ : Ptr) = t at hs
  -- sums
  refine wp_bind (s_uadd_spec (xs := xs0) (ys := xs1) (os := List.replicate b 0)
    (hs.ex.at bx0 hx0) (hs.ex.at bx0 hx1) ?_ lx0 lx1 (by simp; omega) dx0 dx1
    (fun hh => absurd hh.symm (hs.base_ne bx0 0)) (fun hh => absurd hh.symm (hs.base_ne bx0 0)) ?_)
  · have := hs.a1.take b
    rw [List.take_replicate, Nat.min_eq_left (by omega)] at this; exact this
  intro s1 c1 ls1 ds1 hc1 es1
  rw [Nat.max_eq_left hn1b] at ls1 es1
  have hs2 := hs.set1 (zs := s1 ++ [c1]) (by simp; omega)
  have hw1 : (mk1.splice t s1).get (t.add b).base (t.add b).off = some 0 := by
    have := (hs.set1 (zs := s1) (by omega)).a1
    rw [At_append, List.drop_replicate] at this
    have h2 := this.2
    rw [ls1, show 2 * b - b = (b - 1) + 1 by omega, List.replicate_succ, At_cons] at h2
    exact h2.1
  refine wp_bind (wp_wr hw1 ?_)
  rw [← ls1, Mem.splice_append, ls1]
  generalize mk1.splice t (s1 ++ [c1]) = mk2 at hs2
  clear hs hw1
  refine wp_bind (s_uadd_spec (xs := ys0) (ys := ys1) (os := List.replicate b 0)
    (hs2.ex.at by0 hy0) (hs2.ex.at by0 hy1) ?_ ly0 ly1 (by simp; omega) dy0 dy1
    (fun hh => absurd hh.symm (hs2.base_ne by0 _)) (fun hh => absurd hh.symm (hs2.base_ne by0 _)) ?_)
  · have := hs2.a2.take b
    rw [List.take_replicate, Nat.min_eq_left (by omega)] at this; exact this
  intro s2 c2 ls2 ds2 hc2 es2
  rw [Nat.max_eq_left (by omega)] at ls2 es2
  have hs3 := hs2.set2 (zs := s2 ++ [c2]) (by simp; omega)
  have hw1 : (mk2.splice (t.add (2 * b)) s2).get (t.add (2 * b + b)).base (t.add (2 * b + b)).off = some 0 := by
    have := (hs2.set2 (zs := s2) (by omega)).a2
    rw [At_append, List.drop_replicate] at this
    have h2 := this.2
    rw [ls2, show 2 * b - b = (b - 1) + 1 by omega, List.replicate_succ, At_cons] at h2
    rw [Ptr.add_add] at h2
    exact h2.1
  refine wp_bind (wp_wr hw1 ?_)
  rw [show t.add (2 * b + b) = (t.add (2 * b)).add s2.length by rw [Ptr.add_add, ls2],
    Mem.splice_append]
  generalize mk2.splice (t.add (2 * b)) (s2 ++ [c2]) = mk3 at hs3
  clear hs2 hw1 mk1 mk2
  -- product of the sums
  have hkext : kext (b + 1) ≤ 2 * b + 4 := by unfold kext; omega
  have hkext2 : 2 * b + 2 ≤ kext (b + 1) := by unfold kext; omega
  have pre : KPre mk3 t (t.add (2 * b)) (t.add (2 * b + 2 * b)) (b + 1) (b + 1) (s1 ++ [c1])
      (s2 ++ [c2]) (List.replicate (kext (b + 1) - (2 * b + 2)) 0) := by
    refine ⟨(At_append.1 hs3.a1).1, (At_append.1 hs3.a2).1, ?_, by simp [ls1], by simp [ls2],
      ?_, ?_, ?_, Dig_replicate_zero _, ?_, ?_, ?_, ?_, by omega, by omega, by omega, by omega⟩
    · have := hs3.a3.take (kext (b + 1))
      rw [List.take_replicate, Nat.min_eq_left (by omega)] at this
      rw [List.replicate_append_replicate]
      convert this using 2; omega
    · simp; omega
    · simp [ds1]; omega
    · simp [ds2]; omega
    · exact .inr (.inl (by simp only [Ptr.add_off]; omega))
    · exact .inr (.inl (by simp only [Ptr.add_off]; omega))
    · exact hs3.ex.fresh fresh hkn (by omega)
    · rw [hs3.ex.thr]; exact thr
  refine wp_bind (hrec _ _ _ _ _ _ _ _ _ _ pre (by simp; omega) (fun i hi => by simp at hi; omega) ?_)
  intro q n' lq dq eq hn'
  have hq1 : val (s1 ++ [c1]) = val xs0 + val xs1 := by
    rw [val_append, ls1]; simp only [val_cons, val_nil, Nat.mul_zero, Nat.add_zero]; omega
  have hq2 : val (s2 ++ [c2]) = val ys0 + val ys1 := by
    rw [val_append, ls2]; simp only [val_cons, val_nil, Nat.mul_zero, Nat.add_zero]; omega
  rw [hq1, hq2] at eq
  rw [hs3.ex.next] at hn'
  have hs4 := (hs3.set3 (zs := q) (by omega)).bump n'
  generalize (mk3.splice (t.add (2 * b + 2 * b)) q).bump n' = mk4 at hs4
  clear pre hs3 mk3
  refine wp_bind (ZERO_spec hs4.a1 hs4.l1 (by omega) ?_)
  have hs5 := hs4.set1 (zs := List.replicate (2 * b) 0) (by simp)
  rw [List.drop_eq_nil_of_le (by rw [hs4.l1]; simp), List.append_nil] at hs5
  generalize mk4.splice t (List.replicate (2 * b) 0) = mk5 at hs5
  clear hs4 mk4
  refine wp_bind (ZERO_spec hs5.a2 hs5.l2 (by omega) ?_)
  have hs6 := hs5.set2 (zs := List.replicate (2 * b) 0) (by simp)
  rw [List.drop_eq_nil_of_le (by rw [hs5.l2]; simp), List.append_nil] at hs6
  generalize mk5.splice (t.add (2 * b)) (List.replicate (2 * b) 0) = mk6 at hs6
  clear hs5 mk5
  -- x0 * y0
  have hke : kext b ≤ 2 * b + 2 := by unfold kext; omega
  have hke2 : 2 * b ≤ kext b := by unfold kext; omega
  have pre : KPre mk6 da db t b b xs0 ys0 (List.replicate (kext b - 2 * b) 0) := by
    refine ⟨hs6.ex.at bx0 hx0, hs6.ex.at by0 hy0, ?_, lx0, ly0, ?_, dx0, dy0, Dig_replicate_zero _,
      .inl (hs6.base_ne bx0 0), .inl (hs6.base_ne by0 0), hs6.ex.fresh fresh (by omega) (by omega), ?_,
      by omega, by omega, by omega, by omega⟩
    · rw [At_append]
      constructor
      · rw [show b + b = 2 * b by omega]; exact hs6.a1
      · have := hs6.a2.take (kext b - 2 * b)
        rw [List.take_replicate, Nat.min_eq_left (by omega)] at this
        simpa [show b + b = 2 * b by omega] using this
    · simp; omega
    · rw [hs6.ex.thr]; exact thr
  refine wp_bind (hrec _ _ _ _ _ _ _ _ _ _ pre (by simp; omega) (fun i hi => by simp at hi; omega) ?_)
  intro p0 n2' lp0 dp0 ep0 hn2'
  rw [hs6.ex.next] at hn2'
  have hs7 := (hs6.set1 (zs := p0) (by omega)).bump n2'
  rw [List.drop_eq_nil_of_le (by simp [lp0]; omega), List.append_nil] at hs7
  generalize (mk6.splice t p0).bump n2' = mk7 at hs7
  clear pre hs6 mk6
  -- x1 * y1
  have hkm : kext n1 ≤ 2 * b + 2 := by unfold kext; omega
  have hkm2 : n1 + n2 ≤ kext n1 := by unfold kext; omega
  have hall : At mk7 (t.add (2 * b)) (List.replicate (2 * b) 0 ++ q) := by
    rw [At_append]; refine ⟨hs7.a2, ?_⟩
    have := (At_append.1 hs7.a3).1
    simpa using this
  have hdall : Dig (List.replicate (2 * b) 0 ++ q) := by simp [Dig_replicate_zero, dq]
  have hsplit : (List.replicate (2 * b) 0 ++ q).take (kext n1) = List.replicate (n1 + n2) 0 ++
      ((List.replicate (2 * b) 0 ++ q).take (kext n1)).drop (n1 + n2) := by
    refine (List.take_append_drop (n1 + n2) _).symm.trans ?_
    congr 1
    rw [List.take_take, Nat.min_eq_left hkm2, List.take_append_of_le_length (by simp; omega),
      List.take_replicate, Nat.min_eq_left (by omega)]
  have pre : KPre mk7 (da.add b) (db.add b) (t.add (2 * b)) n1 n2 xs1 ys1
      (((List.replicate (2 * b) 0 ++ q).take (kext n1)).drop (n1 + n2)) := by
    refine ⟨hs7.ex.at bx0 hx1, hs7.ex.at by0 hy1, ?_, lx1, ly1, ?_, dx1, dy1,
      (hdall.take _).drop _, .inl (hs7.base_ne bx0 _), .inl (hs7.base_ne by0 _),
      hs7.ex.fresh fresh (by omega) (by omega), ?_, by omega, by omega, by omega, by omega⟩
    · rw [← hsplit]; exact hall.take _
    · rw [Nat.max_eq_left hn12]; simp; omega
    · rw [hs7.ex.thr]; exact thr
  refine wp_bind (hrec _ _ _ _ _ _ _ _ _ _ pre (by rw [Nat.max_eq_left hn12]; omega) ?_ ?_)
  · intro i hi
    rw [Nat.max_eq_left hn12] at hi
    rw [List.getElem?_drop, List.getElem?_take, if_pos (by unfold kext; omega),
      List.getElem?_append_left (by simp; omega), List.getElem?_replicate, if_pos (by omega)]
  intro z2 n3' lz2 dz2 ez2 hn3'
  rw [hs7.ex.next] at hn3'
  have hs8 := (hs7.set2 (zs := z2) (by omega)).bump n3'
  rw [List.drop_replicate] at hs8
  have ez2' : val (z2 ++ List.replicate (2 * b - z2.length) 0) = val xs1 * val ys1 := by
    rw [val_append, val_replicate_zero]; omega
  have dz2' : Dig (z2 ++ List.replicate (2 * b - z2.length) 0) := by simp [dz2, Dig_replicate_zero]
  generalize z2 ++ List.replicate (2 * b - z2.length) 0 = z2' at hs8 ez2' dz2'
  generalize (mk7.splice (t.add (2 * b)) z2).bump n3' = mk8 at hs8
  clear pre hsplit hall hdall hs7 mk7 ez2 dz2 lz2
  -- subtract
  have hprod : (val xs0 + val xs1) * (val ys0 + val ys1) =
      val xs0 * val ys0 + val xs1 * val ys1 + (val xs0 * val ys1 + val xs1 * val ys0) := by ring
  refine wp_bind (s_usub_spec (xs := q) (ys := p0) (At_append.1 hs8.a3).1 hs8.a1
    (At_append.1 hs8.a3).1 (by omega) (by omega) (by omega) (by omega) dq dp0 (Behind.self _ _)
    (fun _ => .inr (by simp only [Ptr.add_off]; omega)) (by omega) ?_)
  intro q1 lq1 dq1 eq1
  have hs9 := hs8.set3 (zs := q1) (by omega)
  generalize mk8.splice (t.add (2 * b + 2 * b)) q1 = mk9 at hs9
  clear hs8 mk8
  refine wp_bind (s_usub_spec (xs := q1) (ys := z2') (At_append.1 hs9.a3).1 hs9.a2
    (At_append.1 hs9.a3).1 (by omega) hs9.l2 (by omega) (by omega) dq1 dz2' (Behind.self _ _)
    (fun _ => .inr (by simp only [Ptr.add_off]; omega)) (by omega) ?_)
  intro q2 lq2 dq2 eq2
  have hs10 := hs9.set3 (zs := q2) (by omega)
  generalize mk9.splice (t.add (2 * b + 2 * b)) q2 = mk10 at hs10
  clear hs9 mk9
  have hv : val q2 = val xs0 * val ys1 + val xs1 * val ys0 := by omega
  have hlt : val q2 < 𝔹 ^ (2 * b + 1) := by
    have h1 : val xs0 * val ys1 ≤ 𝔹 ^ b * 𝔹 ^ b := by
      refine Nat.mul_le_mul (by have := val_lt dx0; rw [lx0] at this; omega) ?_
      have := val_lt dy1
      have h3 : 𝔹 ^ ys1.length ≤ 𝔹 ^ b := Nat.pow_le_pow_right (by decide) (by omega)
      omega
    have h2 : val xs1 * val ys0 ≤ 𝔹 ^ b * 𝔹 ^ b := by
      refine Nat.mul_le_mul ?_ (by have := val_lt dy0; rw [ly0] at this; omega)
      have := val_lt dx1
      have h3 : 𝔹 ^ xs1.length ≤ 𝔹 ^ b := Nat.pow_le_pow_right (by decide) (by omega)
      omega
    have h3 : 𝔹 ^ (2 * b + 1) = 𝔹 * (𝔹 ^ b * 𝔹 ^ b) := by ring
    have h4 : 0 < 𝔹 ^ b * 𝔹 ^ b := by positivity
    omega
  refine h mk10 m.next n3' t p0 z2' _ hs10 (Nat.le_refl _) (by omega) dp0 dz2' ?_ ep0 ez2' ?_
  · simp only [Dig_append]
    exact ⟨dq2, (Dig_append.2 ⟨dq1, ((Dig_append.2 ⟨dq, (Dig_replicate_zero _).drop _⟩).drop _)⟩).drop _⟩
  · rw [List.take_append_of_le_length (by omega), val_take_of_lt dq2 (by omega) hlt, hv]

/-- The final phase: combine the three products at the output. -/
theorem kmul_combine {b na nb k n : Nat} {dc t : Ptr} {mk m : Mem} {p0 z2 q os : List Nat}
    {P Q0 : Nat} {Q : Int → Mem → Prop}
    (hs : KSt mk m k n b t p0 z2 q) (hdc : dc.base ≠ .heap k) (hb4 : 4 ≤ b) (hb : b < 67108864)
    (hnab : 3 * b ≤ na + nb) (hnab2 : na + nb ≤ 4 * b)
    (ho : At m dc (List.replicate (na + nb) 0 ++ os)) (lo : na + nb + os.length = 4 * b)
    (dos : Dig os) (dp0 : Dig p0) (dz2 : Dig z2) (dq : Dig q)
    (eq : val (q.take (2 * b + 1)) = Q0) (hQ0 : Q0 ≤ 2 * 𝔹 ^ (2 * b))
    (eP : P = val p0 + 𝔹 ^ b * Q0 + 𝔹 ^ (2 * b) * val z2) (hP : P < 𝔹 ^ (na + nb))
    (h : ∀ (ps ts : List Nat), ps.length = na + nb → Dig ps → val ps = P →
      ts.length = os.length → (∀ i : Nat, ts[i]? = os[i]? ∨ ts[i]? = some 0) →
      (∀ i : Nat, 3 * b < na + nb + i → ts[i]? = os[i]?) →
      Q 1 ((m.splice dc (ps ++ ts)).bump n)) :
    wp env E (do
      COPY t dc (u32 (2 * b))
      let carry ← s_uadd ((t.add (u32 (2 * b))).add (u32 (2 * b))) (dc.add b) (dc.add b) (u32 (u32 (2 * b) + 1)) (u32 (2 * b))
      cassert (carry = 0)
      let carry ← s_uadd (t.add (u32 (2 * b))) (dc.add (u32 (2 * b))) (dc.add (u32 (2 * b)))
        (u32 (2 * b)) (u32 (2 * b))
      cassert (carry = 0)
      s_free t
      pure 1) Q mk := by
  have e1 : u32 (2 * b) = 2 * b := u32_of_lt (by omega)
  have e2 : u32 (2 * b + 1) = 2 * b + 1 := u32_of_lt (by omega)
  simp only [e1, e2, Ptr.add_add]
  have hdt : ∀ i j a c, Disj (t.add i) a (dc.add j) c := fun i j a c =>
    .inl (Ne.symm (hs.base_ne hdc i))
  -- the output region, in four parts
  have ho1 := At_append.1 (show At m dc (List.replicate (2 * b) 0 ++
    (List.replicate (na + nb - 2 * b) 0 ++ os)) by
      rw [← List.append_assoc, List.replicate_append_replicate,
        show 2 * b + (na + nb - 2 * b) = na + nb by omega]; exact ho)
  simp only [List.length_replicate] at ho1
  generalize hR : List.replicate (na + nb - 2 * b) 0 ++ os = R at ho1
  have lR : R.length = 2 * b := by rw [← hR]; simp; omega
  have dR : Dig R := by rw [← hR]; simp [Dig_replicate_zero, dos]
  have hRz : R.take b = List.replicate b 0 := by
    rw [← hR, List.take_append_of_le_length (by simp; omega), List.take_replicate,
      Nat.min_eq_left (by omega)]
  refine wp_bind (COPY_spec hs.a1 (hs.ex.at hdc ho1.1) hs.l1 (by simp) (hdt 0 0 _ _) (by omega) ?_)
  have hs2 := hs.setm p0 hdc
  have hm2 : At (m.splice dc p0) dc p0 := ho1.1.splice_self (by simp [hs.l1])
  have hr2 : At (m.splice dc p0) (dc.add (2 * b)) R :=
    ho1.2.splice_disj (.inr (.inr (by have := hs.l1; simp only [Ptr.add_off]; omega)))
  -- middle sum
  have hmid : At (m.splice dc p0) (dc.add b) (p0.drop b ++ R) := by
    rw [At_append]
    refine ⟨hm2.drop b, ?_⟩
    rw [List.length_drop, hs.l1, Ptr.add_add, show b + (2 * b - b) = 2 * b by omega]
    exact hr2
  have lp0 := hs.l1
  have hmy : (p0.drop b ++ R).take (2 * b) = p0.drop b ++ List.replicate b 0 := by
    rw [List.take_append, List.take_of_length_le (by simp; omega), List.length_drop, lp0,
      show 2 * b - (2 * b - b) = b by omega, hRz]
  have hmz : (p0.drop b ++ R).take (2 * b + 1) = p0.drop b ++ R.take (b + 1) := by
    rw [List.take_append, List.take_of_length_le (by simp; omega), List.length_drop, lp0,
      show 2 * b + 1 - (2 * b - b) = b + 1 by omega]
  refine wp_bind (s_uadd_spec (xs := q.take (2 * b + 1)) (ys := p0.drop b ++ List.replicate b 0)
    (os := p0.drop b ++ R.take (b + 1)) (hs2.a3.take _) (hs2.ex.at hdc (hmy ▸ hmid.take (2 * b)))
    (hs2.ex.at hdc (hmz ▸ hmid.take (2 * b + 1))) ?_ ?_ ?_ (dq.take _) ?_ ?_ (Behind.self _ _) ?_)
  · have := hs.l3; simp; omega
  · simp; omega
  · simp; omega
  · simp [dp0.drop, Dig_replicate_zero]
  · exact Behind.of_disj (hdt _ _ _ (2 * b + 1))
  intro v c lv dv hc ev
  rw [Nat.max_eq_left (by omega)] at lv ev
  rw [eq, val_append, val_replicate_zero, Nat.mul_zero, Nat.add_zero] at ev
  have hp0s := val_take_add_drop p0 b
  rw [Nat.min_eq_left (by omega)] at hp0s
  have hp0lo := val_lt (dp0.take b)
  rw [List.length_take, Nat.min_eq_left (by omega)] at hp0lo
  have eP2 : P = val (p0.take b) + 𝔹 ^ b * (val v + 𝔹 ^ (2 * b + 1) * c + 𝔹 ^ b * val z2) := by
    rw [ev, eP, ← hp0s]; ring
  -- the carry is zero
  have hPb : P < 𝔹 ^ b * (𝔹 ^ (na + nb - b)) := by
    rw [← Nat.pow_add, show b + (na + nb - b) = na + nb by omega]; exact hP
  have hin : val v + 𝔹 ^ (2 * b + 1) * c + 𝔹 ^ b * val z2 < 𝔹 ^ (na + nb - b) := by
    refine Nat.lt_of_mul_lt_mul_left (a := 𝔹 ^ b) ?_
    omega
  have hc0 : c = 0 := by
    have h1 := val_lt (dp0.drop b)
    rw [List.length_drop, lp0, show 2 * b - b = b by omega] at h1
    have h2 : 𝔹 ^ (2 * b + 1) = 𝔹 * 𝔹 ^ (2 * b) := by ring
    have h3 : 𝔹 ^ b ≤ 𝔹 ^ (2 * b) := Nat.pow_le_pow_right (by decide) (by omega)
    rcases Nat.eq_zero_or_pos c with h0 | h0
    · exact h0
    · have h4 : 𝔹 ^ (2 * b + 1) * 1 ≤ 𝔹 ^ (2 * b + 1) * c := Nat.mul_le_mul_left _ h0
      omega
  subst hc0
  rw [Nat.mul_zero, Nat.add_zero] at ev hin eP2
  refine wp_bind (wp_cassert (by simp) ?_)
  have hs3 := hs2.setm (p := dc.add b) v hdc
  have hmm : (m.splice dc p0).splice (dc.add b) v = m.splice dc (p0.take b ++ v) := by
    have := Mem.splice_tail m dc (p0.take b) (p0.drop b) v (by simp; omega)
    rw [List.take_append_drop, List.length_take, Nat.min_eq_left (by omega)] at this
    exact this
  have hhi : At ((m.splice dc p0).splice (dc.add b) v) (dc.add (2 * b)) (v.drop b ++ R.drop (b + 1)) := by
    have h1 := hmid.splice_prefix (zs := v) (by simp; omega)
    rw [At_append] at h1
    rw [At_append]
    constructor
    · have := h1.1.drop b
      rw [Ptr.add_add, ← Nat.two_mul] at this; exact this
    · have := h1.2
      rw [lv, List.drop_append, List.drop_eq_nil_of_le (by simp; omega), List.nil_append,
        List.length_drop, lp0, Ptr.add_add, show 2 * b + 1 - (2 * b - b) = b + 1 by omega] at this
      rw [List.length_drop, lv, Ptr.add_add, show 2 * b + (2 * b + 1 - b) = b + (2 * b + 1) by omega]
      exact this
  have lhi : (v.drop b ++ R.drop (b + 1)).length = 2 * b := by simp; omega
  refine wp_bind (s_uadd_spec (xs := z2) (ys := v.drop b ++ R.drop (b + 1))
    (os := v.drop b ++ R.drop (b + 1)) hs3.a2 (hs3.ex.at hdc hhi) (hs3.ex.at hdc hhi) hs.l2 lhi
    (by rw [lhi]; simp) dz2 (by simp [dv.drop, dR.drop]) (Behind.of_disj (hdt _ _ _ (2 * b)))
    (Behind.self _ _) ?_)
  intro r c lr dr hc er
  rw [Nat.max_self] at lr er
  have hs4 := hs3.setm (p := dc.add (2 * b)) r hdc
  have hvs := val_take_add_drop v b
  rw [Nat.min_eq_left (by omega)] at hvs
  -- what is to be at `dc + 2b`
  have hh : val (v.drop b) + val z2 < 𝔹 ^ (na + nb - 2 * b) := by
    refine Nat.lt_of_mul_lt_mul_left (a := 𝔹 ^ b) ?_
    rw [← Nat.pow_add, show b + (na + nb - 2 * b) = na + nb - b by omega, Nat.mul_add]
    omega
  have hmm2 : ((m.splice dc p0).splice (dc.add b) v).splice (dc.add (2 * b)) r =
      m.splice dc (p0.take b ++ v.take b ++ r) := by
    rw [hmm]
    have := Mem.splice_tail m dc (p0.take b ++ v.take b) (v.drop b) r (by simp; omega)
    rw [List.append_assoc, List.take_append_drop, List.length_append, List.length_take,
      List.length_take, Nat.min_eq_left (by omega), Nat.min_eq_left (by omega), ← Nat.two_mul] at this
    exact this
  have hvlo := val_lt (dv.take b)
  have hlen2 : (p0.take b ++ v.take b).length = 2 * b := by simp; omega
  -- common end
  have fin : ∀ ts : List Nat, c = 0 → r = r.take (na + nb - 2 * b) ++ ts →
      val (r.take (na + nb - 2 * b)) = val (v.drop b) + val z2 → ts.length = os.length →
      (∀ i : Nat, ts[i]? = os[i]? ∨ ts[i]? = some 0) →
      (∀ i : Nat, 3 * b < na + nb + i → ts[i]? = os[i]?) →
      wp env E (do cassert (c = 0); s_free t; pure 1) Q
        (((mk.splice dc p0).splice (dc.add b) v).splice (dc.add (2 * b)) r) := by
    intro ts hc0 hr hv1 lts h1 h2
    refine wp_bind (wp_cassert (by simp [hc0]) ?_)
    obtain ⟨l, hl⟩ := hs4.a1.dig_ne_none (by omega)
    rw [hs.ht] at hl
    have hx := hs4.ex
    rw [hmm2] at hx
    unfold s_free
    rw [hs.ht]
    refine wp_bind (wp_freeD hl ?_)
    rw [show Mem.setDig _ _ _ = _ from hx, hr, ← List.append_assoc]
    refine wp_pure (h _ ts ?_ ?_ ?_ lts h1 h2)
    · simp only [List.length_append, List.length_take]; omega
    · simp [dp0.take, dv.take, dr.take]
    · rw [val_append, hlen2, val_append, List.length_take, Nat.min_eq_left (by omega), hv1, eP2, ← hvs]
      ring
  by_cases hcase : na + nb = 3 * b
  · -- one digit above the product is cleared
    have hRd : R.drop (b + 1) = os.drop 1 := by
      rw [← hR, List.drop_append, List.drop_eq_nil_of_le (by simp; omega), List.nil_append]
      congr 1; simp; omega
    rw [hRd, val_append, List.length_drop, lv] at er
    have hJ : na + nb - 2 * b = b := by omega
    rw [hJ] at hh fin
    have er' : val r + 𝔹 ^ (2 * b) * c = (val (v.drop b) + val z2) + 𝔹 ^ b * (𝔹 * val (os.drop 1)) := by
      rw [er, show 2 * b + 1 - b = b + 1 by omega]; ring
    have hos1 := val_lt (dos.drop 1)
    rw [List.length_drop, show os.length - 1 = b - 1 by omega] at hos1
    have hc0 : c = 0 := by
      rcases Nat.eq_zero_or_pos c with h0 | h0
      · exact h0
      · have h4 : 𝔹 ^ (2 * b) * 1 ≤ 𝔹 ^ (2 * b) * c := Nat.mul_le_mul_left _ h0
        have h5 : 𝔹 * (val (os.drop 1) + 1) ≤ 𝔹 * 𝔹 ^ (b - 1) := Nat.mul_le_mul_left _ hos1
        have h6 : 𝔹 * 𝔹 ^ (b - 1) = 𝔹 ^ b := by rw [← Nat.pow_succ', show (b - 1).succ = b by omega]
        have h7 : 𝔹 ^ b * (𝔹 * (val (os.drop 1) + 1)) ≤ 𝔹 ^ b * 𝔹 ^ b := Nat.mul_le_mul_left _ (h6 ▸ h5)
        have h8 : 𝔹 ^ b * 𝔹 ^ b = 𝔹 ^ (2 * b) := by rw [← Nat.pow_add, Nat.two_mul]
        have h9 : 𝔹 ^ b * (𝔹 * (val (os.drop 1) + 1)) = 𝔹 ^ b * (𝔹 * val (os.drop 1)) + 𝔹 * 𝔹 ^ b := by ring
        omega
    rw [hc0, Nat.mul_zero, Nat.add_zero] at er'
    have hsp := val_split dr (by omega) hh er'
    have hdrop : r.drop b = 0 :: os.drop 1 := by
      refine val_inj (dr.drop b) (Dig_cons.2 ⟨by decide, dos.drop 1⟩) (by simp; omega) ?_
      rw [hsp.2]; simp
    refine fin (0 :: os.drop 1) hc0 ?_ hsp.1 (by simp; omega) ?_ ?_
    · rw [← hdrop, List.take_append_drop]
    · intro i
      cases i with
      | zero => exact .inr rfl
      | succ i => left; simp
    · intro i hi
      cases i with
      | zero => omega
      | succ i => simp
  · have hRd : R.drop (b + 1) = List.replicate (na + nb - 3 * b - 1) 0 ++ os := by
      rw [← hR, List.drop_append_of_le_length (by simp; omega), List.drop_replicate]
      congr 2; omega
    rw [hRd, val_append, List.length_drop, lv, val_append, val_replicate_zero, Nat.zero_add,
      List.length_replicate] at er
    have er' : val r + 𝔹 ^ (2 * b) * c = (val (v.drop b) + val z2) + 𝔹 ^ (na + nb - 2 * b) * val os := by
      rw [er, ← Nat.mul_assoc, ← Nat.pow_add, show 2 * b + 1 - b + (na + nb - 3 * b - 1) = na + nb - 2 * b by omega]
      ring
    have hos1 := val_lt dos
    have hc0 : c = 0 := by
      rcases Nat.eq_zero_or_pos c with h0 | h0
      · exact h0
      · have h4 : 𝔹 ^ (2 * b) * 1 ≤ 𝔹 ^ (2 * b) * c := Nat.mul_le_mul_left _ h0
        have h5 : 𝔹 ^ (na + nb - 2 * b) * (val os + 1) ≤ 𝔹 ^ (na + nb - 2 * b) * 𝔹 ^ os.length :=
          Nat.mul_le_mul_left _ hos1
        have h6 : 𝔹 ^ (na + nb - 2 * b) * 𝔹 ^ os.length = 𝔹 ^ (2 * b) := by
          rw [← Nat.pow_add]; congr 1; omega
        have h9 : 𝔹 ^ (na + nb - 2 * b) * (val os + 1) = 𝔹 ^ (na + nb - 2 * b) * val os + 𝔹 ^ (na + nb - 2 * b) := by ring
        omega
    rw [hc0, Nat.mul_zero, Nat.add_zero] at er'
    have hsp := val_split dr (by omega) hh er'
    have hdrop : r.drop (na + nb - 2 * b) = os :=
      val_inj (dr.drop _) dos (by simp; omega) hsp.2
    refine fin os hc0 ?_ hsp.1 rfl (fun i => .inl rfl) (fun i _ => rfl)
    conv => rhs; rw [← hdrop]
    rw [List.take_append_drop]

theorem kmulBody_spec {rec : Ptr → Ptr → Ptr → Nat → Nat → M Int} {N na nb : Nat}
    {da db dc : Ptr} {m : Mem} {xs ys os : List Nat} {Q : Int → Mem → Prop}
    (hrec : KSimple env E rec N) (hN : na ≤ N + 1) (hE : Ref env E)
    (hp : KPre m da db dc na nb xs ys os) (hab : nb ≤ na)
    (h : ∀ (ps ts : List Nat) (n' : Nat), ps.length = na + nb → Dig ps → val ps = val xs * val ys →
      ts.length = os.length → (∀ i : Nat, ts[i]? = os[i]? ∨ ts[i]? = some 0) →
      (∀ i : Nat, 2 * max na nb ≤ na + nb + i → ts[i]? = os[i]?) → m.next ≤ n' →
      Q 1 ((m.splice dc (ps ++ ts)).bump n')) :
    wp env E (kmulBody rec da db dc na nb) Q m := by
  have hna2 := hp.na2
  have hthr := hp.thr
  have lx := hp.lx
  have ly := hp.ly
  have lo := hp.lo
  have hda := hp.hda
  have hdb := hp.hdb
  rw [Nat.max_eq_left hab] at lo h hda hdb
  unfold kmulBody
  refine wp_bind (wp_getMem ?_)
  have eb : u32 (na + 1) = na + 1 := u32_of_lt (by omega)
  simp only [eb]
  refine wp_ite (fun hc => ?_) (fun hc => ?_)
  · obtain ⟨_, hc1, hc2⟩ := hc
    have ea : sub32 na ((na + 1) / 2) = na - (na + 1) / 2 := sub32_of_le (by omega) (by omega)
    have ebt : sub32 nb ((na + 1) / 2) = nb - (na + 1) / 2 := sub32_of_le (by omega) (by omega)
    rw [ea, ebt]
    unfold kext at lo hda hdb
    have hdcb : dc.base ≠ .heap m.next := hp.fresh.base_ne hp.ho (by simp; omega)
    have hxs := val_take_add_drop xs ((na + 1) / 2)
    have hys := val_take_add_drop ys ((na + 1) / 2)
    have hlx := val_lt hp.dx
    have hly := val_lt hp.dy
    have hb1 : 4 ≤ (na + 1) / 2 := by omega
    have hb2 : na ≤ 2 * ((na + 1) / 2) := by omega
    have hb3 : 2 * ((na + 1) / 2) ≤ na + 1 := by omega
    generalize (na + 1) / 2 = b at *
    rw [Nat.min_eq_left (by omega)] at hxs hys
    refine kmul_scratch (m := m) (xs0 := xs.take b) (xs1 := xs.drop b) (ys0 := ys.take b)
      (ys1 := ys.drop b) (K := fun t => do
        COPY t dc (u32 (2 * b))
        let carry ← s_uadd ((t.add (u32 (2 * b))).add (u32 (2 * b))) (dc.add b) (dc.add b)
          (u32 (u32 (2 * b) + 1)) (u32 (2 * b))
        cassert (carry = 0)
        let carry ← s_uadd (t.add (u32 (2 * b))) (dc.add (u32 (2 * b))) (dc.add (u32 (2 * b)))
          (u32 (2 * b)) (u32 (2 * b))
        cassert (carry = 0)
        s_free t
        pure 1) hrec (by omega) hE hb1 (by omega) (by omega) (by omega) (by omega)
      (by omega) hp.fresh hp.thr (hp.hx.take b) (hp.hx.drop b) (hp.hy.take b) (hp.hy.drop b)
      (by simp; omega) (by simp; omega) (by simp; omega) (by simp; omega)
      (hp.dx.take b) (hp.dx.drop b) (hp.dy.take b) (hp.dy.drop b) ?_
    intro mk k n t p0 z2 q hs hk hkn dp0 dz2 dq ep0 ez2 eq
    have hdcb2 : dc.base ≠ .heap k := by
      intro hh
      have h1 := hp.ho.get (i := 0) (by simp; omega)
      unfold Mem.get at h1
      rw [hh, hp.fresh k hk] at h1
      simp at h1
    have hm1 : val (xs.take b) * val (ys.drop b) ≤ 𝔹 ^ b * 𝔹 ^ b := by
      have h1 := val_lt (hp.dx.take b)
      have h2 := val_lt (hp.dy.drop b)
      have h3 : 𝔹 ^ (ys.drop b).length ≤ 𝔹 ^ b := Nat.pow_le_pow_right (by decide) (by simp; omega)
      have h4 : 𝔹 ^ (xs.take b).length ≤ 𝔹 ^ b := Nat.pow_le_pow_right (by decide) (by rw [List.length_take]; omega)
      exact Nat.mul_le_mul (by omega) (by omega)
    have hm2 : val (xs.drop b) * val (ys.take b) ≤ 𝔹 ^ b * 𝔹 ^ b := by
      have h1 := val_lt (hp.dx.drop b)
      have h2 := val_lt (hp.dy.take b)
      have h3 : 𝔹 ^ (xs.drop b).length ≤ 𝔹 ^ b := Nat.pow_le_pow_right (by decide) (by simp; omega)
      have h4 : 𝔹 ^ (ys.take b).length ≤ 𝔹 ^ b := Nat.pow_le_pow_right (by decide) (by rw [List.length_take]; omega)
      exact Nat.mul_le_mul (by omega) (by omega)
    have h2b : 𝔹 ^ (2 * b) = 𝔹 ^ b * 𝔹 ^ b := by rw [← Nat.pow_add, Nat.two_mul]
    refine kmul_combine (na := na) (nb := nb) (os := os) (P := val xs * val ys) hs hdcb2 hb1 (by omega) (by omega) (by omega)
      hp.ho (by omega) hp.dos dp0 dz2 dq eq (by rw [h2b]; omega) ?_ ?_ ?_
    · rw [ep0, ez2, ← hxs, ← hys]; ring
    · rw [Nat.pow_add, ← lx, ← ly]
      exact Nat.mul_lt_mul'' hlx hly
    · intro ps ts h1 h2 h3 h4 h5 h6
      exact h ps ts n h1 h2 h3 h4 h5 (fun i hi => h6 i (by omega)) (by omega)
  · refine wp_bind (s_umul_spec hp.hx hp.hy (At_append.1 hp.ho).1 lx ly hp.dx hp.dy
      (hda.mono (Nat.le_refl _) (by unfold kext; omega))
      (hdb.mono (Nat.le_refl _) (by unfold kext; omega)) ?_)
    intro zs lz dz ez
    have := h zs os m.next lz dz ez rfl (fun i => .inl rfl) (fun i _ => rfl) (Nat.le_refl _)
    refine wp_pure ?_
    rw [← Mem.splice_append] at this
    have h9 : At (m.splice dc zs) (dc.add zs.length) os := by
      have := (At_append.1 hp.ho).2
      simp only [List.length_replicate] at this
      rw [lz]
      refine this.splice_disj (.inr (.inr ?_))
      simp [lz]
    rw [h9.splice_same] at this
    exact this

theorem KPre.swap {m : Mem} {da db dc : Ptr} {na nb : Nat} {xs ys os : List Nat}
    (h : KPre m da db dc na nb xs ys os) : KPre m db da dc nb na ys xs os :=
  ⟨h.hy, h.hx, by rw [Nat.add_comm]; exact h.ho, h.ly, h.lx,
    by have := h.lo; rw [Nat.max_comm]; omega, h.dy, h.dx, h.dos,
    by rw [Nat.max_comm]; exact h.hdb, by rw [Nat.max_comm]; exact h.hda, h.fresh, h.thr, h.nb1,
    h.na1, h.nb2, h.na2⟩

theorem kmulF_gen (f N : Nat) (hf : N < f) (hE : Ref env E) :
    KGen env E (kmulF f) N := by
  induction f generalizing N with
  | zero => omega
  | succ f ih =>
    intro da db dc na nb m xs ys os Q hp hN h
    unfold kmulF
    have hrec : ∀ k, k ≤ N → k ≤ 1 ∨ KSimple env E (kmulF f) (k - 1) := by
      intro k hk
      by_cases h1 : k ≤ 1
      · exact .inl h1
      · exact .inr (ih (k - 1) (by omega)).simple
    have hs : KSimple env E (kmulF f) (N - 1) := by
      by_cases h1 : N ≤ 0
      · have := hp.na1; omega
      · exact (ih (N - 1) (by omega)).simple
    refine wp_ite (fun hc => ?_) (fun hc => ?_)
    · refine kmulBody_spec hs (by omega) hE hp.swap (by omega) ?_
      intro ps ts n' h1 h2 h3 h4 h5 h6 h7
      exact h ps ts n' (by omega) h2 (by rw [h3, Nat.mul_comm]) h4 h5
        (fun i hi => h6 i (by rw [Nat.max_comm]; omega)) h7
    · exact kmulBody_spec hs (by omega) hE hp (by omega) h

/-- `s_kmul` computes the product. -/
theorem s_kmul_gen {da db dc : Ptr} {na nb : Nat} {m : Mem} {xs ys os : List Nat}
    {Q : Int → Mem → Prop} (hE : Ref env E)
    (hp : KPre m da db dc na nb xs ys os)
    (h : ∀ (ps ts : List Nat) (n' : Nat), ps.length = na + nb → Dig ps → val ps = val xs * val ys →
      ts.length = os.length → (∀ i : Nat, ts[i]? = os[i]? ∨ ts[i]? = some 0) →
      (∀ i : Nat, 2 * max na nb ≤ na + nb + i → ts[i]? = os[i]?) → m.next ≤ n' →
      Q 1 ((m.splice dc (ps ++ ts)).bump n')) :
    wp env E (s_kmul da db dc na nb) Q m :=
  kmulF_gen (na + nb + 1) (max na nb) (by omega) hE da db dc na nb m xs ys os Q hp (Nat.le_refl _) h

theorem s_kmul_simple {da db dc : Ptr} {na nb : Nat} {m : Mem} {xs ys os : List Nat}
    {Q : Int → Mem → Prop} (hE : Ref env E)
    (hp : KPre m da db dc na nb xs ys os)
    (hz : ∀ i : Nat, na + nb + i < 2 * max na nb → os[i]? = some 0)
    (h : ∀ (ps : List Nat) (n' : Nat), ps.length = na + nb → Dig ps → val ps = val xs * val ys →
      m.next ≤ n' → Q 1 ((m.splice dc ps).bump n')) :
    wp env E (s_kmul da db dc na nb) Q m :=
  (kmulF_gen (na + nb + 1) (max na nb) (by omega) hE).simple da db dc na nb m xs ys os Q hp
    (Nat.le_refl _) hz h

end Imath
