import Verif.Model.Digits

/-! # Weakest preconditions and lemmas about digit memory -/

namespace Imath

variable {env : Env} {E : Fault → Prop} {α β : Type}

/-- `x` started in `m` ends normally in a state satisfying `Q`, or in a fault that `E` allows.  `E` allows
that a request of memory is refused (`Ref`), and usually nothing else. -/
def wp (env : Env) (E : Fault → Prop) (x : M α) (Q : α → Mem → Prop) (m : Mem) : Prop :=
  match x env m with
  | .ok a m' => Q a m'
  | .fault f => E f

theorem wp_pure {a : α} {Q : α → Mem → Prop} {m : Mem} (h : Q a m) :
    wp env E (pure a : M α) Q m := h

@[simp] theorem wp_pure_iff {a : α} {Q : α → Mem → Prop} {m : Mem} :
    wp env E (pure a : M α) Q m ↔ Q a m := Iff.rfl

theorem wp_bind {x : M α} {f : α → M β} {Q : β → Mem → Prop} {m : Mem}
    (h : wp env E x (fun a m' => wp env E (f a) Q m') m) : wp env E (x >>= f) Q m := by
  unfold wp at *
  show match (M.bind x f) env m with
    | .ok a m' => Q a m'
    | .fault f => E f
  unfold M.bind
  cases hx : x env m with
  | ok a m' => simpa [hx] using h
  | fault g => simp only [hx] at h ⊢; exact h

theorem wp_mono {x : M α} {Q R : α → Mem → Prop} {m : Mem} (h : wp env E x Q m)
    (hQ : ∀ a m', Q a m' → R a m') : wp env E x R m := by
  unfold wp at *
  cases hx : x env m with
  | ok a m' => simp only [hx] at h ⊢; exact hQ _ _ h
  | fault g => simp only [hx] at h ⊢; exact h

/-- A computation that ends in an allowed fault. -/
theorem wp_fault {x : M α} {Q : α → Mem → Prop} {m : Mem} {f : Fault} (h : x env m = .fault f) (hf : E f) : wp env E x Q m := by
  unfold wp; rw [h]; exact hf

theorem wp_ite {c : Prop} [Decidable c] {x y : M α} {Q : α → Mem → Prop} {m : Mem}
    (h1 : c → wp env E x Q m) (h2 : ¬c → wp env E y Q m) :
    wp env E (if c then x else y) Q m := by
  split
  · exact h1 ‹_›
  · exact h2 ‹_›

theorem wp_if_pos {c : Prop} [Decidable c] {x y : M α} {Q : α → Mem → Prop} {m : Mem}
    (hc : c) (h : wp env E x Q m) : wp env E (if c then x else y) Q m := by
  rw [if_pos hc]; exact h

theorem wp_if_neg {c : Prop} [Decidable c] {x y : M α} {Q : α → Mem → Prop} {m : Mem}
    (hc : ¬ c) (h : wp env E y Q m) : wp env E (if c then x else y) Q m := by
  rw [if_neg hc]; exact h

theorem wp_cwhen {c : Prop} [Decidable c] {x : M Unit} {Q : Unit → Mem → Prop} {m : Mem}
    (h1 : c → wp env E x Q m) (h2 : ¬c → Q () m) : wp env E (cwhen c x) Q m := by
  unfold cwhen; exact wp_ite h1 (fun h => wp_pure (h2 h))

theorem wp_cif {c : Prop} [Decidable c] {x y : M α} {Q : α → Mem → Prop} {m : Mem}
    (h1 : c → wp env E x Q m) (h2 : ¬c → wp env E y Q m) : wp env E (cif c x y) Q m := by
  unfold cif; exact wp_ite h1 h2

theorem wp_cassert {c : Bool} {Q : Unit → Mem → Prop} {m : Mem} (hc : c = true) (h : Q () m) :
    wp env E (cassert c) Q m := by
  unfold cassert; rw [if_pos hc]; exact h

theorem wp_getMem {Q : Mem → Mem → Prop} {m : Mem} (h : Q m m) : wp env E getMem Q m := h

/-! ### Words -/

theorem u32_of_lt {x : Nat} (h : x < 4294967296) : u32 x = x := Nat.mod_eq_of_lt h
theorem u64_of_lt {x : Nat} (h : x < 18446744073709551616) : u64 x = x := Nat.mod_eq_of_lt h
theorem u32_lt (x : Nat) : u32 x < 4294967296 := Nat.mod_lt _ (by decide)
theorem sub32_of_le {x y : Nat} (h : y ≤ x) (hx : x < 4294967296) : sub32 x y = x - y := by
  unfold sub32 u32; omega
theorem sub64_of_le {x y : Nat} (h : y ≤ x) (hx : x < 18446744073709551616) : sub64 x y = x - y := by
  unfold sub64 u64; omega
theorem shr32 (x : Nat) : x >>> 32 = x / 4294967296 := by
  rw [Nat.shiftRight_eq_div_pow]
theorem toInt32_of_lt {x : Nat} (h : x < 2147483648) : toInt32 x = (x : Int) := by
  unfold toInt32
  rw [u32_of_lt (by omega), if_pos h]

/-! ### Lists of digits -/

/-- The number denoted by a list of digits, least significant first. -/
def val : List Nat → Nat
  | [] => 0
  | x :: xs => x + 𝔹 * val xs

/-- Every element is a digit. -/
def Dig (xs : List Nat) : Prop := ∀ x ∈ xs, x < 𝔹

@[simp] theorem val_nil : val [] = 0 := rfl
@[simp] theorem val_cons (x : Nat) (xs : List Nat) : val (x :: xs) = x + 𝔹 * val xs := rfl
@[simp] theorem Dig_nil : Dig [] := by simp [Dig]
@[simp] theorem Dig_cons {x : Nat} {xs : List Nat} : Dig (x :: xs) ↔ x < 𝔹 ∧ Dig xs := by
  simp [Dig]
@[simp] theorem Dig_append {xs ys : List Nat} : Dig (xs ++ ys) ↔ Dig xs ∧ Dig ys := by
  simp only [Dig, List.mem_append]
  constructor
  · intro h; exact ⟨fun x hx => h x (.inl hx), fun x hx => h x (.inr hx)⟩
  · rintro ⟨h1, h2⟩ x (hx | hx)
    · exact h1 x hx
    · exact h2 x hx

theorem Dig.take {xs : List Nat} (h : Dig xs) (n : Nat) : Dig (xs.take n) :=
  fun x hx => h x (List.mem_of_mem_take hx)
theorem Dig.drop {xs : List Nat} (h : Dig xs) (n : Nat) : Dig (xs.drop n) :=
  fun x hx => h x (List.mem_of_mem_drop hx)
theorem Dig_replicate_zero (n : Nat) : Dig (List.replicate n 0) := by
  intro x hx; rw [List.mem_replicate] at hx; omega

theorem val_append (xs ys : List Nat) : val (xs ++ ys) = val xs + 𝔹 ^ xs.length * val ys := by
  induction xs with
  | nil => simp
  | cons x xs ih =>
    simp only [List.cons_append, val_cons, ih, List.length_cons, Nat.pow_succ]
    rw [Nat.mul_add, Nat.mul_comm (𝔹 ^ xs.length) 𝔹, Nat.mul_assoc]; omega

theorem val_replicate_zero (n : Nat) : val (List.replicate n 0) = 0 := by
  induction n with
  | zero => rfl
  | succ n ih => simp [List.replicate_succ, ih]

theorem val_lt {xs : List Nat} (h : Dig xs) : val xs < 𝔹 ^ xs.length := by
  induction xs with
  | nil => simp
  | cons x xs ih =>
    simp only [Dig_cons] at h
    have := ih h.2
    simp only [val_cons, List.length_cons, Nat.pow_succ]
    omega

theorem val_take_add_drop (xs : List Nat) (n : Nat) :
    val (xs.take n) + 𝔹 ^ (min n xs.length) * val (xs.drop n) = val xs := by
  conv => rhs; rw [← List.take_append_drop n xs, val_append]
  rw [List.length_take]

/-! ### Slices of memory -/

@[simp] theorem Ptr.add_base (p : Ptr) (i : Nat) : (p.add i).base = p.base := rfl
@[simp] theorem Ptr.add_off (p : Ptr) (i : Nat) : (p.add i).off = p.off + i := rfl
@[simp] theorem Ptr.add_zero (p : Ptr) : p.add 0 = p := rfl
@[simp] theorem Ptr.add_add (p : Ptr) (i j : Nat) : (p.add i).add j = p.add (i + j) := by
  simp [Ptr.add, Nat.add_assoc]

/-- The digits `xs` are stored at `p`. -/
def At (m : Mem) (p : Ptr) (xs : List Nat) : Prop :=
  ∀ i x, xs[i]? = some x → m.get p.base (p.off + i) = some x

@[simp] theorem At_nil {m : Mem} {p : Ptr} : At m p [] := by
  intro i x h; simp at h

theorem At_cons {m : Mem} {p : Ptr} {x : Nat} {xs : List Nat} :
    At m p (x :: xs) ↔ m.get p.base p.off = some x ∧ At m (p.add 1) xs := by
  constructor
  · intro h
    refine ⟨by simpa using h 0 x rfl, ?_⟩
    intro i y hy
    have := h (i + 1) y (by simpa using hy)
    simpa [Nat.add_assoc, Nat.add_comm 1 i] using this
  · rintro ⟨h0, h⟩ i y hy
    cases i with
    | zero => simp at hy; subst hy; simpa using h0
    | succ i =>
      have := h i y (by simpa using hy)
      simpa [Nat.add_assoc, Nat.add_comm 1 i] using this

theorem At_append {m : Mem} {p : Ptr} {xs ys : List Nat} :
    At m p (xs ++ ys) ↔ At m p xs ∧ At m (p.add xs.length) ys := by
  induction xs generalizing p with
  | nil => simp
  | cons x xs ih =>
    simp only [List.cons_append, At_cons, ih, List.length_cons, Ptr.add_add, and_assoc]
    rw [Nat.add_comm 1]

theorem At.get {m : Mem} {p : Ptr} {xs : List Nat} (h : At m p xs) {i : Nat} (hi : i < xs.length) :
    m.get p.base (p.off + i) = some xs[i] := h i _ (by simp [hi])

theorem At.take {m : Mem} {p : Ptr} {xs : List Nat} (h : At m p xs) (n : Nat) :
    At m p (xs.take n) := by
  intro i x hx
  rw [List.getElem?_take] at hx
  split at hx
  · exact h i x hx
  · simp at hx

theorem At.drop {m : Mem} {p : Ptr} {xs : List Nat} (h : At m p xs) (n : Nat) :
    At m (p.add n) (xs.drop n) := by
  intro i x hx
  rw [List.getElem?_drop] at hx
  have := h _ x hx
  simpa [Nat.add_assoc] using this

/-- Overwrite part of a list, from index `off`. -/
def spliceL (l : List Nat) (off : Nat) (zs : List Nat) : List Nat :=
  l.mapIdx fun i x => if off ≤ i then (zs[i - off]?).getD x else x

@[simp] theorem length_spliceL (l : List Nat) (off : Nat) (zs : List Nat) :
    (spliceL l off zs).length = l.length := by simp [spliceL]

theorem getElem?_spliceL (l : List Nat) (off : Nat) (zs : List Nat) (i : Nat) :
    (spliceL l off zs)[i]? =
      l[i]?.map fun x => if off ≤ i then (zs[i - off]?).getD x else x := by
  simp [spliceL]

/-- Overwrite memory at `p` with `zs`. -/
def Mem.splice (m : Mem) (p : Ptr) (zs : List Nat) : Mem :=
  { m with dig := fun b => if b = p.base then (m.dig b).map (spliceL · p.off zs) else m.dig b }

theorem Mem.get_splice (m : Mem) (p : Ptr) (zs : List Nat) (b : Base) (i : Nat) :
    (m.splice p zs).get b i =
      if b = p.base then
        (m.get b i).map fun x => if p.off ≤ i then (zs[i - p.off]?).getD x else x
      else m.get b i := by
  unfold Mem.get Mem.splice
  by_cases hb : b = p.base
  · simp only [hb, if_true]
    cases m.dig p.base with
    | none => simp
    | some l => simp [getElem?_spliceL]
  · simp [hb]

theorem Mem.ext' {m m' : Mem} (h1 : ∀ b, m.dig b = m'.dig b) (h2 : ∀ z, m.int z = m'.int z)
    (h3 : m.next = m'.next) (h4 : m.defPrec = m'.defPrec) (h5 : m.mulThr = m'.mulThr) : m = m' := by
  cases m; cases m'
  simp only at *
  simp only [Mem.mk.injEq]
  exact ⟨funext h1, funext h2, h3, h4, h5⟩

@[simp] theorem spliceL_nil (l : List Nat) (off : Nat) : spliceL l off [] = l := by
  apply List.ext_getElem?; intro i; rw [getElem?_spliceL]; simp

@[simp] theorem Mem.splice_nil (m : Mem) (p : Ptr) : m.splice p [] = m := by
  apply Mem.ext' <;> intros <;> simp [Mem.splice]

theorem spliceL_append (l : List Nat) (off : Nat) (xs ys : List Nat) :
    spliceL (spliceL l off xs) (off + xs.length) ys = spliceL l off (xs ++ ys) := by
  apply List.ext_getElem?; intro i
  simp only [getElem?_spliceL, Option.map_map]
  congr 1; funext x
  simp only [Function.comp]
  by_cases h1 : off ≤ i
  · by_cases h2 : off + xs.length ≤ i
    · have h3 : xs[i - off]? = none := by rw [List.getElem?_eq_none]; omega
      rw [if_pos h1, if_pos h1, if_pos h2, h3, List.getElem?_append_right (by omega)]
      simp only [Option.getD_none]
      congr 2; omega
    · rw [if_pos h1, if_pos h1, if_neg h2, List.getElem?_append_left (by omega)]
  · rw [if_neg h1, if_neg h1, if_neg (by omega)]

theorem Mem.splice_append (m : Mem) (p : Ptr) (xs ys : List Nat) :
    (m.splice p xs).splice (p.add xs.length) ys = m.splice p (xs ++ ys) := by
  apply Mem.ext' <;> try (intros; rfl)
  intro b
  simp only [Mem.splice, Ptr.add_base, Ptr.add_off]
  split
  · simp only [Option.map_map]; congr 1; funext l; exact spliceL_append _ _ _ _
  · rfl

theorem Mem.splice_cons (m : Mem) (p : Ptr) (x : Nat) (ys : List Nat) :
    (m.splice p [x]).splice (p.add 1) ys = m.splice p (x :: ys) := by
  simpa using Mem.splice_append m p [x] ys

theorem spliceL_spliceL_of_le (l : List Nat) (off k : Nat) (xs ys : List Nat)
    (h : k + ys.length ≤ xs.length) :
    spliceL (spliceL l off xs) (off + k) ys = spliceL l off (spliceL xs k ys) := by
  apply List.ext_getElem?; intro i
  simp only [getElem?_spliceL, Option.map_map]
  congr 1; funext x
  simp only [Function.comp]
  by_cases h1 : off ≤ i
  · rw [if_pos h1, if_pos h1]
    by_cases h2 : off + k ≤ i
    · rw [if_pos h2]
      by_cases h3 : i - off < xs.length
      · rw [List.getElem?_eq_getElem h3]
        simp only [Option.map_some, Option.getD_some, if_pos (show k ≤ i - off by omega)]
        congr 2; omega
      · rw [List.getElem?_eq_none (by omega)]
        simp only [Option.getD_none]
        rw [List.getElem?_eq_none (by omega)]; rfl
    · rw [if_neg h2]
      cases xs[i - off]? with
      | none => rfl
      | some y => simp only [Option.map_some, Option.getD_some, if_neg (show ¬ k ≤ i - off by omega)]
  · rw [if_neg h1, if_neg h1, if_neg (by omega)]

theorem Mem.splice_splice_of_le (m : Mem) (p : Ptr) (k : Nat) (xs ys : List Nat)
    (h : k + ys.length ≤ xs.length) :
    (m.splice p xs).splice (p.add k) ys = m.splice p (spliceL xs k ys) := by
  apply Mem.ext' <;> try (intros; rfl)
  intro b
  simp only [Mem.splice, Ptr.add_base, Ptr.add_off]
  split
  · simp only [Option.map_map]; congr 1; funext l; exact spliceL_spliceL_of_le _ _ _ _ _ h
  · rfl

theorem spliceL_self (xs ys : List Nat) (h : xs.length = ys.length) : spliceL xs 0 ys = ys := by
  apply List.ext_getElem?; intro i
  rw [getElem?_spliceL]
  simp only [Nat.zero_le, if_true, Nat.sub_zero]
  by_cases hi : i < xs.length
  · rw [List.getElem?_eq_getElem hi, List.getElem?_eq_getElem (h ▸ hi)]; rfl
  · rw [List.getElem?_eq_none (by omega), List.getElem?_eq_none (by omega)]; rfl

theorem Mem.splice_over (m : Mem) (p : Ptr) (xs ys : List Nat) (h : xs.length = ys.length) :
    (m.splice p xs).splice p ys = m.splice p ys := by
  have := Mem.splice_splice_of_le m p 0 xs ys (by omega)
  rwa [spliceL_self _ _ h] at this

/-- Two pointers with extents do not overlap. -/
def Disj (p : Ptr) (n : Nat) (q : Ptr) (k : Nat) : Prop :=
  p.base ≠ q.base ∨ p.off + n ≤ q.off ∨ q.off + k ≤ p.off

theorem Disj.symm {p q : Ptr} {n k : Nat} (h : Disj p n q k) : Disj q k p n := by
  unfold Disj at *
  rcases h with h | h | h
  · exact .inl (Ne.symm h)
  · exact .inr (.inr h)
  · exact .inr (.inl h)

theorem At.splice_disj {m : Mem} {p q : Ptr} {xs zs : List Nat} (h : At m q xs)
    (hd : Disj q xs.length p zs.length) : At (m.splice p zs) q xs := by
  intro i x hx
  have hi : i < xs.length := by
    rcases Nat.lt_or_ge i xs.length with h' | h'
    · exact h'
    · rw [List.getElem?_eq_none h'] at hx; simp at hx
  rw [Mem.get_splice, h i x hx]
  split
  · rename_i hb
    simp only [Option.map_some]
    split
    · rw [List.getElem?_eq_none]; · rfl
      rcases hd with hd | hd | hd
      · exact absurd hb hd
      · omega
      · omega
    · rfl
  · rfl

theorem At.splice_self {m : Mem} {p : Ptr} {os zs : List Nat} (h : At m p os)
    (hl : zs.length = os.length) : At (m.splice p zs) p zs := by
  intro i x hx
  have hi : i < zs.length := by
    rcases Nat.lt_or_ge i zs.length with h' | h'
    · exact h'
    · rw [List.getElem?_eq_none h'] at hx; simp at hx
  rw [Mem.get_splice, if_pos rfl, h.get (hl ▸ hi)]
  simp only [Option.map_some, if_pos (Nat.le_add_right p.off i), Nat.add_sub_cancel_left, hx,
    Option.getD_some]

theorem Mem.splice_comm (m : Mem) {p q : Ptr} {xs ys : List Nat}
    (hd : Disj p xs.length q ys.length) :
    (m.splice p xs).splice q ys = (m.splice q ys).splice p xs := by
  apply Mem.ext' <;> try (intros; rfl)
  intro b
  simp only [Mem.splice]
  by_cases h1 : b = q.base
  · by_cases h2 : b = p.base
    · rw [if_pos h1, if_pos h2, if_pos h2, if_pos h1]
      simp only [Option.map_map]; congr 1; funext l
      apply List.ext_getElem?; intro i
      simp only [Function.comp, getElem?_spliceL, Option.map_map]
      congr 1; funext x
      simp only [Function.comp]
      have hd' : p.off + xs.length ≤ q.off ∨ q.off + ys.length ≤ p.off := by
        rcases hd with h | h
        · exact absurd (h2.symm.trans h1) h
        · exact h
      by_cases h3 : p.off ≤ i ∧ i < p.off + xs.length
      · rw [if_pos h3.1, if_pos h3.1]
        rw [List.getElem?_eq_getElem (show i - p.off < xs.length by omega)]
        split
        · rw [List.getElem?_eq_none (show ys.length ≤ i - q.off by omega)]; rfl
        · rfl
      · have key : ∀ y, (if p.off ≤ i then (xs[i - p.off]?).getD y else y) = y := by
          intro y
          split
          · rw [List.getElem?_eq_none (by omega)]; rfl
          · rfl
        rw [key, key]
    · simp only [if_neg h2, if_pos h1]
  · simp [h1]

/-! ### Reading and writing -/

theorem wp_rd {p : Ptr} {Q : Nat → Mem → Prop} {m : Mem} {x : Nat}
    (hx : m.get p.base p.off = some x) (h : Q x m) : wp env E (rd p) Q m := by
  unfold wp rd; rw [hx]; exact h

theorem wr_eq {p : Ptr} {x : Nat} {m : Mem} (h : (m.get p.base p.off).isSome) :
    wr p x env m = .ok () (m.splice p [x]) := by
  unfold wr
  unfold Mem.get at h
  cases hm : m.dig p.base with
  | none => simp [hm] at h
  | some l =>
    simp only [hm, Option.isSome_iff_ne_none, ne_eq, List.getElem?_eq_none_iff, Nat.not_le] at h
    simp only [h, if_true]
    congr 1
    apply Mem.ext' <;> try (intros; rfl)
    intro b
    simp only [Mem.setDig, Mem.splice]
    split
    · rename_i hb
      rw [hb, hm]; simp only [Option.map_some]; congr 1
      apply List.ext_getElem?; intro i
      rw [getElem?_spliceL, List.getElem?_set]
      by_cases hi : p.off = i
      · subst hi; simp [h]
      · rw [if_neg hi]
        by_cases h2 : p.off ≤ i
        · rw [show (fun y => if p.off ≤ i then ([x][i - p.off]?).getD y else y) = id from ?_]
          · simp
          · funext y; rw [if_pos h2, List.getElem?_eq_none (by simp; omega)]; rfl
        · simp [h2]
    · rfl

theorem wp_wr {p : Ptr} {x y : Nat} {Q : Unit → Mem → Prop} {m : Mem}
    (hx : m.get p.base p.off = some y) (h : Q () (m.splice p [x])) : wp env E (wr p x) Q m := by
  unfold wp; rw [wr_eq (by simp [hx])]; exact h

end Imath
