import Verif.Proof.Kernels

/-! # Schoolbook multiplication, digit lists, allocation -/

namespace Imath

variable {env : Env} {E : Fault → Prop}

theorem Behind.of_disj {p q : Ptr} {n k : Nat} (h : Disj p n q k) : Behind q p n := by
  intro hb
  rcases h with h | h | h
  · exact absurd hb.symm h
  · exact .inr h
  · exact .inl (by omega)

theorem Disj.mono {p q : Ptr} {n k n' k' : Nat} (h : Disj p n q k) (h1 : n' ≤ n) (h2 : k' ≤ k) :
    Disj p n' q k' := by
  rcases h with h | h | h
  · exact .inl h
  · exact .inr (.inl (by omega))
  · exact .inr (.inr (by omega))

theorem Disj.of_base {p q : Ptr} {n k : Nat} (h : p.base ≠ q.base) : Disj p n q k := .inl h

theorem Mem.splice_over_le (m : Mem) (p : Ptr) (xs ys : List Nat) (h : xs.length ≤ ys.length) :
    (m.splice p xs).splice p ys = m.splice p ys := by
  apply Mem.ext' <;> try (intros; rfl)
  intro b
  simp only [Mem.splice]
  split
  · simp only [Option.map_map]; congr 1; funext l
    apply List.ext_getElem?; intro i
    simp only [Function.comp, getElem?_spliceL, Option.map_map]
    congr 1; funext x
    simp only [Function.comp]
    split
    · by_cases hi : i - p.off < ys.length
      · rw [List.getElem?_eq_getElem hi]; rfl
      · rw [List.getElem?_eq_none (by omega), List.getElem?_eq_none (by omega)]; rfl
    · rfl
  · rfl

/-- A later write covers the tail of an earlier one. -/
theorem Mem.splice_tail (m : Mem) (p : Ptr) (xs ys zs : List Nat) (h : ys.length ≤ zs.length) :
    (m.splice p (xs ++ ys)).splice (p.add xs.length) zs = m.splice p (xs ++ zs) := by
  rw [← Mem.splice_append, Mem.splice_over_le _ _ _ _ h, Mem.splice_append]

/-- Writing back what is there changes nothing. -/
theorem At.splice_same {m : Mem} {p : Ptr} {xs : List Nat} (h : At m p xs) : m.splice p xs = m := by
  apply Mem.ext' <;> try (intros; rfl)
  intro b
  simp only [Mem.splice]
  split
  · rename_i hb
    cases hm : m.dig b with
    | none => rfl
    | some l =>
      simp only [Option.map_some, Option.some.injEq]
      apply List.ext_getElem?; intro i
      rw [getElem?_spliceL]
      by_cases hi : p.off ≤ i
      · simp only [hi, if_true]
        by_cases hi2 : i - p.off < xs.length
        · have h3 := h (i - p.off) xs[i - p.off] (List.getElem?_eq_getElem hi2)
          unfold Mem.get at h3
          rw [← hb, hm] at h3
          simp only [Nat.add_sub_cancel' hi] at h3
          rw [List.getElem?_eq_getElem hi2, h3]; rfl
        · rw [List.getElem?_eq_none (i := i - p.off) (by omega)]; simp
      · simp [hi]
  · rfl

/-! ### digit lists are determined by their value -/

/-- The `n` lowest digits of `x`. -/
def toDigits : Nat → Nat → List Nat
  | 0, _ => []
  | n + 1, x => x % 𝔹 :: toDigits n (x / 𝔹)

@[simp] theorem length_toDigits (n x : Nat) : (toDigits n x).length = n := by
  induction n generalizing x with
  | zero => rfl
  | succ n ih => simp [toDigits, ih]

theorem Dig_toDigits (n x : Nat) : Dig (toDigits n x) := by
  induction n generalizing x with
  | zero => simp [toDigits]
  | succ n ih => simp only [toDigits, Dig_cons]; exact ⟨Nat.mod_lt _ (by decide), ih _⟩

theorem val_toDigits (n x : Nat) : val (toDigits n x) = x % 𝔹 ^ n := by
  induction n generalizing x with
  | zero => simp [toDigits, Nat.mod_one]
  | succ n ih =>
    simp only [toDigits, val_cons, ih, Nat.pow_succ, Nat.mul_comm (𝔹 ^ n) 𝔹]
    rw [Nat.mod_mul]

theorem toDigits_val {xs : List Nat} (h : Dig xs) : toDigits xs.length (val xs) = xs := by
  induction xs with
  | nil => rfl
  | cons x xs ih =>
    rw [Dig_cons] at h
    simp only [List.length_cons, toDigits, val_cons]
    have h1 : (x + 𝔹 * val xs) % 𝔹 = x := by omega
    have h2 : (x + 𝔹 * val xs) / 𝔹 = val xs := by omega
    rw [h1, h2, ih h.2]

theorem val_inj {xs ys : List Nat} (hx : Dig xs) (hy : Dig ys) (hl : xs.length = ys.length)
    (h : val xs = val ys) : xs = ys := by
  rw [← toDigits_val hx, ← toDigits_val hy, hl, h]

/-- Splitting the value of a digit list at position `j`. -/
theorem val_split {xs : List Nat} (hx : Dig xs) {j h r : Nat} (hj : j ≤ xs.length)
    (hh : h < 𝔹 ^ j) (e : val xs = h + 𝔹 ^ j * r) :
    val (xs.take j) = h ∧ val (xs.drop j) = r := by
  have e1 := val_take_add_drop xs j
  rw [Nat.min_eq_left hj] at e1
  have h1 := val_lt (hx.take j)
  rw [List.length_take, Nat.min_eq_left hj] at h1
  rw [e] at e1
  have h2 : (val (xs.take j) + 𝔹 ^ j * val (xs.drop j)) % 𝔹 ^ j = (h + 𝔹 ^ j * r) % 𝔹 ^ j := by rw [e1]
  rw [Nat.add_mul_mod_self_left, Nat.add_mul_mod_self_left, Nat.mod_eq_of_lt h1,
    Nat.mod_eq_of_lt hh] at h2
  refine ⟨h2, ?_⟩
  rw [h2] at e1
  have h3 : 𝔹 ^ j * val (xs.drop j) = 𝔹 ^ j * r := by omega
  exact Nat.eq_of_mul_eq_mul_left (Nat.pow_pos (by decide)) h3

/-! ### schoolbook multiplication -/

theorem mul_digit_bound {x y w c : Nat} (hx : x < 𝔹) (hy : y < 𝔹) (hw : w < 𝔹) (hc : c < 𝔹) :
    x * y + w + c < 18446744073709551616 := by
  have h1 : x * y ≤ 4294967295 * 4294967295 := Nat.mul_le_mul (by omega) (by omega)
  omega

theorem umulInner_spec {n : Nat} {da dbt dct : Ptr} {w x : Nat} {m : Mem} {ys cs : List Nat}
    {Q : Nat → Mem → Prop} (hx : m.get da.base da.off = some x) (hy : At m dbt ys)
    (hc : At m dct cs) (hly : ys.length = n) (hlc : cs.length = n)
    (hxd : x < 𝔹) (hdy : Dig ys) (hdc : Dig cs)
    (hda : Disj da 1 dct n) (hdb : Disj dbt n dct n) (hw : w < 𝔹)
    (h : ∀ zs w', zs.length = n → Dig zs → w' < 𝔹 →
      val zs + 𝔹 ^ n * w' = w + x * val ys + val cs → Q w' (m.splice dct zs)) :
    wp env E (umulInner da n dbt dct w) Q m := by
  induction n generalizing dbt dct w m ys cs with
  | zero =>
    have h1 : cs = [] := by simpa using hlc
    have h2 : ys = [] := by simpa using hly
    subst h1 h2
    simpa [umulInner] using h [] w rfl (by simp) hw (by simp)
  | succ n ih =>
    match ys, cs, hly, hlc with
    | y :: ys, c :: cs, hly, hlc =>
      simp only [List.length_cons, Nat.add_right_cancel_iff] at hly hlc
      rw [At_cons] at hy hc
      rw [Dig_cons] at hdy hdc
      unfold umulInner
      refine wp_bind (wp_rd hx (wp_bind (wp_rd hy.1 (wp_bind (wp_rd hc.1 ?_)))))
      have hb := mul_digit_bound hxd hdy.1 hw hdc.1
      have hs : u64 (u64 (u64 (x * y) + w) + c) = x * y + w + c := by
        rw [u64_of_lt (x := x * y) (by omega), u64_of_lt (x := x * y + w) (by omega),
          u64_of_lt (by omega)]
      simp only [hs]
      refine wp_bind (wp_wr hc.1 ?_)
      rw [shr32]
      refine ih (ys := ys) (cs := cs) ?_
        (hy.2.after_write (Behind.of_disj (hdb.mono (Nat.le_refl _) (Nat.le_refl _))) hly)
        (hc.2.after_write (Behind.self _ _) rfl) hly hlc hdy.2 hdc.2 ?_ ?_ (by omega) ?_
      · have : At m da [x] := by rw [At_cons]; exact ⟨hx, At_nil⟩
        exact (At_cons.1 (this.splice_disj (hda.mono (by simp) (by simp)))).1
      · rcases hda with hd | hd | hd
        · exact .inl hd
        · exact .inr (.inl (by simp only [Ptr.add_off]; omega))
        · exact .inr (.inr (by simp only [Ptr.add_off]; omega))
      · rcases hdb with hd | hd | hd
        · exact .inl hd
        · exact .inr (.inl (by simp only [Ptr.add_off]; omega))
        · exact .inr (.inr (by simp only [Ptr.add_off]; omega))
      · intro zs w' hl hz hw' e
        rw [Mem.splice_cons]
        refine h _ _ (by simp [hl]) (by simp [hz, u32_lt]) hw' ?_
        rw [pow_succ_mul]
        simp only [val_cons, u32]
        have : x * (y + 𝔹 * val ys) = x * y + 𝔹 * (x * val ys) := by ring
        omega

theorem umulOuter_spec {n nb : Nat} {da db dc : Ptr} {m : Mem} {xs ys cs : List Nat}
    {Q : Unit → Mem → Prop} (hx : At m da xs) (hy : At m db ys)
    (hc : At m dc (cs ++ List.replicate n 0)) (hlx : xs.length = n) (hly : ys.length = nb)
    (hlc : cs.length = nb) (hdx : Dig xs) (hdy : Dig ys) (hdc : Dig cs)
    (hda : Disj da n dc (nb + n)) (hdb : Disj db nb dc (nb + n))
    (h : ∀ zs, zs.length = nb + n → Dig zs → val zs = val cs + val xs * val ys →
      Q () (m.splice dc zs)) :
    wp env E (umulOuter db nb n da dc) Q m := by
  induction n generalizing da dc m xs cs with
  | zero =>
    have h2 : xs = [] := by simpa using hlx
    subst h2
    simp only [umulOuter, wp_pure_iff]
    have hh := h cs (by omega) hdc (by simp)
    rw [At.splice_same (by simpa using hc)] at hh
    exact hh
  | succ n ih =>
    match xs, hlx with
    | x :: xs, hlx =>
      simp only [List.length_cons, Nat.add_right_cancel_iff] at hlx
      have hx' := At_cons.1 hx
      rw [Dig_cons] at hdx
      unfold umulOuter
      refine wp_bind (wp_rd hx'.1 ?_)
      -- common part: after the row, the first nb+1 digits are `fs`
      have key : ∀ (m' : Mem) (f : Nat) (rest : List Nat), m' = m.splice dc (f :: rest) →
          rest.length = nb → f < 𝔹 → Dig rest →
          val (f :: rest) = val cs + x * val ys →
          wp env E (umulOuter db nb n (da.add 1) (dc.add 1)) Q m' := by
        intro m' f rest hm' hlr hf hdr e
        subst hm'
        have hla : (f :: rest).length = nb + 1 := by simp [hlr]
        have hc' : At m dc ((cs ++ [0]) ++ List.replicate n 0) := by
          simpa [List.replicate_succ] using hc
        rw [At_append] at hc'
        refine ih (xs := xs) (cs := rest) ?_ ?_ ?_ hlx hlr hdx.2 hdr ?_ ?_ ?_
        · refine hx'.2.splice_disj ?_
          rcases hda with hd | hd | hd
          · exact .inl hd
          · exact .inr (.inl (by simp only [Ptr.add_off]; omega))
          · exact .inr (.inr (by simp only [Ptr.add_off]; omega))
        · refine hy.splice_disj ?_
          exact hdb.mono (by omega) (by omega)
        · rw [At_append]
          constructor
          · have := hc'.1.splice_self (zs := f :: rest) (by simp [hlr, hlc])
            exact (At_cons.1 this).2
          · have := hc'.2.splice_disj (p := dc) (zs := f :: rest) ?_
            · simpa [hlr, hlc, Nat.add_comm 1] using this
            · refine .inr (.inr ?_)
              simp [hlr, hlc]
        · rcases hda with hd | hd | hd
          · exact .inl hd
          · exact .inr (.inl (by simp only [Ptr.add_off]; omega))
          · exact .inr (.inr (by simp only [Ptr.add_off]; omega))
        · rcases hdb with hd | hd | hd
          · exact .inl hd
          · exact .inr (.inl (by simp only [Ptr.add_off]; omega))
          · exact .inr (.inr (by simp only [Ptr.add_off]; omega))
        · intro zs hlz hz ez
          have := Mem.splice_tail m dc [f] rest zs (by omega)
          simp only [List.length_cons, List.length_nil, List.cons_append, List.nil_append] at this
          rw [this]
          refine h _ (by simp; omega) (by simp [hf, hz]) ?_
          simp only [val_cons] at e ⊢
          rw [ez]
          have : (x + 𝔹 * val xs) * val ys = x * val ys + 𝔹 * (val xs * val ys) := by ring
          omega
      have hc' : At m dc ((cs ++ [0]) ++ List.replicate n 0) := by
        simpa [List.replicate_succ] using hc
      rw [At_append] at hc'
      have hc0 := hc'.1
      refine wp_ite (fun h0 => ?_) (fun h0 => ?_)
      · -- skipped row
        obtain ⟨f, rest, hfr⟩ : ∃ f rest, cs ++ [0] = f :: rest := by
          cases cs with
          | nil => exact ⟨0, [], rfl⟩
          | cons c cs => exact ⟨c, cs ++ [0], rfl⟩
        have hd0 : Dig (f :: rest) := by rw [← hfr]; simp [hdc]
        rw [Dig_cons] at hd0
        have hl0 : (f :: rest).length = nb + 1 := by rw [← hfr]; simp [hlc]
        refine key m f rest ?_ (by simpa using hl0) hd0.1 hd0.2 ?_
        · rw [← hfr, At.splice_same hc0]
        · rw [← hfr, val_append, h0]; simp
      · rw [At_append] at hc0
        refine wp_bind (umulInner_spec (cs := cs) hx'.1 hy hc0.1 hly hlc hdx.1 hdy hdc
          (hda.mono (by omega) (by omega)) (hdb.mono (by omega) (by omega)) (by decide) ?_)
        intro zs w hlz hz hw e
        have hz0 := hc0.2.splice_disj (p := dc) (zs := zs) (.inr (.inr (by simp [hlz, hlc])))
        rw [hlc] at hz0
        refine wp_bind (wp_wr (At_cons.1 hz0).1 ?_)
        rw [← hlz, Mem.splice_append, u32_of_lt hw, hlz]
        obtain ⟨f, rest, hfr⟩ : ∃ f rest, zs ++ [w] = f :: rest := by
          cases zs with
          | nil => exact ⟨w, [], rfl⟩
          | cons c cs => exact ⟨c, cs ++ [w], rfl⟩
        have hd0 : Dig (f :: rest) := by rw [← hfr]; simp [hz, hw]
        rw [Dig_cons] at hd0
        have hl0 : (f :: rest).length = nb + 1 := by rw [← hfr]; simp [hlz]
        refine key _ f rest (by rw [hfr]) (by simpa using hl0) hd0.1 hd0.2 ?_
        rw [← hfr, val_append, hlz]
        simp only [val_cons, val_nil, Nat.mul_zero, Nat.add_zero]
        omega

theorem s_umul_spec {da db dc : Ptr} {na nb : Nat} {m : Mem} {xs ys : List Nat}
    {Q : Unit → Mem → Prop} (hx : At m da xs) (hy : At m db ys)
    (hc : At m dc (List.replicate (na + nb) 0)) (hlx : xs.length = na) (hly : ys.length = nb)
    (hdx : Dig xs) (hdy : Dig ys)
    (hda : Disj da na dc (na + nb)) (hdb : Disj db nb dc (na + nb))
    (h : ∀ zs, zs.length = na + nb → Dig zs → val zs = val xs * val ys →
      Q () (m.splice dc zs)) :
    wp env E (s_umul da db dc na nb) Q m := by
  unfold s_umul
  refine umulOuter_spec (cs := List.replicate nb 0) hx hy ?_ hlx hly (by simp) hdx hdy
    (Dig_replicate_zero _) (hda.mono (by omega) (by omega)) (hdb.mono (by omega) (by omega)) ?_
  · rw [List.replicate_append_replicate, Nat.add_comm]; exact hc
  · intro zs hl hz e
    exact h zs (by omega) hz (by rw [e, val_replicate_zero]; omega)

end Imath
