import Verif.Proof.Mem
import Mathlib.Tactic.Ring
import Mathlib.Tactic.Linarith

/-! # Specifications of the digit loops: copying, comparing, adding, subtracting -/

namespace Imath

variable {env : Env} {E : Fault → Prop}

/-- A loop that writes upwards from `dc` while reading `n` digits upwards from `q` (reading each
before the corresponding write) reads the original digits. -/
def Behind (dc q : Ptr) (n : Nat) : Prop := dc.base = q.base → dc.off ≤ q.off ∨ q.off + n ≤ dc.off

theorem Behind.self (p : Ptr) (n : Nat) : Behind p p n := fun _ => .inl (Nat.le_refl _)

theorem Behind.mono {dc q : Ptr} {n k : Nat} (h : Behind dc q n) (hk : k ≤ n) : Behind dc q k := by
  intro hb; have := h hb; omega

theorem Behind.step {dc q : Ptr} {n : Nat} (h : Behind dc q (n + 1)) :
    Behind (dc.add 1) (q.add 1) n := by
  intro hb; have := h hb; simp only [Ptr.add_off]; omega

theorem At.after_write {m : Mem} {q dc : Ptr} {xs : List Nat} {z n : Nat}
    (h : At m (q.add 1) xs) (ha : Behind dc q (n + 1)) (hl : xs.length = n) :
    At (m.splice dc [z]) (q.add 1) xs := by
  apply h.splice_disj
  unfold Disj
  simp only [Ptr.add_base, Ptr.add_off, List.length_cons, List.length_nil]
  by_cases hb : q.base = dc.base
  · have := ha hb.symm; omega
  · exact .inl hb

theorem pow_succ_mul (n w : Nat) : 𝔹 ^ (n + 1) * w = 𝔹 * (𝔹 ^ n * w) := by ring

/-! ### fill, copy -/

theorem fillZero_spec {n : Nat} {p : Ptr} {m : Mem} {os : List Nat} {Q : Unit → Mem → Prop}
    (ho : At m p os) (hl : os.length = n) (h : Q () (m.splice p (List.replicate n 0))) :
    wp env E (fillZero n p) Q m := by
  induction n generalizing p m os with
  | zero => simpa [fillZero] using h
  | succ n ih =>
    match os, hl with
    | o :: os, hl =>
      rw [At_cons] at ho
      refine wp_bind (wp_wr ho.1 ?_)
      refine ih (ho.2.after_write (Behind.self _ _) rfl) (by simpa using hl) ?_
      rw [Mem.splice_cons]
      exact h

theorem ZERO_spec {n : Nat} {p : Ptr} {m : Mem} {os : List Nat} {Q : Unit → Mem → Prop}
    (ho : At m p os) (hl : os.length = n) (hn : n < 1073741824)
    (h : Q () (m.splice p (List.replicate n 0))) :
    wp env E (ZERO p n) Q m := by
  unfold ZERO
  have : u32 (n * 4) / 4 = n := by unfold u32; omega
  rw [this]
  exact fillZero_spec ho hl h

theorem copyLoop_spec {n : Nat} {p q : Ptr} {m : Mem} {xs os : List Nat} {Q : Unit → Mem → Prop}
    (hx : At m p xs) (ho : At m q os) (hlx : xs.length = n) (hlo : os.length = n)
    (hd : Behind q p n) (h : Q () (m.splice q xs)) :
    wp env E (copyLoop n p q) Q m := by
  induction n generalizing p q m xs os with
  | zero =>
    have : xs = [] := by simpa using hlx
    subst this
    simpa [copyLoop] using h
  | succ n ih =>
    match xs, os, hlx, hlo with
    | x :: xs, o :: os, hlx, hlo =>
      simp only [List.length_cons, Nat.add_right_cancel_iff] at hlx hlo
      rw [At_cons] at hx ho
      refine wp_bind (wp_rd hx.1 (wp_bind (wp_wr ho.1 ?_)))
      refine ih (xs := xs) (os := os) (hx.2.after_write hd hlx)
        (ho.2.after_write (Behind.self _ _) rfl) hlx hlo hd.step ?_
      rw [Mem.splice_cons]; exact h

theorem COPY_spec {n : Nat} {p q : Ptr} {m : Mem} {xs os : List Nat} {Q : Unit → Mem → Prop}
    (hx : At m p xs) (ho : At m q os) (hlx : xs.length = n) (hlo : os.length = n)
    (hd : Disj p n q n) (hn : n < 1073741824) (h : Q () (m.splice q xs)) :
    wp env E (COPY p q n) Q m := by
  unfold COPY
  have : u32 (n * 4) / 4 = n := by unfold u32; omega
  simp only [this]
  unfold Disj at hd
  refine wp_if_neg ?_ (copyLoop_spec hx ho hlx hlo ?_ h)
  · rintro ⟨h1, h2, h3⟩
    rcases hd with hd | hd | hd
    · exact hd h1
    · omega
    · omega
  · intro hb
    rcases hd with hd | hd | hd
    · exact absurd hb.symm hd
    · omega
    · omega

/-! ### clamp -/

/-- The number of digits left after removing leading zeros (but at least one, if there is one). -/
def clampLen (xs : List Nat) : Nat → Nat
  | 0 => 0
  | 1 => 1
  | n + 2 => if xs[n + 1]? = some 0 then clampLen xs (n + 1) else n + 2

theorem clampLoop_spec {p : Ptr} {m : Mem} {xs : List Nat} {n : Nat} {Q : Nat → Mem → Prop}
    (hx : At m p xs) (hn : n ≤ xs.length) (h : Q (clampLen xs n) m) :
    wp env E (clampLoop p n) Q m := by
  induction n with
  | zero => exact h
  | succ n ih =>
    cases n with
    | zero => exact h
    | succ n =>
      unfold clampLoop
      refine wp_bind (wp_rd (hx.get (i := n + 1) (by omega)) ?_)
      simp only [clampLen] at h
      rw [List.getElem?_eq_getElem (by omega)] at h
      by_cases h0 : xs[n + 1] = 0
      · rw [if_pos h0]; rw [if_pos (by rw [h0])] at h; exact ih (by omega) h
      · rw [if_neg h0]; rw [if_neg (by simpa using h0)] at h; exact h

theorem clampLen_le (xs : List Nat) (n : Nat) : clampLen xs n ≤ n := by
  induction n with
  | zero => exact Nat.le_refl _
  | succ n ih =>
    cases n with
    | zero => exact Nat.le_refl _
    | succ n =>
      unfold clampLen; split
      · omega
      · exact Nat.le_refl _

theorem clampLen_pos (xs : List Nat) (n : Nat) (hn : 1 ≤ n) : 1 ≤ clampLen xs n := by
  induction n with
  | zero => omega
  | succ n ih =>
    cases n with
    | zero => exact Nat.le_refl _
    | succ n =>
      unfold clampLen; split
      · exact ih (by omega)
      · omega

theorem clampLen_zero {xs : List Nat} {n i : Nat} (h1 : clampLen xs n ≤ i) (h2 : i < n) :
    xs[i]? = some 0 := by
  induction n with
  | zero => omega
  | succ n ih =>
    cases n with
    | zero => simp only [clampLen] at h1; omega
    | succ n =>
      unfold clampLen at h1
      split at h1
      · by_cases hi : i = n + 1
        · subst hi; assumption
        · exact ih h1 (by omega)
      · omega

theorem clampLen_top {xs : List Nat} {n : Nat} (h : 1 < clampLen xs n) :
    xs[clampLen xs n - 1]? ≠ some 0 := by
  induction n with
  | zero => simp [clampLen] at h
  | succ n ih =>
    cases n with
    | zero => simp [clampLen] at h
    | succ n =>
      unfold clampLen at h ⊢
      split
      · rename_i h0; rw [if_pos h0] at h; exact ih h
      · rename_i h0; simpa using h0

theorem take_succ_eq (xs : List Nat) (n : Nat) (h : n < xs.length) :
    xs.take (n + 1) = xs.take n ++ [xs[n]] := by simp

theorem val_take_succ (xs : List Nat) (n : Nat) (h : n < xs.length) :
    val (xs.take (n + 1)) = val (xs.take n) + 𝔹 ^ n * xs[n] := by
  rw [take_succ_eq xs n h, val_append]
  simp [List.length_take, Nat.min_eq_left (Nat.le_of_lt h)]

theorem val_take_clampLen (xs : List Nat) (n : Nat) (hn : n ≤ xs.length) :
    val (xs.take (clampLen xs n)) = val (xs.take n) := by
  induction n with
  | zero => rfl
  | succ n ih =>
    cases n with
    | zero => rfl
    | succ n =>
      unfold clampLen
      split
      · rename_i h0
        rw [ih (by omega), val_take_succ xs (n + 1) (by omega)]
        rw [List.getElem?_eq_getElem (by omega)] at h0
        simp only [Option.some.injEq] at h0
        rw [h0]; simp
      · rfl

/-! ### compare -/

theorem val_lt_of_top {x y : Nat} {xs ys : List Nat} (hx : Dig xs) (hl : xs.length = ys.length)
    (h : x < y) : val (xs ++ [x]) < val (ys ++ [y]) := by
  rw [val_append, val_append, hl]
  have h1 := val_lt hx
  rw [hl] at h1
  simp only [val_cons, val_nil, Nat.mul_zero, Nat.add_zero]
  have h3 : 𝔹 ^ ys.length * (x + 1) ≤ 𝔹 ^ ys.length * y := Nat.mul_le_mul_left _ h
  rw [Nat.mul_add] at h3
  omega

/-- Three-way comparison of naturals, as the C functions report it. -/
def cmpN (x y : Nat) : Int := if x > y then 1 else if x < y then -1 else 0

theorem s_cdig_spec {da db : Ptr} {m : Mem} {xs ys : List Nat} {n : Nat} {Q : Int → Mem → Prop}
    (hx : At m da xs) (hy : At m db ys) (hlx : n ≤ xs.length) (hly : n ≤ ys.length)
    (hdx : Dig xs) (hdy : Dig ys) (h : Q (cmpN (val (xs.take n)) (val (ys.take n))) m) :
    wp env E (s_cdig da db n) Q m := by
  induction n with
  | zero => simpa [s_cdig, cmpN] using h
  | succ n ih =>
    unfold s_cdig
    refine wp_bind (wp_rd (hx.get (by omega)) (wp_bind (wp_rd (hy.get (by omega)) ?_)))
    rw [take_succ_eq xs n (by omega), take_succ_eq ys n (by omega)] at h
    have hlen : (xs.take n).length = (ys.take n).length := by
      simp only [List.length_take]; omega
    refine wp_ite (fun h1 => ?_) (fun h1 => wp_ite (fun h2 => ?_) (fun h2 => ?_))
    · have := val_lt_of_top (hdy.take n) hlen.symm h1
      rw [cmpN, if_pos this] at h; exact h
    · have := val_lt_of_top (hdx.take n) hlen h2
      rw [cmpN, if_neg (by omega), if_pos this] at h; exact h
    · apply ih (by omega) (by omega)
      have e : xs[n] = ys[n] := by omega
      rw [val_append, val_append, hlen, e] at h
      have : cmpN (val (xs.take n)) (val (ys.take n)) =
          cmpN (val (xs.take n) + 𝔹 ^ (ys.take n).length * val [ys[n]])
            (val (ys.take n) + 𝔹 ^ (ys.take n).length * val [ys[n]]) := by
        unfold cmpN; simp
      rw [this]; exact h

/-! ### add -/

theorem uaddLoop1_spec {n : Nat} {da db dc : Ptr} {w : Nat} {m : Mem} {xs ys os : List Nat}
    {Q : Nat → Mem → Prop} (hx : At m da xs) (hy : At m db ys) (ho : At m dc os)
    (hlx : xs.length = n) (hly : ys.length = n) (hlo : os.length = n)
    (hdx : Dig xs) (hdy : Dig ys)
    (hca : Behind dc da n) (hcb : Behind dc db n)
    (hw : w ≤ 1)
    (h : ∀ zs w', zs.length = n → Dig zs → w' ≤ 1 →
      val zs + 𝔹 ^ n * w' = w + val xs + val ys → Q w' (m.splice dc zs)) :
    wp env E (uaddLoop1 n da db dc w) Q m := by
  induction n generalizing da db dc w m xs ys os with
  | zero =>
    have h1 : xs = [] := by simpa using hlx
    have h2 : ys = [] := by simpa using hly
    subst h1 h2
    simpa [uaddLoop1] using h [] w rfl (by simp) hw (by simp)
  | succ n ih =>
    match xs, ys, os, hlx, hly, hlo with
    | x :: xs, y :: ys, o :: os, hlx, hly, hlo =>
      simp only [List.length_cons, Nat.add_right_cancel_iff] at hlx hly hlo
      rw [At_cons] at hx hy ho
      rw [Dig_cons] at hdx hdy
      unfold uaddLoop1
      refine wp_bind (wp_rd hx.1 (wp_bind (wp_rd hy.1 ?_)))
      have hs : u64 (w + x + y) = w + x + y := u64_of_lt (by omega)
      simp only [hs]
      refine wp_bind (wp_wr ho.1 ?_)
      rw [shr32]
      refine ih (hx.2.after_write hca hlx) (hy.2.after_write hcb hly)
        (ho.2.after_write (Behind.self _ _) rfl) hlx hly hlo hdx.2 hdy.2 hca.step hcb.step (by omega) ?_
      · intro zs w' hl hz hw' e
        rw [Mem.splice_cons]
        refine h _ _ (by simp [hl]) (by simp [hz, u32_lt]) hw' ?_
        rw [pow_succ_mul]
        simp only [val_cons, u32]
        omega

theorem uaddLoop2_spec {n : Nat} {da dc : Ptr} {w : Nat} {m : Mem} {xs os : List Nat}
    {Q : Nat → Mem → Prop} (hx : At m da xs) (ho : At m dc os)
    (hlx : xs.length = n) (hlo : os.length = n) (hdx : Dig xs)
    (hca : Behind dc da n) (hw : w ≤ 1)
    (h : ∀ zs w', zs.length = n → Dig zs → w' ≤ 1 →
      val zs + 𝔹 ^ n * w' = w + val xs → Q w' (m.splice dc zs)) :
    wp env E (uaddLoop2 n da dc w) Q m := by
  induction n generalizing da dc w m xs os with
  | zero =>
    have h1 : xs = [] := by simpa using hlx
    subst h1
    simpa [uaddLoop2] using h [] w rfl (by simp) hw (by simp)
  | succ n ih =>
    match xs, os, hlx, hlo with
    | x :: xs, o :: os, hlx, hlo =>
      simp only [List.length_cons, Nat.add_right_cancel_iff] at hlx hlo
      rw [At_cons] at hx ho
      rw [Dig_cons] at hdx
      unfold uaddLoop2
      refine wp_bind (wp_rd hx.1 ?_)
      have hs : u64 (w + x) = w + x := u64_of_lt (by omega)
      simp only [hs]
      refine wp_bind (wp_wr ho.1 ?_)
      rw [shr32]
      refine ih (hx.2.after_write hca hlx)
        (ho.2.after_write (Behind.self _ _) rfl) hlx hlo hdx.2 hca.step (by omega) ?_
      · intro zs w' hl hz hw' e
        rw [Mem.splice_cons]
        refine h _ _ (by simp [hl]) (by simp [hz, u32_lt]) hw' ?_
        rw [pow_succ_mul]
        simp only [val_cons, u32]
        omega

theorem uaddMain_spec {da db dc : Ptr} {na nb : Nat} {m : Mem} {xs ys os : List Nat}
    {Q : Nat → Mem → Prop} (hx : At m da xs) (hy : At m db ys) (ho : At m dc os)
    (hlx : xs.length = na) (hly : ys.length = nb) (hlo : os.length = na) (hab : nb ≤ na)
    (hdx : Dig xs) (hdy : Dig ys)
    (hca : Behind dc da na) (hcb : Behind dc db nb)
    (h : ∀ zs w', zs.length = na → Dig zs → w' ≤ 1 →
      val zs + 𝔹 ^ na * w' = val xs + val ys → Q w' (m.splice dc zs)) :
    wp env E (uaddMain da db dc na nb) Q m := by
  unfold uaddMain
  have hlx1 : (xs.take nb).length = nb := by simp; omega
  have hlo1 : (os.take nb).length = nb := by simp; omega
  refine wp_bind (uaddLoop1_spec (hx.take nb) hy (ho.take nb) hlx1 hly hlo1
    (hdx.take nb) hdy (hca.mono hab) hcb (by omega) ?_)
  intro zs w hlz hz hw e
  have hlx2 : (xs.drop nb).length = na - nb := by simp; omega
  have hlo2 : (os.drop nb).length = na - nb := by simp; omega
  refine wp_bind (uaddLoop2_spec (xs := xs.drop nb) (os := os.drop nb) ?_ ?_ hlx2 hlo2
    (hdx.drop nb) ?_ hw ?_)
  · apply (hx.drop nb).splice_disj
    unfold Disj
    simp only [Ptr.add_base, Ptr.add_off]
    by_cases hb : da.base = dc.base
    · have := hca hb.symm; omega
    · exact .inl hb
  · apply (ho.drop nb).splice_disj
    unfold Disj
    simp only [Ptr.add_base, Ptr.add_off]
    omega
  · intro hb; have := hca hb; simp only [Ptr.add_off]; omega
  · intro zs2 w2 hlz2 hz2 hw2 e2
    rw [← hlz, Mem.splice_append]
    have : u32 w2 = w2 := u32_of_lt (by omega)
    rw [this]
    refine wp_pure (h _ _ (by simp; omega) (by simp [hz, hz2]) hw2 ?_)
    rw [val_append, hlz]
    have e3 := val_take_add_drop xs nb
    rw [Nat.min_eq_left (by omega)] at e3
    have e4 : 𝔹 ^ na = 𝔹 ^ nb * 𝔹 ^ (na - nb) := by rw [← pow_add]; congr 1; omega
    rw [e4, Nat.mul_assoc]
    have e5 : 𝔹 ^ nb * (val zs2 + 𝔹 ^ (na - nb) * w2) = 𝔹 ^ nb * (w + val (xs.drop nb)) := by rw [e2]
    rw [Nat.mul_add, Nat.mul_add] at e5
    omega

/-- `s_uadd`: `dc` may coincide with or lie below `da` and `db`. -/
theorem s_uadd_spec {da db dc : Ptr} {na nb : Nat} {m : Mem} {xs ys os : List Nat}
    {Q : Nat → Mem → Prop} (hx : At m da xs) (hy : At m db ys) (ho : At m dc os)
    (hlx : xs.length = na) (hly : ys.length = nb) (hlo : os.length = max na nb)
    (hdx : Dig xs) (hdy : Dig ys)
    (hca : Behind dc da na) (hcb : Behind dc db nb)
    (h : ∀ zs w', zs.length = max na nb → Dig zs → w' ≤ 1 →
      val zs + 𝔹 ^ (max na nb) * w' = val xs + val ys → Q w' (m.splice dc zs)) :
    wp env E (s_uadd da db dc na nb) Q m := by
  unfold s_uadd
  refine wp_ite (fun hc => ?_) (fun hc => ?_)
  · rw [Nat.max_eq_right (by omega)] at *
    refine uaddMain_spec hy hx ho hly hlx hlo (by omega) hdy hdx hcb hca ?_
    intro zs w h1 h2 h3 h4
    exact h zs w h1 h2 h3 (by omega)
  · rw [Nat.max_eq_left (by omega)] at *
    exact uaddMain_spec hx hy ho hlx hly hlo (by omega) hdx hdy hca hcb h

/-! ### subtract -/

theorem usubLoop1_spec {n : Nat} {da db dc : Ptr} {w : Nat} {m : Mem} {xs ys os : List Nat}
    {Q : Nat → Mem → Prop} (hx : At m da xs) (hy : At m db ys) (ho : At m dc os)
    (hlx : xs.length = n) (hly : ys.length = n) (hlo : os.length = n)
    (hdx : Dig xs) (hdy : Dig ys)
    (hca : Behind dc da n) (hcb : Behind dc db n)
    (hw : w ≤ 1)
    (h : ∀ zs w', zs.length = n → Dig zs → w' ≤ 1 →
      val zs + val ys + w = val xs + 𝔹 ^ n * w' → Q w' (m.splice dc zs)) :
    wp env E (usubLoop1 n da db dc w) Q m := by
  induction n generalizing da db dc w m xs ys os with
  | zero =>
    have h1 : xs = [] := by simpa using hlx
    have h2 : ys = [] := by simpa using hly
    subst h1 h2
    simpa [usubLoop1] using h [] w rfl (by simp) hw (by simp)
  | succ n ih =>
    match xs, ys, os, hlx, hly, hlo with
    | x :: xs, y :: ys, o :: os, hlx, hly, hlo =>
      simp only [List.length_cons, Nat.add_right_cancel_iff] at hlx hly hlo
      rw [At_cons] at hx hy ho
      rw [Dig_cons] at hdx hdy
      unfold usubLoop1
      refine wp_bind (wp_rd hx.1 (wp_bind (wp_rd hy.1 ?_)))
      have hs : sub64 (sub64 (u64 (4294967295 + 1 + x)) w) y = 4294967296 + x - w - y := by
        rw [u64_of_lt (by omega), sub64_of_le (x := 4294967295 + 1 + x) (by omega) (by omega),
          sub64_of_le (by omega) (by omega)]
      simp only [hs]
      refine wp_bind (wp_wr ho.1 ?_)
      rw [shr32]
      refine ih (hx.2.after_write hca hlx) (hy.2.after_write hcb hly)
        (ho.2.after_write (Behind.self _ _) rfl) hlx hly hlo hdx.2 hdy.2 hca.step hcb.step ?_ ?_
      · split <;> omega
      · intro zs w' hl hz hw' e
        rw [Mem.splice_cons]
        refine h _ _ (by simp [hl]) (by simp [hz, u32_lt]) hw' ?_
        rw [pow_succ_mul]
        simp only [val_cons, u32]
        split at e <;> omega

theorem usubLoop2_spec {n : Nat} {da dc : Ptr} {w : Nat} {m : Mem} {xs os : List Nat}
    {Q : Nat → Mem → Prop} (hx : At m da xs) (ho : At m dc os)
    (hlx : xs.length = n) (hlo : os.length = n) (hdx : Dig xs)
    (hca : Behind dc da n) (hw : w ≤ 1)
    (h : ∀ zs w', zs.length = n → Dig zs → w' ≤ 1 →
      val zs + w = val xs + 𝔹 ^ n * w' → Q w' (m.splice dc zs)) :
    wp env E (usubLoop2 n da dc w) Q m := by
  induction n generalizing da dc w m xs os with
  | zero =>
    have h1 : xs = [] := by simpa using hlx
    subst h1
    simpa [usubLoop2] using h [] w rfl (by simp) hw (by simp)
  | succ n ih =>
    match xs, os, hlx, hlo with
    | x :: xs, o :: os, hlx, hlo =>
      simp only [List.length_cons, Nat.add_right_cancel_iff] at hlx hlo
      rw [At_cons] at hx ho
      rw [Dig_cons] at hdx
      unfold usubLoop2
      refine wp_bind (wp_rd hx.1 ?_)
      have hs : sub64 (u64 (4294967295 + 1 + x)) w = 4294967296 + x - w := by
        rw [u64_of_lt (by omega), sub64_of_le (by omega) (by omega)]
      simp only [hs]
      refine wp_bind (wp_wr ho.1 ?_)
      rw [shr32]
      refine ih (hx.2.after_write hca hlx)
        (ho.2.after_write (Behind.self _ _) rfl) hlx hlo hdx.2 hca.step ?_ ?_
      · split <;> omega
      · intro zs w' hl hz hw' e
        rw [Mem.splice_cons]
        refine h _ _ (by simp [hl]) (by simp [hz, u32_lt]) hw' ?_
        rw [pow_succ_mul]
        simp only [val_cons, u32]
        split at e <;> omega

/-- `s_usub`: `dc` may coincide with or lie below `da` and `db`. -/
theorem s_usub_spec {da db dc : Ptr} {na nb : Nat} {m : Mem} {xs ys os : List Nat}
    {Q : Unit → Mem → Prop} (hx : At m da xs) (hy : At m db ys) (ho : At m dc os)
    (hlx : xs.length = na) (hly : ys.length = nb) (hlo : os.length = na) (hab : nb ≤ na)
    (hdx : Dig xs) (hdy : Dig ys)
    (hca : Behind dc da na) (hcb : Behind dc db nb)
    (hle : val ys ≤ val xs)
    (h : ∀ zs, zs.length = na → Dig zs → val zs + val ys = val xs → Q () (m.splice dc zs)) :
    wp env E (s_usub da db dc na nb) Q m := by
  unfold s_usub
  refine wp_bind (wp_cassert (by simpa using hab) ?_)
  have hlx1 : (xs.take nb).length = nb := by simp; omega
  have hlo1 : (os.take nb).length = nb := by simp; omega
  refine wp_bind (usubLoop1_spec (hx.take nb) hy (ho.take nb) hlx1 hly hlo1
    (hdx.take nb) hdy (hca.mono hab) hcb (by omega) ?_)
  intro zs w hlz hz hw e
  have hlx2 : (xs.drop nb).length = na - nb := by simp; omega
  have hlo2 : (os.drop nb).length = na - nb := by simp; omega
  refine wp_bind (usubLoop2_spec (xs := xs.drop nb) (os := os.drop nb) ?_ ?_ hlx2 hlo2
    (hdx.drop nb) ?_ hw ?_)
  · apply (hx.drop nb).splice_disj
    unfold Disj
    simp only [Ptr.add_base, Ptr.add_off]
    by_cases hb : da.base = dc.base
    · have := hca hb.symm; omega
    · exact .inl hb
  · apply (ho.drop nb).splice_disj
    unfold Disj
    simp only [Ptr.add_base, Ptr.add_off]
    omega
  · intro hb; have := hca hb; simp only [Ptr.add_off]; omega
  · intro zs2 w2 hlz2 hz2 hw2 e2
    rw [← hlz, Mem.splice_append]
    have e3 := val_take_add_drop xs nb
    rw [Nat.min_eq_left (by omega)] at e3
    have e4 : 𝔹 ^ na = 𝔹 ^ nb * 𝔹 ^ (na - nb) := by rw [← pow_add]; congr 1; omega
    have e5 : 𝔹 ^ nb * (val zs2 + w) = 𝔹 ^ nb * (val (xs.drop nb) + 𝔹 ^ (na - nb) * w2) := by rw [e2]
    rw [Nat.mul_add, Nat.mul_add, ← Nat.mul_assoc, ← e4] at e5
    have e6 : val (zs ++ zs2) = val zs + 𝔹 ^ nb * val zs2 := by rw [val_append, hlz]
    have hzz : Dig (zs ++ zs2) := by simp [hz, hz2]
    have h7 := val_lt hzz
    rw [List.length_append, hlz, hlz2, Nat.add_sub_cancel' hab] at h7
    have e8 : val (zs ++ zs2) + val ys = val xs + 𝔹 ^ na * w2 := by omega
    have hw0 : w2 = 0 := by
      rcases Nat.lt_or_ge w2 1 with h' | h'
      · omega
      · have : w2 = 1 := by omega
        subst this; omega
    subst hw0
    refine wp_cassert rfl (h _ (by simp; omega) hzz (by omega))

end Imath
