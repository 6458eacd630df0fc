import Verif.Proof.Mul

/-! # Loops of the single-digit and shift functions -/

namespace Imath

variable {env : Env} {E : Fault → Prop} {m : Mem}

theorem eq_concat {α : Type} {n : Nat} (xs : List α) (h : xs.length = n + 1) :
    ∃ ys y, xs = ys ++ [y] ∧ ys.length = n := by
  rcases List.eq_nil_or_concat xs with h0 | ⟨ys, y, h0⟩
  · subst h0; simp at h
  · refine ⟨ys, y, by simpa using h0, ?_⟩
    rw [h0] at h; simpa using h

theorem val_concat (xs : List Nat) (x : Nat) : val (xs ++ [x]) = val xs + 𝔹 ^ xs.length * x := by
  rw [val_append]; simp

/-- After a write at index `n`, the first `n` digits can still be overwritten. -/
theorem splice_top (m : Mem) (p : Ptr) (zs : List Nat) (z n : Nat) (h : zs.length = n) :
    (m.splice (p.add n) [z]).splice p zs = m.splice p (zs ++ [z]) := by
  subst h
  rw [← Mem.splice_append, Mem.splice_comm]
  refine .inr (.inr ?_)
  simp

theorem At.concat {p : Ptr} {xs : List Nat} {x n : Nat} (h : At m p (xs ++ [x])) (hl : xs.length = n) :
    At m p xs ∧ m.get (p.add n).base (p.add n).off = some x := by
  rw [At_append, hl] at h
  refine ⟨h.1, ?_⟩
  have := h.2
  rw [At_cons] at this
  exact this.1

theorem At.below {p : Ptr} {xs : List Nat} {z n : Nat} (h : At m p xs) (hl : xs.length = n) :
    At (m.splice (p.add n) [z]) p xs := by
  refine h.splice_disj (.inr (.inl ?_))
  simp [hl]

/-! ### digit times number, number plus digit -/

theorem dmulLoop_spec {b n : Nat} {da dc : Ptr} {w : Nat} {xs os : List Nat}
    {Q : Nat → Mem → Prop} (hx : At m da xs) (ho : At m dc os)
    (hlx : xs.length = n) (hlo : os.length = n) (hdx : Dig xs)
    (hca : Behind dc da n) (hb : b < 𝔹) (hw : w < 𝔹)
    (h : ∀ zs w', zs.length = n → Dig zs → w' < 𝔹 →
      val zs + 𝔹 ^ n * w' = val xs * b + w → Q w' (m.splice dc zs)) :
    wp env E (dmulLoop b n da dc w) Q m := by
  induction n generalizing da dc w m xs os with
  | zero =>
    have h1 : xs = [] := by simpa using hlx
    subst h1
    simpa [dmulLoop] using h [] w rfl (by simp) hw (by simp)
  | succ n ih =>
    match xs, os, hlx, hlo with
    | x :: xs, o :: os, hlx, hlo =>
      simp only [List.length_cons, Nat.add_right_cancel_iff] at hlx hlo
      rw [At_cons] at hx ho
      rw [Dig_cons] at hdx
      unfold dmulLoop
      refine wp_bind (wp_rd hx.1 ?_)
      have hxb : x * b ≤ 4294967295 * 4294967295 := Nat.mul_le_mul (by omega) (by omega)
      have hs : u64 (u64 (x * b) + w) = x * b + w := by
        rw [u64_of_lt (x := x * b) (by omega), u64_of_lt (by omega)]
      simp only [hs]
      refine wp_bind (wp_wr ho.1 ?_)
      rw [shr32]
      refine ih (hx.2.after_write hca hlx)
        (ho.2.after_write (Behind.self _ _) rfl) hlx hlo hdx.2 hca.step (by omega) ?_
      · intro zs w' hl hz hw' e
        rw [Mem.splice_cons]
        refine h _ _ (by simp [hl]) (by simp [hz, u32_lt]) hw' ?_
        rw [pow_succ_mul]
        simp only [val_cons, u32]
        have : (x + 𝔹 * val xs) * b = x * b + 𝔹 * (val xs * b) := by ring
        rw [this]
        omega

theorem daddLoop_spec {n : Nat} {da : Ptr} {w : Nat} {xs : List Nat}
    {Q : Nat → Mem → Prop} (hx : At m da xs) (hlx : xs.length = n) (hdx : Dig xs) (hw : w ≤ 1)
    (h : ∀ zs w', zs.length = n → Dig zs → w' ≤ 1 →
      val zs + 𝔹 ^ n * w' = val xs + w → Q w' (m.splice da zs)) :
    wp env E (daddLoop n da w) Q m := by
  induction n generalizing da w m xs with
  | zero =>
    have h1 : xs = [] := by simpa using hlx
    subst h1
    simpa [daddLoop] using h [] w rfl (by simp) hw (by simp)
  | succ n ih =>
    match xs, hlx with
    | x :: xs, hlx =>
      simp only [List.length_cons, Nat.add_right_cancel_iff] at hlx
      rw [At_cons] at hx
      rw [Dig_cons] at hdx
      unfold daddLoop
      refine wp_bind (wp_rd hx.1 ?_)
      have hs : u64 (x + w) = x + w := u64_of_lt (by omega)
      simp only [hs]
      refine wp_bind (wp_wr hx.1 ?_)
      rw [shr32]
      refine ih (hx.2.after_write (Behind.self _ _) rfl) hlx hdx.2 (by omega) ?_
      · intro zs w' hl hz hw' e
        rw [Mem.splice_cons]
        refine h _ _ (by simp [hl]) (by simp [hz, u32_lt]) hw' ?_
        rw [pow_succ_mul]
        simp only [val_cons, u32]
        omega

/-! ### number divided by digit -/

theorem ddivLoop_spec {b n : Nat} {da : Ptr} {w : Nat} {xs : List Nat}
    {Q : Nat → Mem → Prop} (hx : At m da xs) (hlx : xs.length = n) (hdx : Dig xs)
    (hb : b < 𝔹) (hw : w < b)
    (h : ∀ zs w', zs.length = n → Dig zs → w' < b →
      val zs * b + w' = w * 𝔹 ^ n + val xs → Q w' (m.splice da zs)) :
    wp env E (ddivLoop da b n w) Q m := by
  induction n generalizing w m xs Q with
  | zero =>
    have h1 : xs = [] := by simpa using hlx
    subst h1
    simpa [ddivLoop] using h [] w rfl (by simp) hw (by simp)
  | succ n ih =>
    obtain ⟨ys, x, rfl, hly⟩ := eq_concat xs hlx
    obtain ⟨hy, hg⟩ := hx.concat hly
    rw [Dig_append, Dig_cons] at hdx
    have hx' := hdx.2.1
    unfold ddivLoop
    refine wp_bind (wp_rd hg ?_)
    have e0 : w <<< 32 = w * 4294967296 := by rw [Nat.shiftLeft_eq]
    have e1 : u64 (w <<< 32) ||| x = w * 4294967296 + x := by
      rw [u64_of_lt (by rw [e0]; omega), ← Nat.shiftLeft_add_eq_or_of_lt (by omega), e0]
    simp only [e1]
    have key : ∀ z w1, z < 𝔹 → w1 < b → z * b + w1 = w * 4294967296 + x →
        wp env E (do wr (da.add n) z; ddivLoop da b n w1) Q m := by
      intro z w1 hz hw1 e
      refine wp_bind (wp_wr hg ?_)
      refine ih (hy.below hly) hly hdx.1 hw1 fun zs w' hl hdz hw' ez => ?_
      rw [splice_top _ _ _ _ _ hl]
      refine h _ w' (by simp [hl]) (by simp [hdz, hz]) hw' ?_
      rw [val_concat, val_concat, hl, hly]
      have : (val zs + 𝔹 ^ n * z) * b + w' = (val zs * b + w') + 𝔹 ^ n * (z * b) := by ring
      rw [this, ez]
      have h2 : 𝔹 ^ n * (z * b) + w1 * 𝔹 ^ n = 𝔹 ^ n * (w * 𝔹 + x) := by rw [← e]; ring
      have h3 : w * 𝔹 ^ (n + 1) + (val ys + 𝔹 ^ n * x) = val ys + 𝔹 ^ n * (w * 𝔹 + x) := by ring
      rw [h3, ← h2]; ring
    refine wp_ite (fun hge => ?_) (fun hlt => ?_)
    · refine wp_if_neg (by omega) ?_
      have hq : (w * 4294967296 + x) / b < 𝔹 := by
        rw [Nat.div_lt_iff_lt_mul (by omega)]
        have : (w + 1) * 4294967296 ≤ b * 4294967296 := Nat.mul_le_mul_right _ (by omega)
        omega
      rw [u32_of_lt hq]
      refine key _ _ hq (Nat.mod_lt _ (by omega)) ?_
      rw [Nat.mul_comm]; exact Nat.div_add_mod _ _
    · exact key 0 _ (by omega) (by omega) (by omega)

/-! ### shifts -/

theorem u32_shl {x r : Nat} (hr : r ≤ 32) : u32 (x <<< r) = (x % 2 ^ (32 - r)) <<< r := by
  unfold u32
  rw [Nat.shiftLeft_eq, Nat.shiftLeft_eq]
  have : (4294967296 : Nat) = 2 ^ (32 - r) * 2 ^ r := by
    rw [← Nat.pow_add, Nat.sub_add_cancel hr]
  rw [this, Nat.mul_mod_mul_right]

theorem two_pow_split {r : Nat} (hr : r ≤ 32) : 2 ^ (32 - r) * 2 ^ r = 𝔹 := by
  rw [← Nat.pow_add, Nat.sub_add_cancel hr]

theorem shl_digit {x d r : Nat} (hd : d < 𝔹) (hr : r ≤ 32) :
    u32 (x <<< r) ||| (d >>> (32 - r)) = x % 2 ^ (32 - r) * 2 ^ r + d / 2 ^ (32 - r) := by
  rw [u32_shl hr, Nat.shiftRight_eq_div_pow, ← Nat.shiftLeft_add_eq_or_of_lt, Nat.shiftLeft_eq]
  rw [Nat.div_lt_iff_lt_mul (Nat.pow_pos (by decide)), Nat.mul_comm, two_pow_split hr]
  exact hd

theorem shr_digit {x d r : Nat} (hx : x < 𝔹) (hr : r ≤ 32) :
    (x >>> r) ||| u32 (d <<< (32 - r)) = x / 2 ^ r + d % 2 ^ r * 2 ^ (32 - r) := by
  rw [Nat.or_comm, u32_shl (by omega), Nat.shiftRight_eq_div_pow, show 32 - (32 - r) = r by omega,
    ← Nat.shiftLeft_add_eq_or_of_lt, Nat.shiftLeft_eq, Nat.add_comm]
  rw [Nat.div_lt_iff_lt_mul (Nat.pow_pos (by decide)), two_pow_split hr]
  exact hx

theorem shl_digit_lt {x d r : Nat} (hd : d < 𝔹) (hr : r ≤ 32) :
    x % 2 ^ (32 - r) * 2 ^ r + d / 2 ^ (32 - r) < 𝔹 := by
  have h1 : x % 2 ^ (32 - r) < 2 ^ (32 - r) := Nat.mod_lt _ (Nat.pow_pos (by decide))
  have h2 : d / 2 ^ (32 - r) < 2 ^ r := by
    rw [Nat.div_lt_iff_lt_mul (Nat.pow_pos (by decide)), Nat.mul_comm, two_pow_split hr]; exact hd
  have h3 : (x % 2 ^ (32 - r) + 1) * 2 ^ r ≤ 2 ^ (32 - r) * 2 ^ r := Nat.mul_le_mul_right _ h1
  rw [two_pow_split hr, Nat.add_mul] at h3
  omega

theorem shr_digit_lt {x d r : Nat} (hx : x < 𝔹) (hr : r ≤ 32) :
    x / 2 ^ r + d % 2 ^ r * 2 ^ (32 - r) < 𝔹 := by
  have := shl_digit_lt (x := d) (d := x) (r := 32 - r) hx (by omega)
  rw [show 32 - (32 - r) = r by omega] at this
  omega

theorem shlLoop_spec {r n : Nat} {p : Ptr} {d : Nat} {xs : List Nat}
    {Q : Nat → Mem → Prop} (hx : At m p xs) (hlx : xs.length = n) (hdx : Dig xs)
    (hd : d < 𝔹) (hr : r ≤ 32)
    (h : ∀ zs d', zs.length = n → Dig zs → d' < 𝔹 → (d :: xs)[n]? = some d' →
      val zs + 𝔹 ^ n * (d' / 2 ^ (32 - r)) = val xs * 2 ^ r + d / 2 ^ (32 - r) → Q d' (m.splice p zs)) :
    wp env E (shlLoop r n p d) Q m := by
  induction n generalizing p d m xs with
  | zero =>
    have h1 : xs = [] := by simpa using hlx
    subst h1
    simpa [shlLoop] using h [] d rfl (by simp) hd (by simp) (by simp)
  | succ n ih =>
    match xs, hlx with
    | x :: xs, hlx =>
      simp only [List.length_cons, Nat.add_right_cancel_iff] at hlx
      rw [At_cons] at hx
      rw [Dig_cons] at hdx
      unfold shlLoop
      refine wp_bind (wp_rd hx.1 ?_)
      rw [shl_digit hd hr]
      refine wp_bind (wp_wr hx.1 ?_)
      refine ih (hx.2.after_write (Behind.self _ _) rfl) hlx hdx.2 hdx.1 ?_
      intro zs d' hl hz hd' hlast e
      rw [Mem.splice_cons]
      refine h _ d' (by simp [hl]) (by simp [hz, shl_digit_lt hd hr]) hd' ?_ ?_
      · rw [List.getElem?_cons_succ]; exact hlast
      · rw [pow_succ_mul]
        simp only [val_cons]
        have h1 := Nat.div_add_mod x (2 ^ (32 - r))
        have h2 : 𝔹 * (x / 2 ^ (32 - r)) + x % 2 ^ (32 - r) * 2 ^ r = x * 2 ^ r := by
          conv => rhs; rw [← h1]
          rw [← two_pow_split hr]; ring
        have h3 : (x + 𝔹 * val xs) * 2 ^ r = x * 2 ^ r + 𝔹 * (val xs * 2 ^ r) := by ring
        rw [h3, ← h2]
        omega

theorem shrLoop_spec {r n : Nat} {p : Ptr} {d : Nat} {xs : List Nat}
    {Q : Unit → Mem → Prop} (hx : At m p xs) (hlx : xs.length = n) (hdx : Dig xs)
    (hr : r ≤ 32)
    (h : ∀ zs, zs.length = n → Dig zs →
      val zs = (val xs + 𝔹 ^ n * (d % 2 ^ r)) / 2 ^ r → Q () (m.splice p zs)) :
    wp env E (shrLoop p r (32 - r) n d) Q m := by
  induction n generalizing d m xs with
  | zero =>
    have h1 : xs = [] := by simpa using hlx
    subst h1
    have := h [] rfl (by simp) (by simp)
    simpa [shrLoop] using this
  | succ n ih =>
    obtain ⟨ys, x, rfl, hly⟩ := eq_concat xs hlx
    obtain ⟨hy, hg⟩ := hx.concat hly
    rw [Dig_append, Dig_cons] at hdx
    have hx' := hdx.2.1
    unfold shrLoop
    refine wp_bind (wp_rd hg ?_)
    rw [shr_digit hx' hr]
    refine wp_bind (wp_wr hg ?_)
    refine ih (hy.below hly) hly hdx.1 fun zs hl hdz ez => ?_
    rw [splice_top _ _ _ _ _ hl]
    refine h _ (by simp [hl]) (by simp [hdz, shr_digit_lt hx' hr]) ?_
    rw [val_concat, val_concat, hl, hly, ez]
    have h1 := Nat.div_add_mod x (2 ^ r)
    have h2 : val ys + 𝔹 ^ n * x + 𝔹 ^ (n + 1) * (d % 2 ^ r) = val ys + 𝔹 ^ n * (x % 2 ^ r) +
        2 ^ r * (𝔹 ^ n * (x / 2 ^ r + d % 2 ^ r * 2 ^ (32 - r))) := by
      have h3 : 2 ^ r * (𝔹 ^ n * (x / 2 ^ r + d % 2 ^ r * 2 ^ (32 - r))) =
          𝔹 ^ n * (2 ^ r * (x / 2 ^ r)) + 𝔹 ^ n * ((2 ^ (32 - r) * 2 ^ r) * (d % 2 ^ r)) := by ring
      rw [h3, two_pow_split hr]
      conv => lhs; rw [← h1]
      ring
    rw [h2, Nat.add_mul_div_left _ _ (Nat.pow_pos (by decide))]

theorem moveDown_spec {n k : Nat} {p : Ptr} {ys : List Nat} {Q : Unit → Mem → Prop}
    (hy : At m p ys) (hl : n + k ≤ ys.length)
    (h : Q () (m.splice p ((ys.drop k).take n))) :
    wp env E (moveDown n (p.add k) p) Q m := by
  induction n generalizing m p ys with
  | zero => simpa [moveDown] using h
  | succ n ih =>
    unfold moveDown
    match ys, hl with
    | [], hl => simp at hl
    | y :: ys, hl =>
      refine wp_bind (wp_rd (hy.get (i := k) (by omega)) ?_)
      have hl' : n + 1 + k ≤ ys.length + 1 := hl
      rw [At_cons] at hy
      refine wp_bind (wp_wr hy.1 ?_)
      rw [show (p.add k).add 1 = (p.add 1).add k by simp [Nat.add_comm]]
      refine ih (hy.2.after_write (Behind.self _ _) rfl) (by omega) ?_
      rw [Mem.splice_cons]
      have e : ((y :: ys).drop k).take (n + 1) = (y :: ys)[k]'(by simp; omega) :: (ys.drop k).take n := by
        have hk : k < (y :: ys).length := by simp; omega
        rw [List.drop_eq_getElem_cons hk, List.take_succ_cons]
        rfl
      rw [e] at h
      exact h

theorem moveUp_spec {n k : Nat} {p : Ptr} {ys : List Nat} {Q : Unit → Mem → Prop}
    (hy : At m p ys) (hl : n + k ≤ ys.length)
    (h : Q () (m.splice (p.add k) (ys.take n))) :
    wp env E (moveUp p k n) Q m := by
  induction n generalizing m ys with
  | zero => simpa [moveUp] using h
  | succ n ih =>
    unfold moveUp
    refine wp_bind (wp_rd (hy.get (i := n) (by omega)) ?_)
    have hg := hy.get (i := n + k) (by omega)
    refine wp_bind (wp_wr hg ?_)
    have hy' : At (m.splice (p.add (n + k)) [ys[n]]) p (ys.take (n + k)) := by
      refine (hy.take _).splice_disj (.inr (.inl ?_))
      simp only [Ptr.add_off, List.length_take]; omega
    refine ih hy' (by rw [List.length_take]; omega) ?_
    rw [List.take_take, Nat.min_eq_left (by omega), show p.add (n + k) = (p.add k).add n by simp [Nat.add_comm],
      splice_top _ _ _ _ _ (by rw [List.length_take]; omega)]
    rw [take_succ_eq ys n (by omega)] at h
    exact h

theorem qsubLoop_spec {n : Nat} {p : Ptr} {w : Nat} {xs : List Nat}
    {Q : Nat → Mem → Prop} (hx : At m p xs) (hlx : xs.length = n) (hdx : Dig xs) (hw : w ≤ 1)
    (h : ∀ zs w', zs.length = n → Dig zs → w' ≤ 1 →
      val zs + val xs + w = 𝔹 ^ n * w' → Q w' (m.splice p zs)) :
    wp env E (qsubLoop n p w) Q m := by
  induction n generalizing p w m xs with
  | zero =>
    have h1 : xs = [] := by simpa using hlx
    subst h1
    simpa [qsubLoop] using h [] w rfl (by simp) hw (by simp)
  | succ n ih =>
    match xs, hlx with
    | x :: xs, hlx =>
      simp only [List.length_cons, Nat.add_right_cancel_iff] at hlx
      rw [At_cons] at hx
      rw [Dig_cons] at hdx
      have hx1 := hdx.1
      unfold qsubLoop
      refine wp_bind (wp_rd hx.1 ?_)
      have hs : sub64 (sub64 (u64 (4294967295 + 1)) w) x = 4294967296 - w - x := by
        unfold sub64 u64; omega
      simp only [hs]
      refine wp_bind (wp_wr hx.1 ?_)
      rw [shr32]
      refine ih (hx.2.after_write (Behind.self _ _) rfl) hlx hdx.2 (by split <;> omega) ?_
      · intro zs w' hl hz hw' e
        rw [Mem.splice_cons]
        refine h _ _ (by simp [hl]) (by simp [hz, u32_lt]) hw' ?_
        rw [pow_succ_mul]
        simp only [val_cons, u32]
        split at e <;> omega

end Imath
