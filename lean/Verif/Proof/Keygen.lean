import Verif.Model.Keygen
import Verif.SpecKeygen
import Verif.Proof.Prime
import Verif.Proof.Pi
import Verif.Proof.ConvBin2
import Verif.Proof.ConvRead
import Verif.Proof.ConvLen
import Verif.Proof.RatStr
import Verif.Proof.Egcd

/-!
# Proofs about `examples/randprime.c` and `examples/rsakey.c`
-/

namespace Imath

variable {env : Env} {E : Fault → Prop} {m : Mem} {σ σ' : Id → Option Int} {a z : Id} {w x v : Int}

/-! ### Random numbers -/

theorem mask_table : ∀ j < 8, 0 < j → ∀ x < 256,
    x &&& (1 <<< j - 1) ||| (1 <<< j) >>> 1 = 2 ^ (j - 1) + x % 2 ^ (j - 1) := by decide +kernel

theorem or_one_table : ∀ x < 256, x ||| 1 = 2 * (x / 2) + 1 := by decide +kernel

theorem seed_high {j x L V : Nat} (hj : 0 < j) (hV : V < 256 ^ L) :
    (2 ^ (j - 1) + x % 2 ^ (j - 1)) * 256 ^ L + V =
      2 ^ (8 * L + j - 1) + (x * 256 ^ L + V) % 2 ^ (8 * L + j - 1) := by
  have e : 2 ^ (8 * L + j - 1) = 2 ^ (j - 1) * 256 ^ L := by
    rw [show 8 * L + j - 1 = (j - 1) + 8 * L by omega, pow_add, pow_mul]; norm_num
  rw [e, Nat.mul_comm (2 ^ (j - 1)) (256 ^ L), Nat.mod_mul,
    Nat.mul_comm x, Nat.mul_add_mod, Nat.mod_eq_of_lt hV, Nat.mul_add_div (Nat.pos_of_ne_zero (by positivity)),
    Nat.div_eq_of_lt hV, Nat.add_zero]
  ring

theorem seed_low {Y : Bytes} {y : Nat} (hY : Byte Y) (h : Y[Y.length - 1]? = some y) :
    beVal (Y.set (Y.length - 1) (y ||| 1)) = 2 * (beVal Y / 2) + 1 := by
  rcases List.eq_nil_or_concat Y with rfl | ⟨I, b, rfl⟩
  · simp at h
  · rw [List.concat_eq_append] at *
    rw [show (I ++ [b]).length - 1 = I.length by simp] at *
    rw [List.getElem?_append_right (Nat.le_refl _)] at h
    simp at h
    subst h
    rw [set_len (R := []), beVal_append_single, beVal_append_single, or_one_table _ (hY b (by simp))]
    omega

theorem Byte.set {Y : Bytes} {i y : Nat} (hY : Byte Y) (hy : y < 256) : Byte (Y.set i y) := by
  intro b hb
  rcases List.mem_or_eq_of_mem_set hb with h | h
  · exact hY b h
  · rw [h]; exact hy

theorem mp_int_randomize_spec {Q : Int → Mem → Prop} {k : Nat} {rnd : Option Bytes} (hE : Ref env E) (hk : 0 < k) (hk2 : k ≤ 2147483640)
    (hb : ∀ bs ∈ rnd, Byte bs) (h : R2 m σ) (hz : σ z = some v) (ho : z.own = true)
    (hQ0 : (∀ bs ∈ rnd, bs.length < (k + 7) / 8) → Q MP_TRUNC m)
    (hQ : ∀ bs m', rnd = some bs → (k + 7) / 8 ≤ bs.length →
      R2 m' (upd σ z (some (seedOf k (beVal (bs.take ((k + 7) / 8))) : Nat))) → Q MP_OK m') :
    wp env E (mp_int_randomize z k rnd) Q m := by
  unfold mp_int_randomize
  have en : u32 (k + 7) / 8 = (k + 7) / 8 := by unfold u32; rw [Nat.mod_eq_of_lt (by omega)]
  have ei : u32 ((k + 7) / 8 + 4294967295) = (k + 7) / 8 - 1 := by unfold u32; omega
  dsimp only
  rw [en, ei]
  clear en ei
  rcases rnd with _ | bs
  · exact wp_pure (hQ0 (by simp))
  refine wp_ite (fun hl => wp_pure (hQ0 fun _ hb => by cases hb; exact hl)) fun hl => ?_
  have hb' : Byte (bs.take ((k + 7) / 8)) := fun b hb'' => hb bs rfl b (List.mem_of_mem_take hb'')
  have hlen : (bs.take ((k + 7) / 8)).length = (k + 7) / 8 := by rw [List.length_take]; omega
  have hQ := fun m' => hQ bs m' rfl (by omega)
  generalize bs.take ((k + 7) / 8) = X at *
  obtain ⟨x0, X, rfl⟩ : ∃ x0 Y, X = x0 :: Y := by
    rcases X with _ | ⟨x0, Y⟩
    · simp at hlen; omega
    · exact ⟨_, _, rfl⟩
  have hx0 : x0 < 256 := hb' x0 (by simp)
  -- the rest of the function
  have key : ∀ Y : Bytes, Byte Y → Y.length = (k + 7) / 8 →
      beVal Y = (if k % 8 = 0 then beVal (x0 :: X) else 2 ^ (k - 1) + beVal (x0 :: X) % 2 ^ (k - 1)) →
      wp env E (do
        let x ← bget Y ((k + 7) / 8 - 1)
        let buf ← bset Y ((k + 7) / 8 - 1) (x ||| 1)
        mp_int_read_unsigned z buf ((k + 7) / 8 : Nat)) Q m := by
    intro Y hY hYl hYv
    have ei : (k + 7) / 8 - 1 = Y.length - 1 := by omega
    rw [ei]
    obtain ⟨y, hy⟩ : ∃ y, Y[Y.length - 1]? = some y := ⟨_, List.getElem?_eq_getElem (by omega)⟩
    have hy2 : y < 256 := hY y (List.mem_of_getElem? hy)
    refine wp_bind (wp_bget hy (wp_bind (wp_bset (by omega) ?_)))
    have hy3 : y ||| 1 < 256 := by rw [or_one_table y hy2]; omega
    have := mp_int_read_unsigned_spec (Q := Q) (X := Y.set (Y.length - 1) (y ||| 1)) (R := []) (len := ((k + 7) / 8 : Nat)) hE
      (hY.set hy3) (by rw [List.length_set, hYl]) (by rw [List.length_set, hYl]; omega) (by rw [List.length_set, hYl]; omega) ho h hz
      fun m' h' => hQ m' (by rw [seed_low hY hy, hYv] at h'; exact h')
    rw [List.append_nil] at this
    exact this
  refine wp_bind (wp_cif (fun h8 => ?_) fun h8 => ?_)
  · refine wp_bind (wp_bget (x := x0) rfl (wp_bind (wp_bset (by simp) ?_)))
    refine wp_bind (wp_bget (x := x0 &&& (1 <<< (k % 8) - 1)) rfl (wp_bset (by simp) ?_))
    simp only [List.set_cons_zero]
    rw [mask_table _ (Nat.mod_lt _ (by omega)) (by omega) x0 hx0]
    have hp : 2 ^ (k % 8 - 1) + x0 % 2 ^ (k % 8 - 1) < 256 := by
      rw [← mask_table _ (Nat.mod_lt _ (by omega)) (by omega) x0 hx0]
      have : ∀ j < 8, 0 < j → ∀ x < 256, x &&& (1 <<< j - 1) ||| (1 <<< j) >>> 1 < 256 := by decide +kernel
      exact this _ (Nat.mod_lt _ (by omega)) (by omega) x0 hx0
    have hB : Byte X := fun b hb => hb' b (by simp [hb])
    refine key _ ?_ (by simpa using hlen) ?_
    · intro b hb
      rcases List.mem_cons.1 hb with rfl | hb
      · exact hp
      · exact hB b hb
    · rw [if_neg h8, beVal_cons, beVal_cons, seed_high (by omega) (beVal_lt hB)]
      have : 8 * X.length + k % 8 = k := by rw [List.length_cons] at hlen; omega
      rw [this]
  · exact wp_pure (key _ hb' hlen (by rw [if_pos (by omega)]))

theorem seedOf_odd (k V : Nat) : seedOf k V % 2 = 1 := by unfold seedOf; omega

theorem seedOf_lt {k V : Nat} (hk : 0 < k) (hV : V < 256 ^ ((k + 7) / 8)) : seedOf k V < 2 ^ k := by
  have e : 2 ^ k = 2 * 2 ^ (k - 1) := by rw [← pow_succ']; congr 1; omega
  have : (if k % 8 = 0 then V else 2 ^ (k - 1) + V % 2 ^ (k - 1)) < 2 ^ k := by
    split
    · rw [show (256 : Nat) = 2 ^ 8 from rfl, ← pow_mul, show 8 * ((k + 7) / 8) = k by omega] at hV
      exact hV
    · have := Nat.mod_lt V (show 0 < 2 ^ (k - 1) by positivity)
      omega
  unfold seedOf
  omega

theorem seedOf_ge {k V : Nat} (hk : k % 8 ≠ 0) : 2 ^ (k - 1) ≤ seedOf k V := by
  unfold seedOf
  rw [if_neg hk]; omega

/-! ### Search -/

theorem findLoop_eq (z : Id) : ∀ f, findLoop z f = findPrimeLoop z f
  | 0 => rfl
  | f + 1 => by unfold findLoop findPrimeLoop; rw [findLoop_eq z f]

theorem find_prime_eq (z : Id) : find_prime z = mp_int_find_prime z := by
  unfold find_prime mp_int_find_prime; simp only [findLoop_eq]

theorem find_prime_spec {Q : Int → Mem → Prop} (hE : Ref env E) (h : R2 m σ) (hz : σ z = some x) (ho : z.own = true)
    (hQ : ∀ w m', x ≤ w → w % 2 = 1 → Accepted w → (∀ u, x ≤ u → u < w → u % 2 = 1 → ¬ Accepted u) →
      R2 m' (upd σ z (some w)) → Q MP_TRUE m') :
    wp env E (find_prime z) Q m := by
  rw [find_prime_eq]; exact mp_int_find_prime_spec hE h hz ho hQ

/-- An odd number that is accepted, as is its double plus one. -/
def Strong (y : Int) : Prop := y % 2 = 1 ∧ Accepted y ∧ Accepted (2 * y + 1)

theorem strongLoop_spec {Q : Int → Mem → Prop} {y : Int} {T : Nat → Id} (hE : Ref env E) (ho : z.own = true) (hy : Strong y) :
    ∀ (f : Nat) {m : Mem} {σ σ' : Id → Option Int} {x tv : Int} {res : Int}, Tmps σ 1 T (L [tv]) σ' → R2 m σ' → σ z = some x →
    x ≤ y → y - x < 2 * f →
    (∀ w tv' m' σ'', x ≤ w → Strong w → (∀ u, x ≤ u → u < w → ¬ Strong u) →
      Tmps (upd σ z (some (2 * w + 1))) 1 T (L [tv']) σ'' → R2 m' σ'' → Q MP_OK m') →
    wp env E (strongLoop z (T 0) f res) Q m := by
  intro f
  induction f with
  | zero => intro m σ σ' x tv res _ _ _ h1 h2; omega
  | succ f ih =>
    intro m σ σ' x tv res g h hz hxy hf hQ
    unfold strongLoop
    refine wp_bind (find_prime_spec hE h (g.out hz) ho fun w m1 hw1 hw2 hw3 hw4 h1 => ?_)
    have hwy : w ≤ y := by
      by_contra hc
      exact hw4 y hxy (by omega) hy.1 hy.2.1
    obtain ⟨σ1, h1, g1⟩ := g.up_out hz h1
    have hz1 : upd σ z (some w) z = some w := upd_self ..
    refine wp_if_neg (by simp) ?_
    refine wp_bind (mp_int_copy_spec hE h1 (g1.out hz1) (g1.get 0) (g1.ow 0) fun m2 h2 => ?_)
    obtain ⟨σ2, h2, g2⟩ := g1.up 0 h2
    tsimp at g2
    refine wp_if_neg (by simp) ?_
    refine wp_bind (mp_int_mul_pow2_spec (p2 := 1) hE h2 (g2.get 0) (g2.get 0) (g2.ow 0) (by norm_num) fun m3 h3 => ?_)
    obtain ⟨σ3, h3, g3⟩ := g2.up 0 h3
    tsimp at g3
    refine wp_if_neg (by simp) ?_
    refine wp_bind (mp_int_add_value_spec hE (by decide) (by decide) h3 (g3.get 0) (g3.get 0) (g3.ow 0) fun m4 h4 => ?_)
    obtain ⟨σ4, h4, g4⟩ := g3.up 0 h4
    tsimp at g4
    refine wp_if_neg (by simp) ?_
    have e2 : w * 2 ^ 1 + 1 = 2 * w + 1 := by ring
    rw [e2] at g4
    have hmin : ∀ u, x ≤ u → u < w → ¬ Strong u := fun u h1 h2 h3 => hw4 u h1 h2 h3.1 h3.2.1
    refine wp_bind (mp_int_is_prime_spec hE h4 (g4.get 0) (fun ht m5 h5 => ?_) fun ht m5 h5 => ?_)
    · refine wp_if_pos rfl ?_
      refine mp_int_copy_spec hE h5 (g4.get 0) (g4.out hz1) ho fun m6 h6 => ?_
      obtain ⟨σ6, h6, g6⟩ := g4.up_out hz1 h6
      rw [upd_upd] at g6
      exact hQ w _ m6 σ6 hw1 ⟨hw2, hw3, ht⟩ hmin g6 h6
    · refine wp_if_neg (by decide) (wp_if_neg (by simp) ?_)
      have hne : w ≠ y := fun e => ht (by rw [e]; exact hy.2.2)
      have := hy.1
      refine wp_bind (mp_int_add_value_spec hE (by decide) (by decide) h5 (g4.out hz1) (g4.out hz1) ho fun m6 h6 => ?_)
      obtain ⟨σ6, h6, g6⟩ := g4.up_out hz1 h6
      rw [upd_upd] at g6
      refine wp_if_neg (by simp) ?_
      refine ih g6 h6 (upd_self ..) (by omega) (by omega) fun w' tv' m' σ'' k1 k2 k3 k4 k5 => ?_
      rw [upd_upd] at k4
      refine hQ w' tv' m' σ'' (by omega) k2 (fun u u1 u2 u3 => ?_) k4 k5
      rcases Int.lt_trichotomy u w with hc | hc | hc
      · exact hmin u u1 hc u3
      · subst hc; exact ht u3.2.2
      · by_cases hc2 : u = w + 1
        · have := u3.1; omega
        · exact k3 u (by omega) u2 u3

theorem find_strong_prime_spec {Q : Int → Mem → Prop} {f : Nat} {y : Int} (hE : Ref env E) (ho : z.own = true) (hy : Strong y)
    (h : R2 m σ) (hz : σ z = some x) (hxy : x ≤ y) (hf : y - x < 2 * f)
    (hQ : ∀ w m', x ≤ w → Strong w → (∀ u, x ≤ u → u < w → ¬ Strong u) → R2 m' (upd σ z (some (2 * w + 1))) → Q MP_OK m') :
    wp env E (find_strong_prime f z) Q m := by
  unfold find_strong_prime
  refine unchkInit h fun T σ1 m1 g h1 => ?_
  exact strongLoop_spec hE ho hy f g h1 hz hxy hf fun w tv' m' σ'' k1 k2 k3 k4 k5 => .mk k4 k5 fun m6 h6 => hQ w m6 k1 k2 k3 h6

/-! ### Keys -/

theorem read_string_any {Q : Int → Mem → Prop} {s : Bytes} (hE : Ref env E) (hs : 0 ∈ s.take 800000001) (h : R2 m σ)
    (hz : σ z = some v) (ho : z.own = true)
    (hQ : ∀ x r m', r = MP_OK ∧ ReadsAs s x ∨ r ≠ MP_OK → R2 m' (upd σ z (some x)) → Q r m') :
    wp env E (mp_int_read_string z 10 s) Q m := by
  obtain ⟨sp, sg, ds, vs, ch, rest, e, hsp, hsg, hds, hch, hhead, -⟩ := split_string 10 s (List.mem_of_mem_take hs)
  obtain ⟨-, hl1, -⟩ := s_log2_range 10 (by omega) (by omega)
  have h0 : 0 ∈ (ds ++ ch :: rest).take (800000000 + 1) := by
    rw [e, List.append_assoc (sp ++ sg), List.take_append] at hs
    rcases List.mem_append.1 hs with hm | hm
    · have := List.mem_of_mem_take hm
      rcases List.mem_append.1 this with hm | hm
      · have := hsp 0 hm; unfold IsSpace at this; omega
      · rcases hsg with rfl | rfl | rfl <;> simp at hm
    · refine List.mem_of_mem_take (i := 800000001 - (sp ++ sg).length) ?_
      rw [List.take_take, show min (800000001 - (sp ++ sg).length) (800000000 + 1) = 800000001 - (sp ++ sg).length by omega]
      exact hm
  unfold mp_int_read_string
  rw [e]
  refine wp_bind (mp_int_read_cstring_spec (K := 800000000) hE (by omega) (by omega) hsp hsg hds hch hhead (by omega) (by omega) h0 ho h hz
    fun m' h' => wp_pure (hQ _ _ m' ?_ h'))
  by_cases hc : ch = 0
  · subst hc
    exact .inl ⟨by simp, sp, sg, ds, vs, rest, e, hsp, hsg, hds, rfl⟩
  · refine .inr ?_
    show (if ch = 0 then MP_OK else MP_TRUNC) ≠ MP_OK
    rw [if_neg hc]; decide

theorem invmod_key {x y P R : Int} (hy : 1 < y) (h : P * |x| + R * y = 1) :
    y ∣ x * (if x < 0 then y - P % y else P % y) - 1 ∧ 0 < (if x < 0 then y - P % y else P % y) ∧
      (if x < 0 then y - P % y else P % y) < y := by
  have h1 := Int.emod_nonneg P (show y ≠ 0 by omega)
  have h2 := Int.emod_lt_of_pos P (show 0 < y by omega)
  have h3 := Int.emod_add_mul_ediv P y
  have h4 : P % y ≠ 0 := by
    intro h0
    rw [h0, zero_add] at h3
    rw [← h3] at h
    have : y ∣ 1 := ⟨P / y * |x| + R, by rw [← h]; ring⟩
    have := Int.le_of_dvd one_pos this
    omega
  split
  · next hx =>
    rw [abs_of_neg hx] at h
    refine ⟨⟨x * (1 + P / y) - R, ?_⟩, by omega, by omega⟩
    generalize P % y = s at *
    generalize P / y = t at *
    subst h3
    linear_combination h
  · next hx =>
    rw [abs_of_nonneg (by omega)] at h
    refine ⟨⟨- (x * (P / y)) - R, ?_⟩, by omega, by omega⟩
    generalize P % y = s at *
    generalize P / y = t at *
    subst h3
    linear_combination h

section
variable {T : Nat → Id} {k : Nat} {Q : Int → Mem → Prop} {p q y : Int}

/-- The key in the variables `T`. -/
def keyOf (T : Nat → Id) : RsaKey := ⟨T 0, T 1, T 2, T 3, T 4⟩

theorem rndExptLoop_spec (hE : Ref env E) (hk : 0 < k) (hk2 : k ≤ 2147483640) (hy : 1 < y) :
    ∀ (rnd : List Bytes) {m : Mem} {σ σ' : Id → Option Int} {e d : Int}, (∀ b ∈ rnd, Byte b) →
    Tmps σ 5 T (L [p, q, y, e, d]) σ' → R2 m σ' →
    (∀ res m' V σ'', res ≠ MP_OK → Tmps σ 5 T V σ'' → R2 m' σ'' → Q res m') →
    (∀ e' d' m' σ'', y ∣ e' * d' - 1 → 0 < d' → d' < y → (e' = e ∨ ∃ b ∈ rnd, e' = seedOf k (beVal (b.take ((k + 7) / 8)))) →
      Tmps σ 5 T (L [p, q, y, e', d']) σ'' → R2 m' σ'' → Q MP_OK m') →
    wp env E (rndExptLoop (keyOf T) k rnd) Q m := by
  intro rnd
  induction rnd with
  | nil =>
    intro m σ σ' e d hb g h hQ0 hQ
    unfold rndExptLoop
    have bad : ∀ m', R2 m' σ' → wp env E (mp_int_randomize (keyOf T).e k none) Q m' := fun m' h' =>
      mp_int_randomize_spec hE hk hk2 (by simp) h' (g.get 3) (g.ow 3) (fun _ => hQ0 _ _ _ _ (by decide) g h') fun bs _ hbs => by cases hbs
    refine wp_bind (mp_int_invmod_spec hE h (g.get 3) (g.get 2) (g.get 4) (g.ow 4) (fun _ => ?_) (fun _ _ _ m1 h1 => ?_)
      fun P R _ _ _ hPR m1 h1 => ?_)
    · exact wp_if_pos (by decide) (bad _ h)
    · exact wp_if_pos (by decide) (bad _ h1)
    · refine wp_if_neg (by simp) (wp_pure ?_)
      obtain ⟨σ1, h1, g1⟩ := g.up 4 h1
      tsimp at g1 hPR
      obtain ⟨k1, k2, k3⟩ := invmod_key hy hPR
      exact hQ _ _ m1 σ1 k1 k2 k3 (.inl rfl) g1 h1
  | cons b rnd ih =>
    intro m σ σ' e d hb g h hQ0 hQ
    unfold rndExptLoop
    have bad : ∀ m', R2 m' σ' → wp env E (do
        let res ← mp_int_randomize (keyOf T).e k (some b)
        if res ≠ MP_OK then pure res else rndExptLoop (keyOf T) k rnd) Q m' := by
      intro m' h'
      refine wp_bind (mp_int_randomize_spec hE hk hk2 (fun _ hh => by cases hh; exact hb b (by simp)) h' (g.get 3) (g.ow 3)
        (fun _ => wp_if_pos (by decide) (wp_pure (hQ0 _ _ _ _ (by decide) g h'))) fun bs m1 hbs _ h1 => ?_)
      cases hbs
      refine wp_if_neg (by simp) ?_
      obtain ⟨σ1, h1, g1⟩ := g.up 3 h1
      tsimp at g1
      refine ih (fun b hb' => hb b (by simp [hb'])) g1 h1 hQ0 fun e' d' m' σ'' k1 k2 k3 k4 => hQ e' d' m' σ'' k1 k2 k3 ?_
      rcases k4 with rfl | ⟨c, hc, rfl⟩
      · exact .inr ⟨b, by simp, rfl⟩
      · exact .inr ⟨c, by simp [hc], rfl⟩
    refine wp_bind (mp_int_invmod_spec hE h (g.get 3) (g.get 2) (g.get 4) (g.ow 4) (fun _ => ?_) (fun _ _ _ m1 h1 => ?_)
      fun P R _ _ _ hPR m1 h1 => ?_)
    · exact wp_if_pos (by decide) (bad _ h)
    · exact wp_if_pos (by decide) (bad _ h1)
    · refine wp_if_neg (by simp) (wp_pure ?_)
      obtain ⟨σ1, h1, g1⟩ := g.up 4 h1
      tsimp at g1 hPR
      obtain ⟨k1, k2, k3⟩ := invmod_key hy hPR
      exact hQ _ _ m1 σ1 k1 k2 k3 (.inl rfl) g1 h1

theorem accepted_odd_ge (h : Accepted p) (h2 : p % 2 = 1) : 3 ≤ p := by
  have := accepted_two_le h; omega

theorem rsaKeyGen_spec {modbits : Nat} {expt : Option Bytes} {rnd : List Bytes} {V0 : Nat → Int} (hE : Ref env E)
    (hm : 2 ≤ modbits) (hm2 : modbits / 2 ≤ 2147483640) (hexp : ∀ s ∈ expt, 0 ∈ s.take 800000001) (hb : ∀ b ∈ rnd, Byte b)
    (g : Tmps σ 5 T V0 σ') (h : R2 m σ')
    (hQ0 : ∀ res m' V σ'', res ≠ MP_OK → Tmps σ 5 T V σ'' → R2 m' σ'' → Q res m')
    (hQ : ∀ p q n e d m' σ'', IsKey p q n e d → KeyFrom (modbits / 2) expt rnd p q e →
      Tmps σ 5 T (L [p, q, n, e, d]) σ'' → R2 m' σ'' → Q MP_OK m') :
    wp env E (rsaKeyGen (keyOf T) modbits expt rnd) Q m := by
  have hk : 0 < modbits / 2 := by omega
  have step1 : ∀ e0 m1 σ1, (∀ s ∈ expt, ReadsAs s e0) → Tmps σ 5 T (L [V0 0, V0 1, V0 2, e0, V0 4]) σ1 → R2 m1 σ1 → wp env E (do
      let res ← mp_int_randomize (keyOf T).p (modbits / 2) rnd.head?
      if res ≠ MP_OK then pure res
      else do
        let _ ← find_prime (keyOf T).p
        let rnd := rnd.tail
        let res ← mp_int_randomize (keyOf T).q (modbits / 2) rnd.head?
        if res ≠ MP_OK then pure res
        else do
          let _ ← find_prime (keyOf T).q
          let rnd := rnd.tail
          let _ ← mp_int_mul (keyOf T).p (keyOf T).q (keyOf T).n
          let _ ← mp_int_sub (keyOf T).n (keyOf T).p (keyOf T).n
          let _ ← mp_int_sub (keyOf T).n (keyOf T).q (keyOf T).n
          let _ ← mp_int_add_value (keyOf T).n 1 (keyOf T).n
          let res ← (match expt with
            | some _ => mp_int_invmod (keyOf T).e (keyOf T).n (keyOf T).d
            | none => do
              let res ← mp_int_randomize (keyOf T).e (modbits / 2) rnd.head?
              if res ≠ MP_OK then pure res else rndExptLoop (keyOf T) (modbits / 2) rnd.tail)
          if res ≠ MP_OK then pure res
          else do
            let _ ← mp_int_mul (keyOf T).p (keyOf T).q (keyOf T).n
            pure MP_OK) Q m1 := by
    intro e0 m1 σ1 he0 g h
    generalize modbits / 2 = k at *
    have hh : ∀ l : List Bytes, (∀ b ∈ l, Byte b) → ∀ b ∈ l.head?, Byte b := fun l hl b hb => hl b (List.mem_of_mem_head? hb)
    refine wp_bind (mp_int_randomize_spec hE hk hm2 (hh rnd hb) h (g.get 0) (g.ow 0)
      (fun _ => wp_if_pos (by decide) (wp_pure (hQ0 _ _ _ _ (by decide) g h))) fun b m2 hb0 _ h2 => ?_)
    obtain ⟨rnd1, rfl⟩ : ∃ r, rnd = b :: r := by
      rcases rnd with _ | ⟨c, r⟩
      · simp at hb0
      · simp at hb0; exact ⟨r, by rw [hb0]⟩
    obtain ⟨σ2, h2, g2⟩ := g.up 0 h2
    tsimp at g2
    refine wp_if_neg (by simp) ?_
    refine wp_bind (find_prime_spec hE h2 (g2.get 0) (g2.ow 0) fun p m3 p1 p2 p3 p4 h3 => ?_)
    obtain ⟨σ3, h3, g3⟩ := g2.up 0 h3
    tsimp at g3 p1 p4
    have hb1 : ∀ c ∈ rnd1, Byte c := fun c hc => hb c (by simp [hc])
    dsimp only [List.tail_cons]
    refine wp_bind (mp_int_randomize_spec hE hk hm2 (hh rnd1 hb1) h3 (g3.get 1) (g3.ow 1)
      (fun _ => wp_if_pos (by decide) (wp_pure (hQ0 _ _ _ _ (by decide) g3 h3))) fun c m4 hc0 _ h4 => ?_)
    obtain ⟨rnd2, rfl⟩ : ∃ r, rnd1 = c :: r := by
      rcases rnd1 with _ | ⟨c, r⟩
      · simp at hc0
      · simp at hc0; exact ⟨r, by rw [hc0]⟩
    obtain ⟨σ4, h4, g4⟩ := g3.up 1 h4
    tsimp at g4
    refine wp_if_neg (by simp) ?_
    refine wp_bind (find_prime_spec hE h4 (g4.get 1) (g4.ow 1) fun q m5 q1 q2 q3 q4 h5 => ?_)
    obtain ⟨σ5, h5, g5⟩ := g4.up 1 h5
    tsimp at g5 q1 q4
    have hb2 : ∀ c ∈ rnd2, Byte c := fun c hc => hb1 c (by simp [hc])
    have hp3 := accepted_odd_ge p3 p2
    have hq3 := accepted_odd_ge q3 q2
    have fp : FirstFrom k b p := ⟨p1, p2, p3, p4⟩
    have fq : FirstFrom k c q := ⟨q1, q2, q3, q4⟩
    refine wp_bind (mp_int_mul_spec hE h5 (g5.get 0) (g5.get 1) (g5.get 2) (g5.ow 2) fun m6 h6 => ?_)
    obtain ⟨σ6, h6, g6⟩ := g5.up 2 h6
    tsimp at g6
    refine wp_bind (mp_int_sub_spec hE h6 (g6.get 2) (g6.get 0) (g6.get 2) (g6.ow 2) fun m7 h7 => ?_)
    obtain ⟨σ7, h7, g7⟩ := g6.up 2 h7
    tsimp at g7
    refine wp_bind (mp_int_sub_spec hE h7 (g7.get 2) (g7.get 1) (g7.get 2) (g7.ow 2) fun m8 h8 => ?_)
    obtain ⟨σ8, h8, g8⟩ := g7.up 2 h8
    tsimp at g8
    refine wp_bind (mp_int_add_value_spec hE (by decide) (by decide) h8 (g8.get 2) (g8.get 2) (g8.ow 2) fun m9 h9 => ?_)
    obtain ⟨σ9, h9, g9⟩ := g8.up 2 h9
    tsimp at g9
    rw [show p * q - p - q + 1 = (p - 1) * (q - 1) by ring] at g9
    have hy : 1 < (p - 1) * (q - 1) := by nlinarith
    have fin : ∀ e d m10 σ10, (p - 1) * (q - 1) ∣ e * d - 1 → 0 < d → d < (p - 1) * (q - 1) →
        KeyFrom k expt (b :: c :: rnd2) p q e → Tmps σ 5 T (L [p, q, (p - 1) * (q - 1), e, d]) σ10 → R2 m10 σ10 →
        wp env E (if MP_OK ≠ MP_OK then pure MP_OK else do
            let _ ← mp_int_mul (keyOf T).p (keyOf T).q (keyOf T).n
            pure MP_OK) Q m10 := by
      intro e d m10 σ10 d1 d2 d3 kf g10 h10
      refine wp_if_neg (by simp) ?_
      refine wp_bind (mp_int_mul_spec hE h10 (g10.get 0) (g10.get 1) (g10.get 2) (g10.ow 2) fun m11 h11 => ?_)
      obtain ⟨σ11, h11, g11⟩ := g10.up 2 h11
      tsimp at g11
      exact wp_pure (hQ _ _ _ _ _ m11 σ11 ⟨p3, q3, p2, q2, rfl, d1, d2, d3⟩ kf g11 h11)
    rcases expt with _ | s
    · dsimp only [List.tail_cons]
      refine wp_bind (wp_bind (mp_int_randomize_spec hE hk hm2 (hh rnd2 hb2) h9 (g9.get 3) (g9.ow 3)
        (fun _ => wp_if_pos (by decide) (wp_pure (wp_if_pos (by decide) (wp_pure (hQ0 _ _ _ _ (by decide) g9 h9)))))
        fun x m10 hx0 _ h10 => ?_))
      obtain ⟨rnd3, rfl⟩ : ∃ r, rnd2 = x :: r := by
        rcases rnd2 with _ | ⟨c, r⟩
        · simp at hx0
        · simp at hx0; exact ⟨r, by rw [hx0]⟩
      obtain ⟨σ10, h10, g10⟩ := g9.up 3 h10
      tsimp at g10
      refine wp_if_neg (by simp) ?_
      refine rndExptLoop_spec hE hk hm2 hy rnd3 (fun c hc => hb2 c (by simp [hc])) g10 h10
        (fun res m' V σ'' hr g' h' => wp_if_pos hr (wp_pure (hQ0 _ _ _ _ hr g' h')))
        fun e d m' σ'' d1 d2 d3 d4 g' h' => fin e d m' σ'' d1 d2 d3 ⟨b, c, _, rfl, fp, fq, ?_⟩ g' h'
      rcases d4 with rfl | ⟨x', hx', rfl⟩
      · exact ⟨x, by simp, rfl⟩
      · exact ⟨x', by simp [hx'], rfl⟩
    · refine wp_bind (mp_int_invmod_spec hE h9 (g9.get 3) (g9.get 2) (g9.get 4) (g9.ow 4)
        (fun _ => wp_if_pos (by decide) (wp_pure (hQ0 _ _ _ _ (by decide) g9 h9)))
        (fun _ _ _ m1 h1 => wp_if_pos (by decide) (wp_pure (hQ0 _ _ _ _ (by decide) g9 h1))) fun P R _ _ _ hPR m10 h10 => ?_)
      obtain ⟨σ10, h10, g10⟩ := g9.up 4 h10
      tsimp at g10 hPR
      obtain ⟨k1, k2, k3⟩ := invmod_key hy hPR
      exact fin _ _ m10 σ10 k1 k2 k3 ⟨b, c, _, rfl, fp, fq, he0 s rfl⟩ g10 h10
  have gl : Tmps σ 5 T (L [V0 0, V0 1, V0 2, V0 3, V0 4]) σ' := g.congr (fun _ _ => rfl) fun i hi => by
    rcases show i = 0 ∨ i = 1 ∨ i = 2 ∨ i = 3 ∨ i = 4 by omega with rfl | rfl | rfl | rfl | rfl <;> rfl
  unfold rsaKeyGen
  rcases expt with _ | s
  · exact wp_bind (wp_pure (wp_if_neg (by simp) (step1 _ m σ' (by simp) gl h)))
  · refine wp_bind (read_string_any hE (hexp s rfl) h (gl.get 3) (gl.ow 3) fun x r m1 hr h1 => ?_)
    obtain ⟨σ1, h1, g1⟩ := gl.up 3 h1
    tsimp at g1
    rcases hr with ⟨rfl, hr⟩ | hr
    · exact wp_if_neg (by simp) (step1 x m1 σ1 (fun _ hs => by cases hs; exact hr) g1 h1)
    · exact wp_if_pos hr (wp_pure (hQ0 _ _ _ _ hr g1 h1))

end

/-! ### Output -/

theorem cstr_spec {Q : Bytes → Mem → Prop} {D R : Bytes} (h0 : 0 ∉ D) (hQ : Q D m) : wp env E (cstr (D ++ 0 :: R)) Q m := by
  unfold cstr
  refine wp_bind ?_
  show wp env E (strlen ([] ++ (D ++ 0 :: R)) _ ([] : Bytes).length) _ m
  refine strlen_exact h0 (by simp) (wp_pure ?_)
  rw [List.take_left']; · exact hQ
  rfl

theorem writeField_spec {Q : Bytes → Mem → Prop} {tag : Nat} {obuf : Bytes} {len : Int} {k : Bytes → M Bytes} (hE : Ref env E)
    (hl : len ≤ obuf.length) (hfit : (numeral 10 v).length < len) (h : R2 m σ) (hz : σ z = some v)
    (hk : ∀ b m', R2 m' σ → b.length = obuf.length →
      wp env E (k b) (fun r m'' => Q ([tag, 32, 61, 32] ++ numeral 10 v ++ [10] ++ r) m'') m') :
    wp env E (writeField tag z obuf len k) Q m := by
  have hpos := numeral_pos (r := 10) (by omega) v
  unfold writeField
  refine wp_bind (mp_int_to_string_spec hE (by omega) (by omega) (by omega) (by omega) h hz (fun m1 h1 _ => ?_) fun _ _ _ h1 => by omega)
  refine wp_bind (cstr_spec (numeral_zero_notin (by omega) (by omega) v) ?_)
  refine wp_bind (wp_mono (hk _ m1 h1 ?_) fun r m2 h2 => wp_pure h2)
  simp; omega

theorem string_len_10 {Q : Int → Mem → Prop} (h : R2 m σ) (hz : σ z = some v)
    (hQ : ∀ o : Int, (numeral 10 v).length + 1 ≤ o → Q o m) : wp env E (mp_int_string_len z 10) Q m := by
  refine mp_int_string_len_spec (by omega) (by omega) h hz fun o _ h2 _ => hQ o (h2 ?_)
  have := h.size_le hz
  have t : 2147483584 ≤ lenBits 10 := by decide +kernel
  exact .inl (le_trans this t)

theorem rsa_key_write_spec {Q : Bytes → Mem → Prop} {k : RsaKey} {obuf : Nat → Bytes} {p q n e d : Int} (hE : Ref env E)
    (hob : ∀ n, (obuf n).length = n) (h : R2 m σ) (hp : σ k.p = some p) (hq : σ k.q = some q) (hn : σ k.n = some n)
    (he : σ k.e = some e) (hd : σ k.d = some d) (fp : (numeral 10 p).length ≤ (numeral 10 n).length)
    (fq : (numeral 10 q).length ≤ (numeral 10 n).length) (fe : (numeral 10 e).length ≤ (numeral 10 n).length)
    (fd : (numeral 10 d).length ≤ (numeral 10 n).length) (hQ : ∀ m', R2 m' σ → Q (keyText p q n e d) m') :
    wp env E (rsa_key_write k obuf) Q m := by
  unfold rsa_key_write
  refine wp_bind (string_len_10 h hn fun len hl => ?_)
  have hb := hob len.toNat
  refine writeField_spec hE (by omega) (by omega) h hp fun b1 m1 h1 l1 => ?_
  refine writeField_spec hE (by omega) (by omega) h1 hq fun b2 m2 h2 l2 => ?_
  refine writeField_spec hE (by omega) (by omega) h2 he fun b3 m3 h3 l3 => ?_
  refine writeField_spec hE (by omega) (by omega) h3 hd fun b4 m4 h4 l4 => ?_
  refine writeField_spec hE (by omega) (by omega) h4 hn fun b5 m5 h5 l5 => wp_pure ?_
  have := hQ m5 h5
  simp only [keyText, List.append_assoc, List.append_nil] at this ⊢
  exact this

theorem unchkInit5 {Q : α → Mem → Prop} {k5 : Id → Id → Id → Id → Id → M α} {E : Fault → Prop} {σ : Id → Option Int} (h : R2 m σ)
    (hk : ∀ T σ' m', Tmps σ 5 T (L [0, 0, 0, 0, 0]) σ' → R2 m' σ' →
      wp env E (k5 (T 0) (T 1) (T 2) (T 3) (T 4)) (fun r m'' => TDone 5 T Q r m'') m') :
    wp env E (withUnchk mp_int_init fun t0 => withUnchk mp_int_init fun t1 => withUnchk mp_int_init fun t2 =>
      withUnchk mp_int_init fun t3 => withUnchk mp_int_init fun t4 => k5 t0 t1 t2 t3 t4) Q m := by
  refine wp_mono (withUnchk_spec (Q := Q) (v := 0) h (Tmps.nil σ (fun _ => .tmp 0) fun _ => 0)
    (fun t m1 P h1 hd' hn ho hP => mp_int_init_spec h1 hd' hn hP) fun t0 m1 g h1 => ?_) fun _ _ => TDone.elim
  refine withUnchk_spec (v := 0) h1 g (fun t m1 P h1 hd' hn ho hP => mp_int_init_spec h1 hd' hn hP) fun t1 m2 g2 h2 => ?_
  refine withUnchk_spec (v := 0) h2 g2 (fun t m1 P h1 hd' hn ho hP => mp_int_init_spec h1 hd' hn hP) fun t2 m3 g3 h3 => ?_
  refine withUnchk_spec (v := 0) h3 g3 (fun t m1 P h1 hd' hn ho hP => mp_int_init_spec h1 hd' hn hP) fun t3 m4 g4 h4 => ?_
  refine withUnchk_spec (v := 0) h4 g4 (fun t m1 P h1 hd' hn ho hP => mp_int_init_spec h1 hd' hn hP) fun t4 m5 g5 h5 => ?_
  refine hk (nset (nset (nset (nset (nset (fun _ => .tmp 0) 0 t0) 1 t1) 2 t2) 3 t3) 4 t4) _ m5 (g5.congr (fun _ _ => rfl) fun i hi => ?_) h5
  rcases show i = 0 ∨ i = 1 ∨ i = 2 ∨ i = 3 ∨ i = 4 by omega with rfl | rfl | rfl | rfl | rfl <;> rfl

end Imath
