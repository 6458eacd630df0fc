import Verif.Proof.Kmul

/-! # Squaring -/

namespace Imath

variable {env : Env} {E : Fault → Prop}

theorem usqr_step {x y w c : Nat} (hx : x < 𝔹) (hy : y < 𝔹) (hw : w < 2 * 𝔹) (hc : c < 𝔹) :
    ∃ w2 w3, u64 (u64 (u64 (x * y) + u64 (x * y)) + u64 (w + c)) = w2 ∧
      (if (if ADD_WILL_OVERFLOW (u64 (u64 (x * y) + u64 (x * y))) (u64 (w + c)) then 1 else
          if HIGH_BIT_SET (u64 (x * y)) then 1 else 0) ≠ 0
        then u64 (u64 ((w2 >>> 32) + 4294967295) + 1) else w2 >>> 32) = w3 ∧
      w3 < 2 * 𝔹 ∧ u32 w2 + 𝔹 * w3 = 2 * (x * y) + w + c := by
  have h1 : x * y ≤ 4294967295 * 4294967295 := Nat.mul_le_mul (by omega) (by omega)
  generalize x * y = t at *
  refine ⟨_, _, rfl, rfl, ?_⟩
  have e1 : u64 t = t := u64_of_lt (by omega)
  have e2 : u64 (w + c) = w + c := u64_of_lt (by omega)
  rw [e1, e2]
  have hov : HIGH_BIT_SET t = decide (9223372036854775808 ≤ t) := by
    unfold HIGH_BIT_SET
    rw [Nat.shiftRight_eq_div_pow]
    have : (t / 2 ^ 63 ≠ 0) ↔ 9223372036854775808 ≤ t := by omega
    exact decide_eq_decide.2 this
  have hov2 : ADD_WILL_OVERFLOW (u64 (t + t)) (w + c) =
      decide (18446744073709551616 ≤ u64 (t + t) + (w + c)) := by
    unfold ADD_WILL_OVERFLOW
    rw [sub64_of_le (by omega) (by omega)]
    have : (18446744073709551615 - (w + c) < u64 (t + t)) ↔
      18446744073709551616 ≤ u64 (t + t) + (w + c) := by omega
    exact decide_eq_decide.2 this
  rw [hov, hov2, shr32]
  simp only [decide_eq_true_eq, ne_eq]
  have e3 : ∀ z, u64 z = z % 18446744073709551616 := fun _ => rfl
  have e4 : ∀ z, u32 z = z % 4294967296 := fun _ => rfl
  by_cases ha : 9223372036854775808 ≤ t
  · have e5 : u64 (t + t) = t + t - 18446744073709551616 := by rw [e3]; omega
    simp only [e5, ha, if_true]
    split
    · simp; omega
    · simp only [Nat.one_ne_zero, not_false_eq_true, if_true, e3, e4]; omega
  · have e5 : u64 (t + t) = t + t := u64_of_lt (by omega)
    simp only [e5, ha, if_false]
    split
    · simp only [Nat.one_ne_zero, not_false_eq_true, if_true, e3, e4]; omega
    · simp only [not_true, if_false, e3, e4]; omega

theorem usqrInner_spec {n : Nat} {da dat dct : Ptr} {w x : Nat} {m : Mem} {ys cs : List Nat}
    {Q : Nat → Mem → Prop} (hx : m.get da.base da.off = some x) (hy : At m dat ys)
    (hc : At m dct cs) (hly : ys.length = n) (hlc : cs.length = n)
    (hxd : x < 𝔹) (hdy : Dig ys) (hdc : Dig cs)
    (hda : Disj da 1 dct n) (hdb : Disj dat n dct n) (hw : w < 2 * 𝔹)
    (h : ∀ zs w', zs.length = n → Dig zs → w' < 2 * 𝔹 →
      val zs + 𝔹 ^ n * w' = w + 2 * (x * val ys) + val cs → Q w' (m.splice dct zs)) :
    wp env E (usqrInner da n dat dct w) Q m := by
  induction n generalizing dat dct w m ys cs with
  | zero =>
    have h1 : cs = [] := by simpa using hlc
    have h2 : ys = [] := by simpa using hly
    subst h1 h2
    simpa [usqrInner] using h [] w rfl (by simp) hw (by simp)
  | succ n ih =>
    match ys, cs, hly, hlc with
    | y :: ys, c :: cs, hly, hlc =>
      simp only [List.length_cons, Nat.add_right_cancel_iff] at hly hlc
      rw [At_cons] at hy hc
      rw [Dig_cons] at hdy hdc
      unfold usqrInner
      refine wp_bind (wp_rd hx (wp_bind (wp_rd hy.1 (wp_bind (wp_rd hc.1 ?_)))))
      obtain ⟨w2, w3, h2, h3, hw3, e⟩ := usqr_step hxd hdy.1 hw hdc.1
      simp only [h2]
      refine wp_bind (wp_wr hc.1 ?_)
      simp only [h3]
      refine ih (ys := ys) (cs := cs) ?_
        (hy.2.after_write (Behind.of_disj (hdb.mono (Nat.le_refl _) (Nat.le_refl _))) hly)
        (hc.2.after_write (Behind.self _ _) rfl) hly hlc hdy.2 hdc.2 ?_ ?_ hw3 ?_
      · have : At m da [x] := by rw [At_cons]; exact ⟨hx, At_nil⟩
        exact (At_cons.1 (this.splice_disj (hda.mono (by simp) (by simp)))).1
      · rcases hda with hd | hd | hd
        · exact .inl hd
        · exact .inr (.inl (by simp only [Ptr.add_off]; omega))
        · exact .inr (.inr (by simp only [Ptr.add_off]; omega))
      · rcases hdb with hd | hd | hd
        · exact .inl hd
        · exact .inr (.inl (by simp only [Ptr.add_off]; omega))
        · exact .inr (.inr (by simp only [Ptr.add_off]; omega))
      · intro zs w' hl hz hw' e'
        rw [Mem.splice_cons]
        refine h _ _ (by simp [hl]) (by simp [hz, u32_lt]) hw' ?_
        rw [pow_succ_mul]
        simp only [val_cons]
        have : x * (y + 𝔹 * val ys) = x * y + 𝔹 * (x * val ys) := by ring
        omega

theorem usqrCarry_spec {f n : Nat} {dct : Ptr} {w : Nat} {m : Mem} {ds : List Nat}
    {Q : Nat → Mem → Prop} (hd : At m (dct.add 1) ds) (hl : ds.length = n) (hdd : Dig ds)
    (hf : n ≤ f) (hw : w < 18446744073709551616) (hlt : val ds + w / 𝔹 < 𝔹 ^ n)
    (h : ∀ zs, zs.length = n → Dig zs → val zs = val ds + w / 𝔹 → Q 0 (m.splice (dct.add 1) zs)) :
    wp env E (usqrCarry f dct w) Q m := by
  induction ds generalizing f n dct w m with
  | nil =>
    simp only [List.length_nil] at hl
    subst hl
    simp only [val_nil, Nat.pow_zero] at hlt
    have h0 : w >>> 32 = 0 := by rw [shr32]; omega
    have hh := h [] rfl (by simp) (by simp; omega)
    rw [Mem.splice_nil] at hh
    cases f <;> simpa [usqrCarry, h0] using hh
  | cons d ds ih =>
    cases n with
    | zero => simp at hl
    | succ n =>
    simp only [List.length_cons, Nat.add_right_cancel_iff] at hl
    cases f with
    | zero => omega
    | succ f =>
      unfold usqrCarry
      refine wp_ite (fun h0 => ?_) (fun h0 => ?_)
      · have hd' := At_cons.1 hd
        rw [Dig_cons] at hdd
        refine wp_bind (wp_rd hd'.1 ?_)
        rw [shr32]
        have e1 : u64 (w / 4294967296 + d) = w / 4294967296 + d := u64_of_lt (by omega)
        simp only [e1]
        refine wp_bind (wp_wr hd'.1 ?_)
        simp only [val_cons, Nat.pow_succ] at hlt
        refine ih (hd'.2.after_write (Behind.self _ _) rfl) hl hdd.2 (by omega) (by omega) (by omega) ?_
        intro zs hlz hz ez
        rw [Mem.splice_cons]
        refine h _ (by simp [hlz]) (by simp [hz, u32_lt]) ?_
        simp only [val_cons, u32]
        omega
      · have hh := h (d :: ds) (by simp [hl]) hdd (by rw [shr32] at h0; omega)
        rw [hd.splice_same] at hh
        have : w >>> 32 = 0 := by omega
        rw [this]
        exact hh

theorem usqrOuter_spec {n : Nat} {da dc : Ptr} {m : Mem} {xs cs : List Nat}
    {Q : Unit → Mem → Prop} (hx : At m da xs) (hc : At m dc cs) (hlx : xs.length = n)
    (hlc : cs.length = 2 * n) (hdx : Dig xs) (hdc : Dig cs) (hda : Disj da n dc (2 * n))
    (hlt : val cs + val xs * val xs < 𝔹 ^ (2 * n))
    (h : ∀ zs, zs.length = 2 * n → Dig zs → val zs = val cs + val xs * val xs →
      Q () (m.splice dc zs)) :
    wp env E (usqrOuter n da dc) Q m := by
  induction n generalizing da dc m xs cs with
  | zero =>
    have h2 : xs = [] := by simpa using hlx
    subst h2
    simp only [usqrOuter, wp_pure_iff]
    have hh := h cs hlc hdc (by simp)
    rw [hc.splice_same] at hh
    exact hh
  | succ n ih =>
    match xs, hlx with
    | x :: xs, hlx =>
      simp only [List.length_cons, Nat.add_right_cancel_iff] at hlx
      have hx' := At_cons.1 hx
      rw [Dig_cons] at hdx
      have hsq : (x + 𝔹 * val xs) * (x + 𝔹 * val xs) =
        x * x + 𝔹 * (2 * (x * val xs)) + 𝔹 * (𝔹 * (val xs * val xs)) := by ring
      simp only [val_cons, hsq] at h hlt
      have hpw : 𝔹 ^ (2 * (n + 1)) = 𝔹 * (𝔹 * 𝔹 ^ (2 * n)) := by ring
      rw [hpw] at hlt
      -- common part
      have key : ∀ (f g : Nat) (rest : List Nat), rest.length = 2 * n → f < 𝔹 → g < 𝔹 → Dig rest →
          val (f :: g :: rest) = val cs + x * x + 𝔹 * (2 * (x * val xs)) →
          wp env E (usqrOuter n (da.add 1) (dc.add 2)) Q (m.splice dc (f :: g :: rest)) := by
        intro f g rest hlr hf hg hdr e
        simp only [val_cons] at e
        have hself := hc.splice_self (zs := f :: g :: rest) (by simp [hlr, hlc]; omega)
        rw [At_cons, At_cons] at hself
        refine ih (xs := xs) (cs := rest) ?_ ?_ hlx hlr hdx.2 hdr ?_ ?_ ?_
        · refine hx'.2.splice_disj ?_
          rcases hda with hd | hd | hd
          · exact .inl hd
          · exact .inr (.inl (by simp only [Ptr.add_off]; omega))
          · exact .inr (.inr (by simp only [Ptr.add_off, List.length_cons]; omega))
        · have := hself.2.2
          rwa [Ptr.add_add] at this
        · rcases hda with hd | hd | hd
          · exact .inl hd
          · exact .inr (.inl (by simp only [Ptr.add_off]; omega))
          · exact .inr (.inr (by simp only [Ptr.add_off]; omega))
        · omega
        · intro zs hlz hz ez
          have := Mem.splice_tail m dc [f, g] rest zs (by omega)
          simp only [List.length_cons, List.length_nil, List.cons_append, List.nil_append] at this
          rw [this]
          refine h _ (by simp; omega) (by simp [hf, hg, hz]) ?_
          simp only [val_cons, ez]
          omega
      unfold usqrOuter
      refine wp_bind (wp_rd hx'.1 ?_)
      refine wp_ite (fun h0 => ?_) (fun h0 => ?_)
      · match cs, hlc with
        | f :: g :: rest, hlc =>
          have := key f g rest (by simp at hlc; omega) (by simp at hdc; omega) (by simp at hdc; omega)
            (by simp at hdc; exact hdc.2.2) (by rw [h0]; simp)
          rwa [hc.splice_same] at this
      · match cs, hlc with
        | c :: cs, hlc =>
          have lcs : cs.length = 2 * n + 1 := by simp at hlc; omega
          have hc' := At_cons.1 hc
          rw [Dig_cons] at hdc
          refine wp_bind (wp_rd hc'.1 ?_)
          have hb := mul_digit_bound hdx.1 hdx.1 hdc.1 (show 0 < 𝔹 by decide)
          have e1 : u64 (u64 (x * x) + c) = x * x + c := by
            rw [u64_of_lt (x := x * x) (by omega), u64_of_lt (by omega)]
          simp only [e1]
          refine wp_bind (wp_wr hc'.1 ?_)
          rw [shr32]
          -- the memory after the first write
          have hdd : ∀ k j, k + j ≤ 2 * n + 2 → Disj (da.add 1) n (dc.add k) j := by
            intro k j hkj
            rcases hda with hd | hd | hd
            · exact .inl hd
            · exact .inr (.inl (by simp only [Ptr.add_off]; omega))
            · exact .inr (.inr (by simp only [Ptr.add_off]; omega))
          have hdd0 : ∀ k j, k + j ≤ 2 * n + 2 → Disj da 1 (dc.add k) j := by
            intro k j hkj
            rcases hda with hd | hd | hd
            · exact .inl hd
            · exact .inr (.inl (by simp only [Ptr.add_off]; omega))
            · exact .inr (.inr (by simp only [Ptr.add_off]; omega))
          have hx1 : At (m.splice dc [u32 (x * x + c)]) (da.add 1) xs :=
            hx'.2.splice_disj ((hdd 0 1 (by omega)).mono (by omega) (by simp))
          have hx0 : At (m.splice dc [u32 (x * x + c)]) da [x] := by
            have : At m da [x] := by rw [At_cons]; exact ⟨hx'.1, At_nil⟩
            exact this.splice_disj ((hdd0 0 1 (by omega)).mono (by simp) (by simp))
          have hc1 : At (m.splice dc [u32 (x * x + c)]) (dc.add 1) cs :=
            hc'.2.splice_disj (.inr (.inr (by simp)))
          refine wp_bind (usqrInner_spec (ys := xs) (cs := cs.take n) (At_cons.1 hx0).1 hx1
            (hc1.take n) hlx (by simp; omega) hdx.1 hdx.2 (hdc.2.take n) (hdd0 _ _ (by omega))
            (hdd _ _ (by omega)) (by omega) ?_)
          intro zs w lz dz hw ez
          -- the digit above
          have hcd : cs.drop n = cs[n]'(by omega) :: cs.drop (n + 1) := List.drop_eq_getElem_cons (by omega)
          generalize hcn : cs[n]'(by omega) = cn at hcd
          have hdcd := hdc.2.drop n
          rw [hcd, Dig_cons] at hdcd
          have hc2 : At ((m.splice dc [u32 (x * x + c)]).splice (dc.add 1) zs) (dc.add (1 + n))
              (cn :: cs.drop (n + 1)) := by
            have := hc1.drop n
            rw [hcd, Ptr.add_add] at this
            exact this.splice_disj (.inr (.inr (by simp only [Ptr.add_off]; omega)))
          have hc2' := At_cons.1 hc2
          refine wp_bind (wp_rd hc2'.1 ?_)
          have e2 : u64 (w + cn) = w + cn := u64_of_lt (by omega)
          simp only [e2]
          refine wp_bind (wp_wr hc2'.1 ?_)
          have hcs := val_take_add_drop cs n
          rw [Nat.min_eq_left (by omega), hcd] at hcs
          simp only [val_cons] at hcs hlt
          have hm3 : ((m.splice dc [u32 (x * x + c)]).splice (dc.add 1) zs).splice (dc.add (1 + n))
              [u32 (w + cn)] = m.splice dc (u32 (x * x + c) :: (zs ++ [u32 (w + cn)])) := by
            rw [Mem.splice_cons, show dc.add (1 + n) = dc.add (u32 (x * x + c) :: zs).length by
              simp [lz, Nat.add_comm], Mem.splice_append]
            rfl
          have hz4 := (hc2'.2.after_write (n := n) (dc := dc.add (1 + n)) (z := u32 (w + cn))
            (Behind.self _ _) (by simp; omega))
          rw [hm3] at hz4 ⊢
          have etot : u32 (x * x + c) + 𝔹 * (val zs + 𝔹 ^ n * (u32 (w + cn) +
              𝔹 * (val (cs.drop (n + 1)) + (w + cn) / 𝔹))) =
              c + 𝔹 * val cs + x * x + 𝔹 * (2 * (x * val xs)) := by
            have h1 : u32 (w + cn) + 𝔹 * (val (cs.drop (n + 1)) + (w + cn) / 𝔹) =
              w + (cn + 𝔹 * val (cs.drop (n + 1))) := by unfold u32; omega
            rw [h1, Nat.mul_add (𝔹 ^ n) w]
            generalize 𝔹 ^ n * (cn + 𝔹 * val (cs.drop (n + 1))) = K at hcs ⊢
            generalize 𝔹 ^ n * w = L at ez ⊢
            unfold u32
            omega
          have hcl : val (cs.drop (n + 1)) + (w + cn) / 𝔹 < 𝔹 ^ n := by
            have h3 : 𝔹 * (𝔹 * (𝔹 ^ n * 𝔹 ^ n)) = 𝔹 * (𝔹 * 𝔹 ^ (2 * n)) := by ring
            have h4 : 𝔹 * (𝔹 ^ n * (𝔹 * (val (cs.drop (n + 1)) + (w + cn) / 𝔹))) ≤
                c + 𝔹 * val cs + x * x + 𝔹 * (2 * (x * val xs)) := by
              rw [← etot]
              refine Nat.le_trans ?_ (Nat.le_add_left _ _)
              refine Nat.mul_le_mul_left _ (Nat.le_trans ?_ (Nat.le_add_left _ _))
              exact Nat.mul_le_mul_left _ (Nat.le_add_left _ _)
            have h5 : 𝔹 * (𝔹 ^ n * (𝔹 * (val (cs.drop (n + 1)) + (w + cn) / 𝔹))) =
              𝔹 * (𝔹 * (𝔹 ^ n * (val (cs.drop (n + 1)) + (w + cn) / 𝔹))) := by ring
            have h6 : 𝔹 ^ n * (val (cs.drop (n + 1)) + (w + cn) / 𝔹) < 𝔹 ^ n * 𝔹 ^ n := by omega
            exact Nat.lt_of_mul_lt_mul_left h6
          refine wp_bind (usqrCarry_spec (n := n) hz4 (by simp; omega) hdcd.2 (by omega) (by omega)
            hcl ?_)
          intro rs lrs drs ers
          refine wp_bind (wp_cassert (by simp) ?_)
          have hm5 : (m.splice dc (u32 (x * x + c) :: (zs ++ [u32 (w + cn)]))).splice
              ((dc.add (1 + n)).add 1) rs = m.splice dc (u32 (x * x + c) :: (zs ++ u32 (w + cn) :: rs)) := by
            have := Mem.splice_append m dc (u32 (x * x + c) :: (zs ++ [u32 (w + cn)])) rs
            simp only [List.length_cons, List.length_append, List.length_nil, lz, List.cons_append,
              List.append_assoc, List.nil_append] at this
            rw [Ptr.add_add, show 1 + n + 1 = n + (0 + 1) + 1 by omega]
            exact this
          rw [hm5]
          obtain ⟨g, rest, hgr⟩ : ∃ g rest, zs ++ u32 (w + cn) :: rs = g :: rest := by
            cases zs with
            | nil => exact ⟨_, _, rfl⟩
            | cons z zs => exact ⟨z, _, rfl⟩
          have hd0 : Dig (g :: rest) := by rw [← hgr]; simp [dz, drs, u32_lt]
          have hl0 : (g :: rest).length = 2 * n + 1 := by rw [← hgr]; simp; omega
          have hv0 : val (g :: rest) = val zs + 𝔹 ^ n * (u32 (w + cn) + 𝔹 * val rs) := by
            rw [← hgr, val_append, lz, val_cons]
          rw [hgr]
          rw [Dig_cons] at hd0
          refine key _ g rest (by simpa using hl0) (u32_lt _) hd0.1 hd0.2 ?_
          rw [val_cons, hv0, ers]
          simpa using etot

theorem s_usqr_spec {da dc : Ptr} {na : Nat} {m : Mem} {xs : List Nat}
    {Q : Unit → Mem → Prop} (hx : At m da xs)
    (hc : At m dc (List.replicate (2 * na) 0)) (hlx : xs.length = na)
    (hdx : Dig xs) (hda : Disj da na dc (2 * na))
    (h : ∀ zs, zs.length = 2 * na → Dig zs → val zs = val xs * val xs →
      Q () (m.splice dc zs)) :
    wp env E (s_usqr da dc na) Q m := by
  unfold s_usqr
  refine usqrOuter_spec hx hc hlx (by simp) hdx (Dig_replicate_zero _) hda ?_ ?_
  · rw [val_replicate_zero, Nat.zero_add, Nat.two_mul, Nat.pow_add, ← hlx]
    exact Nat.mul_lt_mul'' (val_lt hdx) (val_lt hdx)
  · intro zs l d e
    exact h zs l d (by rw [e, val_replicate_zero, Nat.zero_add])

theorem dblLoop_spec {n : Nat} {t : Ptr} {w : Nat} {m : Mem} {xs : List Nat}
    {Q : Nat → Mem → Prop} (hx : At m t xs) (hlx : xs.length = n) (hdx : Dig xs) (hw : w ≤ 1)
    (h : ∀ zs w', zs.length = n → Dig zs → w' ≤ 1 →
      val zs + 𝔹 ^ n * w' = 2 * val xs + w → Q w' (m.splice t zs)) :
    wp env E (dblLoop n t w) Q m := by
  induction n generalizing t w m xs with
  | zero =>
    have h1 : xs = [] := by simpa using hlx
    subst h1
    simpa [dblLoop] using h [] w rfl (by simp) hw (by simp)
  | succ n ih =>
    match xs, hlx with
    | x :: xs, hlx =>
      simp only [List.length_cons, Nat.add_right_cancel_iff] at hlx
      rw [At_cons] at hx
      rw [Dig_cons] at hdx
      unfold dblLoop
      refine wp_bind (wp_rd hx.1 ?_)
      have e0 : x <<< 1 = 2 * x := by rw [Nat.shiftLeft_eq]; omega
      have e1 : u64 (x <<< 1) ||| w = 2 * x + w := by
        rw [u64_of_lt (by rw [e0]; omega), ← Nat.shiftLeft_add_eq_or_of_lt (by omega), e0]
      simp only [e1]
      refine wp_bind (wp_wr hx.1 ?_)
      rw [shr32]
      refine ih (hx.2.after_write (Behind.self _ _) rfl) hlx hdx.2 (by omega) ?_
      intro zs w' hl hz hw' e
      rw [Mem.splice_cons]
      refine h _ _ (by simp [hl]) (by simp [hz, u32_lt]) hw' ?_
      rw [pow_succ_mul]
      simp only [val_cons, u32]
      omega

/-- What `s_ksqr` needs. -/
structure KSqPre (m : Mem) (da dc : Ptr) (na : Nat) (xs os : List Nat) : Prop where
  hx : At m da xs
  ho : At m dc (List.replicate (2 * na) 0 ++ os)
  lx : xs.length = na
  lo : 2 * na + os.length = kext na
  dx : Dig xs
  dos : Dig os
  hda : Disj da na dc (kext na)
  fresh : Fresh m
  thr : 8 ≤ m.mulThr
  na1 : 1 ≤ na
  na2 : na < 67108864

def KSq (env : Env) (E : Fault → Prop) (rec : Ptr → Ptr → Nat → M Int) (N : Nat) : Prop :=
  ∀ (da dc : Ptr) (na : Nat) (m : Mem) (xs os : List Nat) (Q : Int → Mem → Prop),
    KSqPre m da dc na xs os → na ≤ N →
    (∀ (ps : List Nat) (n' : Nat), ps.length = 2 * na → Dig ps → val ps = val xs * val xs →
      m.next ≤ n' → Q 1 ((m.splice dc ps).bump n')) →
    wp env E (rec da dc na) Q m

theorem ksqr_scratch {rec : Ptr → Ptr → Nat → M Int} {b n1 N : Nat}
    {da : Ptr} {m : Mem} {xs0 xs1 : List Nat} {Q : Int → Mem → Prop}
    {K : Ptr → M Int}
    (hrec : KSq env E rec N) (hN : b ≤ N) (hE : Ref env E)
    (hb4 : 4 ≤ b) (hb : b < 67108863) (hn1 : 1 ≤ n1) (hn1b : n1 ≤ b)
    (fresh : Fresh m) (thr : 8 ≤ m.mulThr)
    (hx0 : At m da xs0) (hx1 : At m (da.add b) xs1)
    (lx0 : xs0.length = b) (lx1 : xs1.length = n1)
    (dx0 : Dig xs0) (dx1 : Dig xs1)
    (h : ∀ mk k n t p0 z2 q, KSt mk m k n b t p0 z2 q → m.next ≤ k → k < n →
      Dig p0 → Dig z2 → Dig q →
      val p0 = val xs0 * val xs0 → val z2 = val xs1 * val xs1 →
      val (q.take (2 * b + 1)) = 2 * (val xs0 * val xs1) →
      wp env E (K t) Q mk) :
    wp env E (do
      let t1 ← s_alloc (u32 (4 * u32 (2 * b)))
      let t2 := t1.add (u32 (2 * b))
      let t3 := t2.add (u32 (2 * b))
      ZERO t1 (u32 (4 * u32 (2 * b)))
      let _ ← rec da t1 b
      let _ ← rec (da.add b) t2 n1
      let _ ← s_kmul da (da.add b) t3 b n1
      let top := u32 (b + n1)
      let save ← dblLoop top t3 0
      wr (t3.add top) (u32 save)
      K t1) Q m := by
  have e1 : u32 (2 * b) = 2 * b := u32_of_lt (by omega)
  have e2 : u32 (4 * (2 * b)) = 8 * b := by rw [u32_of_lt (by omega)]; omega
  have e3 : u32 (b + n1) = b + n1 := u32_of_lt (by omega)
  simp only [e1, e2, e3, Ptr.add_add]
  have bx0 : da.base ≠ .heap m.next := fresh.base_ne hx0 (by omega)
  refine wp_bind (wp_mallocD hE ?_)
  intro l ll ld _
  have hk0 := At_alloc m (.heap m.next) l (m.next + 1)
  have hk0e := Extra_alloc (m := m) l (m.next + 1) (fresh m.next (Nat.le_refl _))
  generalize ((m.setDig (.heap m.next) (some l)).bump (m.next + 1)) = mk0 at hk0 hk0e
  refine wp_bind (ZERO_spec hk0 ll (by omega) ?_)
  have hs : KSt (mk0.splice ⟨.heap m.next, 0⟩ (List.replicate (8 * b) 0)) m m.next (m.next + 1) b
      ⟨.heap m.next, 0⟩ (List.replicate (2 * b) 0) (List.replicate (2 * b) 0)
      (List.replicate (4 * b) 0) := by
    have ha := hk0.splice_self (zs := List.replicate (8 * b) 0) (by simp [ll])
    have : List.replicate (8 * b) 0 = List.replicate (2 * b) 0 ++ (List.replicate (2 * b) 0 ++
      List.replicate (4 * b) 0) := by simp; omega
    rw [this, At_append, At_append] at ha
    rw [this]
    simp only [List.length_replicate, Ptr.add_add] at ha
    exact ⟨rfl, hk0e.splice _ rfl, ha.1, ha.2.1, ha.2.2, by simp, by simp, by simp⟩
  generalize mk0.splice ⟨.heap m.next, 0⟩ (List.replicate (8 * b) 0) = mk1 at hs ⊢
  clear hk0 hk0e mk0
  have hkn : m.next < m.next + 1 := by omega
  generalize (⟨.heap m.next, 0⟩ : Ptr) = t at hs
  -- x0^2
  have hke : kext b ≤ 2 * b + 2 := by unfold kext; omega
  have hke2 : 2 * b ≤ kext b := by unfold kext; omega
  have pre : KSqPre mk1 da t b xs0 (List.replicate (kext b - 2 * b) 0) := by
    refine ⟨hs.ex.at bx0 hx0, ?_, lx0, ?_, dx0, Dig_replicate_zero _,
      .inl (hs.base_ne bx0 0), hs.ex.fresh fresh (by omega) (by omega), ?_, by omega, by omega⟩
    · rw [At_append]
      refine ⟨hs.a1, ?_⟩
      have := hs.a2.take (kext b - 2 * b)
      rw [List.take_replicate, Nat.min_eq_left (by omega)] at this
      simpa using this
    · simp; omega
    · rw [hs.ex.thr]; exact thr
  refine wp_bind (hrec _ _ _ _ _ _ _ pre hN ?_)
  intro p0 n' lp0 dp0 ep0 hn'
  rw [hs.ex.next] at hn'
  have hs2 := (hs.set1 (zs := p0) (by omega)).bump n'
  rw [List.drop_eq_nil_of_le (by simp [lp0]), List.append_nil] at hs2
  generalize (mk1.splice t p0).bump n' = mk2 at hs2
  clear pre hs mk1
  -- x1^2
  have hkm : kext n1 ≤ 2 * b + 2 := by unfold kext; omega
  have hkm2 : 2 * n1 ≤ kext n1 := by unfold kext; omega
  have hall : At mk2 (t.add (2 * b)) (List.replicate (2 * n1) 0 ++ List.replicate (kext n1 - 2 * n1) 0) := by
    have h1 : At mk2 (t.add (2 * b)) (List.replicate (2 * b) 0 ++ List.replicate (4 * b) 0) := by
      rw [At_append]; refine ⟨hs2.a2, ?_⟩
      have := hs2.a3
      simpa using this
    have h2 := h1.take (kext n1)
    rw [List.replicate_append_replicate, List.take_replicate, Nat.min_eq_left (by omega)] at h2
    rw [List.replicate_append_replicate, show 2 * n1 + (kext n1 - 2 * n1) = kext n1 by omega]
    exact h2
  have pre : KSqPre mk2 (da.add b) (t.add (2 * b)) n1 xs1 (List.replicate (kext n1 - 2 * n1) 0) := by
    refine ⟨hs2.ex.at bx0 hx1, hall, lx1, ?_, dx1, Dig_replicate_zero _,
      .inl (hs2.base_ne bx0 _), hs2.ex.fresh fresh (by omega) (by omega), ?_, by omega, by omega⟩
    · simp; omega
    · rw [hs2.ex.thr]; exact thr
  refine wp_bind (hrec _ _ _ _ _ _ _ pre (by omega) ?_)
  intro z2 n2' lz2 dz2 ez2 hn2'
  rw [hs2.ex.next] at hn2'
  have hs3 := (hs2.set2 (zs := z2) (by omega)).bump n2'
  rw [List.drop_replicate] at hs3
  have ez2' : val (z2 ++ List.replicate (2 * b - z2.length) 0) = val xs1 * val xs1 := by
    rw [val_append, val_replicate_zero]; omega
  have dz2' : Dig (z2 ++ List.replicate (2 * b - z2.length) 0) := by simp [dz2, Dig_replicate_zero]
  generalize z2 ++ List.replicate (2 * b - z2.length) 0 = z2' at hs3 ez2' dz2'
  generalize (mk2.splice (t.add (2 * b)) z2).bump n2' = mk3 at hs3
  clear pre hall hs2 mk2 ez2 dz2 lz2
  -- x0 * x1
  have pre : KPre mk3 da (da.add b) (t.add (2 * b + 2 * b)) b n1 xs0 xs1
      (List.replicate (kext b - (b + n1)) 0) := by
    refine ⟨hs3.ex.at bx0 hx0, hs3.ex.at bx0 hx1, ?_, lx0, lx1, ?_, dx0, dx1, Dig_replicate_zero _,
      .inl (hs3.base_ne bx0 _), .inl (hs3.base_ne bx0 _), hs3.ex.fresh fresh (by omega) (by omega),
      ?_, by omega, by omega, by omega, by omega⟩
    · have := hs3.a3.take (kext b)
      rw [List.take_replicate, Nat.min_eq_left (by omega)] at this
      rw [List.replicate_append_replicate, show b + n1 + (kext b - (b + n1)) = kext b by omega]
      exact this
    · rw [Nat.max_eq_left hn1b]; simp; omega
    · rw [hs3.ex.thr]; exact thr
  refine wp_bind (s_kmul_simple hE pre ?_ ?_)
  · intro i hi
    rw [List.getElem?_replicate, if_pos (by omega)]
  intro q n3' lq dq eq hn3'
  rw [hs3.ex.next] at hn3'
  have hs4 := (hs3.set3 (zs := q) (by omega)).bump n3'
  generalize (mk3.splice (t.add (2 * b + 2 * b)) q).bump n3' = mk4 at hs4
  clear pre hs3 mk3
  refine wp_bind (dblLoop_spec (At_append.1 hs4.a3).1 lq dq (by omega) ?_)
  intro q2 s lq2 dq2 hs1 eq2
  have hs5 := hs4.set3 (zs := q2 ++ [s]) (by simp; omega)
  rw [u32_of_lt (show s < 4294967296 by omega)]
  have hw1 : (mk4.splice (t.add (2 * b + 2 * b)) q2).get (t.add (2 * b + 2 * b + (b + n1))).base
      (t.add (2 * b + 2 * b + (b + n1))).off = some 0 := by
    have := (hs4.set3 (zs := q2) (by omega)).a3
    rw [At_append] at this
    have h2 := this.2
    rw [lq2, ← lq, List.drop_left, List.drop_replicate, lq,
      show 4 * b - (b + n1) = (4 * b - (b + n1) - 1) + 1 by omega, List.replicate_succ, At_cons,
      Ptr.add_add] at h2
    exact h2.1
  refine wp_bind (wp_wr hw1 ?_)
  rw [show t.add (2 * b + 2 * b + (b + n1)) = (t.add (2 * b + 2 * b)).add q2.length by
    rw [Ptr.add_add, lq2], Mem.splice_append]
  have hdq : (q ++ List.drop q.length (List.replicate (4 * b) 0)).drop (q2 ++ [s]).length =
      List.replicate (4 * b - (b + n1 + 1)) 0 := by
    rw [List.drop_replicate, List.drop_append, List.drop_eq_nil_of_le (by simp; omega),
      List.nil_append, List.drop_replicate]
    congr 1; simp; omega
  rw [hdq] at hs5
  refine h _ _ _ t p0 z2' _ hs5 (Nat.le_refl _) (by omega) dp0 dz2' ?_ ep0 ez2' ?_
  · simp only [Dig_append, Dig_cons, Dig_nil]
    exact ⟨⟨dq2, by omega, trivial⟩, Dig_replicate_zero _⟩
  · rw [List.take_append, List.take_of_length_le (by simp; omega), List.take_replicate, val_append,
      val_replicate_zero, val_append, lq2]
    simp only [val_cons, val_nil, Nat.mul_zero, Nat.add_zero]
    omega

theorem ksqrF_spec (f N : Nat) (hf : N < f) (hE : Ref env E) :
    KSq env E (ksqrF f) N := by
  induction f generalizing N with
  | zero => omega
  | succ f ih =>
    intro da dc na m xs os Q hp hN h
    have hs : KSq env E (ksqrF f) (N - 1) := by
      have := hp.na1
      exact ih (N - 1) (by omega)
    have hna2 := hp.na2
    have hthr := hp.thr
    have lx := hp.lx
    have lo := hp.lo
    have hda := hp.hda
    unfold ksqrF
    refine wp_bind (wp_getMem ?_)
    refine wp_ite (fun hc => ?_) (fun hc => ?_)
    · obtain ⟨_, hc1⟩ := hc
      have eb : u32 (na + 1) = na + 1 := u32_of_lt (by omega)
      have ea : sub32 na ((na + 1) / 2) = na - (na + 1) / 2 := sub32_of_le (by omega) (by omega)
      simp only [eb, ea]
      unfold kext at lo hda
      have hxs := val_take_add_drop xs ((na + 1) / 2)
      have hlx := val_lt hp.dx
      have hb1 : 4 ≤ (na + 1) / 2 := by omega
      have hb2 : na ≤ 2 * ((na + 1) / 2) := by omega
      have hb3 : 2 * ((na + 1) / 2) ≤ na + 1 := by omega
      generalize (na + 1) / 2 = b at *
      rw [Nat.min_eq_left (by omega)] at hxs
      refine ksqr_scratch (rec := ksqrF f) (m := m) (xs0 := xs.take b) (xs1 := xs.drop b) (K := fun t => do
        COPY t dc (u32 (2 * b))
        let carry ← s_uadd ((t.add (u32 (2 * b))).add (u32 (2 * b))) (dc.add b) (dc.add b)
          (u32 (u32 (2 * b) + 1)) (u32 (2 * b))
        cassert (carry = 0)
        let carry ← s_uadd (t.add (u32 (2 * b))) (dc.add (u32 (2 * b))) (dc.add (u32 (2 * b)))
          (u32 (2 * b)) (u32 (2 * b))
        cassert (carry = 0)
        s_free t
        pure 1) hs (by omega) hE hb1 (by omega) (by omega) (by omega)
        hp.fresh hp.thr (hp.hx.take b) (hp.hx.drop b)
        (by rw [List.length_take]; omega) (by simp; omega) (hp.dx.take b) (hp.dx.drop b) ?_
      intro mk k n t p0 z2 q hst hk hkn dp0 dz2 dq ep0 ez2 eq
      have hdcb2 : dc.base ≠ .heap k := by
        intro hh
        have h1 := hp.ho.get (i := 0) (by simp; omega)
        unfold Mem.get at h1
        rw [hh, hp.fresh k hk] at h1
        simp at h1
      have hm1 : val (xs.take b) * val (xs.drop b) ≤ 𝔹 ^ b * 𝔹 ^ b := by
        have h1 := val_lt (hp.dx.take b)
        have h2 := val_lt (hp.dx.drop b)
        have h3 : 𝔹 ^ (xs.drop b).length ≤ 𝔹 ^ b := Nat.pow_le_pow_right (by decide) (by simp; omega)
        have h4 : 𝔹 ^ (xs.take b).length ≤ 𝔹 ^ b := Nat.pow_le_pow_right (by decide) (by rw [List.length_take]; omega)
        exact Nat.mul_le_mul (by omega) (by omega)
      have h2b : 𝔹 ^ (2 * b) = 𝔹 ^ b * 𝔹 ^ b := by rw [← Nat.pow_add, Nat.two_mul]
      refine kmul_combine (na := na) (nb := na) (os := os) (P := val xs * val xs) hst hdcb2 hb1
        (by omega) (by omega) (by omega) (by rw [← Nat.two_mul]; exact hp.ho) (by omega) hp.dos dp0 dz2 dq eq
        (by rw [h2b]; omega) ?_ ?_ ?_
      · rw [ep0, ez2, ← hxs]; ring
      · rw [Nat.pow_add, ← lx]
        exact Nat.mul_lt_mul'' hlx hlx
      · intro ps ts h1 h2 h3 h4 h5 h6
        have : ts = os := List.ext_getElem? fun i => h6 i (by omega)
        subst this
        rw [← Mem.splice_append]
        have h9 : At (m.splice dc ps) (dc.add ps.length) ts := by
          have h8 := (At_append.1 hp.ho).2
          simp only [List.length_replicate] at h8
          rw [h1, ← Nat.two_mul]
          exact h8.splice_disj (.inr (.inr (by simp only [Ptr.add_off]; omega)))
        rw [h9.splice_same]
        exact h ps n (by omega) h2 h3 (by omega)
    · refine wp_bind (s_usqr_spec hp.hx (At_append.1 hp.ho).1 lx hp.dx
        (hda.mono (Nat.le_refl _) (by omega)) ?_)
      intro zs lz dz ez
      exact wp_pure (h zs m.next lz dz ez (Nat.le_refl _))

/-- `s_ksqr` computes the square. -/
theorem s_ksqr_spec {da dc : Ptr} {na : Nat} {m : Mem} {xs os : List Nat}
    {Q : Int → Mem → Prop} (hE : Ref env E)
    (hp : KSqPre m da dc na xs os)
    (h : ∀ (ps : List Nat) (n' : Nat), ps.length = 2 * na → Dig ps → val ps = val xs * val xs →
      m.next ≤ n' → Q 1 ((m.splice dc ps).bump n')) :
    wp env E (s_ksqr da dc na) Q m :=
  ksqrF_spec (na + 1) na (by omega) hE da dc na m xs os Q hp (Nat.le_refl _) h

end Imath
