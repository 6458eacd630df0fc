import Verif.Proof.RatStr

/-! # Input of rationals in positional notation -/

namespace Imath

variable {env : Env} {E : Fault → Prop} {m : Mem} {σ : Id → Option Int} {z : Id} {a b c : MpQ} {x y w v : Int} {p q : ℚ}
  {r : Nat} {str : Bytes} {limit : Int}

theorem small_radix (hr : r ≤ 36) : SMALL_MIN < (r : Int) ∧ (r : Int) ≤ SMALL_MAX := by
  constructor <;> omega

theorem stripLoop_spec {Q : Int → Mem → Prop} {fr : Id} (hE : Ref env E) (hr2 : 2 ≤ r) (hr : r ≤ 36) (ho : fr.own = true) :
    ∀ (f F : Nat) (m : Mem) (σ : Id → Option Int), R2 m σ → σ fr = some (F : Int) → 0 < F → F < r ^ f →
    (∀ m' F' t, F = F' * r ^ t → ¬ r ∣ F' → R2 m' (upd σ fr (some ((F' : Nat) : Int))) → Q MP_OK m') →
    wp env E (stripLoop fr r f) Q m := by
  obtain ⟨s1, s2⟩ := small_radix hr
  intro f
  induction f with
  | zero => intro F m σ _ _ h0 h1; rw [Nat.pow_zero] at h1; omega
  | succ f ih =>
    intro F m σ h hf h0 h1 hQ
    unfold stripLoop
    refine wp_bind (mp_int_divisible_value_spec hE s1 s2 h hf fun m1 h1' => ?_)
    refine wp_ite (fun hd => ?_) fun hd => ?_
    · rw [decide_eq_true_iff] at hd
      obtain ⟨G, hG⟩ := Int.natCast_dvd_natCast.1 hd.2
      refine wp_bind (mp_int_div_value_spec hE s1 s2 h1' hf (by rintro _ ⟨⟩; exact ⟨⟨_, hf⟩, ho⟩) (fun e => by omega) fun _ m2 h2 => ?_)
      refine wp_if_neg (by simp) ?_
      have e : (F : Int).tdiv r = (G : Nat) := by
        rw [hG, Nat.cast_mul, Int.mul_tdiv_cancel_left _ (by omega)]
      rw [e] at h2
      change R2 m2 (upd σ fr (some (G : Int))) at h2
      refine ih G m2 _ h2 (upd_self ..) ?_ ?_ fun m' F' t e1 e2 h' => ?_
      · rcases Nat.eq_zero_or_pos G with h | h
        · subst h; omega
        · exact h
      · rw [hG, Nat.pow_succ, Nat.mul_comm] at h1
        exact Nat.lt_of_mul_lt_mul_right h1
      · rw [upd_upd] at h'
        exact hQ m' F' (t + 1) (by rw [hG, e1, Nat.pow_succ]; ring) e2 h'
    · rw [decide_eq_true_iff] at hd
      refine wp_pure (hQ m1 F 0 (by simp) (fun hdv => hd ⟨by omega, Int.natCast_dvd_natCast.2 hdv⟩) ?_)
      rw [upd_same _ hf]; exact h1'

theorem growLoop_spec {Q : Int → Mem → Prop} {den fr : Id} {F : Nat} (hE : Ref env E) (hr : r ≤ 36) (ho : den.own = true) (hne : fr ≠ den) :
    ∀ (f j : Nat) (m : Mem) (σ : Id → Option Int), R2 m σ → σ fr = some (F : Int) → σ den = some ((r ^ j : Nat) : Int) → F ≤ r ^ (j + f) →
    (∀ m' J, j ≤ J → F ≤ r ^ J → (J = j ∨ r ^ (J - 1) < F) → R2 m' (upd σ den (some ((r ^ J : Nat) : Int))) → Q MP_OK m') →
    wp env E (growLoop den fr r (f + 1)) Q m := by
  obtain ⟨s1, s2⟩ := small_radix hr
  intro f
  induction f with
  | zero =>
    intro j m σ h hf hd h1 hQ
    unfold growLoop
    refine wp_bind (mp_int_compare_spec h hd hf ?_)
    refine wp_if_neg ?_ (wp_pure (hQ m j (Nat.le_refl _) (by simpa using h1) (.inl rfl) (by rw [upd_same _ hd]; exact h)))
    rw [cmpZ_neg, Nat.cast_lt]
    simpa using h1
  | succ f ih =>
    intro j m σ h hf hd h1 hQ
    unfold growLoop
    refine wp_bind (mp_int_compare_spec h hd hf ?_)
    refine wp_ite (fun hlt => ?_) fun hlt => ?_
    · rw [cmpZ_neg, Nat.cast_lt] at hlt
      refine wp_bind (mp_int_mul_value_spec hE s1 s2 h hd hd ho fun m1 h1' => wp_if_neg (by simp) ?_)
      rw [show ((r ^ j : Nat) : Int) * r = ((r ^ (j + 1) : Nat) : Int) by push_cast; ring] at h1'
      refine ih (j + 1) m1 _ h1' (by rw [upd_ne _ _ hne]; exact hf) (upd_self ..) (by rw [show j + 1 + f = j + (f + 1) by omega]; exact h1)
        fun m' J e1 e2 e3 h' => ?_
      rw [upd_upd] at h'
      refine hQ m' J (by omega) e2 (.inr ?_) h'
      rcases e3 with rfl | e3
      · simpa using hlt
      · exact e3
    · rw [cmpZ_neg, Nat.cast_lt] at hlt
      exact wp_pure (hQ m j (Nat.le_refl _) (by omega) (.inl rfl) (by rw [upd_same _ hd]; exact h))

theorem shiftLoop_spec {Q : Int → Mem → Prop} {den : Id} (hE : Ref env E) (hr : r ≤ 36) (ho : den.own = true) :
    ∀ (n j : Nat) (m : Mem) (σ : Id → Option Int), R2 m σ → σ den = some ((r ^ j : Nat) : Int) →
    (∀ m', R2 m' (upd σ den (some ((r ^ (j + n) : Nat) : Int))) → Q MP_OK m') →
    wp env E (shiftLoop den r n) Q m := by
  obtain ⟨s1, s2⟩ := small_radix hr
  intro n
  induction n with
  | zero =>
    intro j m σ h hd hQ
    unfold shiftLoop
    exact wp_pure (hQ m (by rw [Nat.add_zero, upd_same _ hd]; exact h))
  | succ n ih =>
    intro j m σ h hd hQ
    unfold shiftLoop
    refine wp_bind (mp_int_mul_value_spec hE s1 s2 h hd hd ho fun m1 h1 => wp_if_neg (by simp) ?_)
    rw [show ((r ^ j : Nat) : Int) * r = ((r ^ (j + 1) : Nat) : Int) by push_cast; ring] at h1
    refine ih (j + 1) m1 _ h1 (upd_self ..) fun m' h' => hQ m' ?_
    rw [upd_upd, show j + 1 + n = j + (n + 1) by omega] at h'
    exact h'

theorem countZero_spec {Q : Nat → Mem → Prop} {c : Nat} {R : Bytes} (hc : c ≠ 48) :
    ∀ (n : Nat) (P : Bytes) (f : Nat), n < f → Q n m →
    wp env E (countZero (P ++ (List.replicate n 48 ++ c :: R)) f P.length) Q m := by
  intro n
  induction n generalizing Q with
  | zero =>
    intro P f hf hQ
    obtain ⟨f, rfl⟩ : ∃ g, f = g + 1 := ⟨f - 1, by omega⟩
    unfold countZero
    exact wp_bind (wp_bget getElem?_append_len (wp_if_neg hc (wp_pure hQ)))
  | succ n ih =>
    intro P f hf hQ
    obtain ⟨f, rfl⟩ : ∃ g, f = g + 1 := ⟨f - 1, by omega⟩
    unfold countZero
    refine wp_bind (wp_bget getElem?_append_len (wp_if_pos rfl (wp_bind ?_)))
    have := ih (Q := fun n m' => wp env E (pure (n + 1)) Q m') (P ++ [48]) f (by omega) (wp_pure hQ)
    simpa [List.replicate_succ] using this

/-! ### Arithmetic of the fractional part -/

theorem digits_split {fs : Bytes} {us : List Nat} (hF : List.Forall₂ (IsDigit r) fs us) (hnz : Nat.ofDigits r us.reverse ≠ 0) :
    ∃ n c fs' , fs = List.replicate n 48 ++ c :: fs' ∧ c ≠ 48 ∧
      (r ^ (fs.length - n - 1) ≤ Nat.ofDigits r us.reverse) := by
  induction hF with
  | nil => simp at hnz
  | @cons c u fs us hcu hF ih =>
    have hl := hF.length_eq
    rw [List.reverse_cons, Nat.ofDigits_append, Nat.ofDigits_singleton, List.length_reverse] at hnz ⊢
    by_cases h : c = 48
    · have hu : u = 0 := by
        obtain ⟨_, h2⟩ := hcu
        unfold digitChar at h2
        rcases h2 with h2 | h2
        · split at h2 <;> omega
        · omega
      subst hu
      rw [Nat.mul_zero, Nat.add_zero] at hnz ⊢
      obtain ⟨n, c', fs', e1, e2, e3⟩ := ih hnz
      refine ⟨n + 1, c', fs', by rw [h, e1]; simp [List.replicate_succ], e2, ?_⟩
      rw [List.length_cons, show fs.length + 1 - (n + 1) - 1 = fs.length - n - 1 by omega]
      exact e3
    · refine ⟨0, c, fs, by simp, h, ?_⟩
      have hu : u ≠ 0 := by
        rintro rfl
        obtain ⟨_, h2⟩ := hcu
        unfold digitChar at h2
        rcases h2 with h2 | h2
        · exact h (by simpa using h2)
        · omega
      rw [List.length_cons, show fs.length + 1 - 0 - 1 = fs.length by omega, hl]
      have := Nat.mul_le_mul (Nat.le_refl (r ^ us.length)) (Nat.one_le_iff_ne_zero.2 hu)
      omega

theorem digits_lt {fs : Bytes} {us : List Nat} (hr2 : 2 ≤ r) (hF : List.Forall₂ (IsDigit r) fs us) :
    Nat.ofDigits r us.reverse < r ^ fs.length := by
  have hd : ∀ u ∈ us.reverse, u < r := by
    intro u hu
    rw [List.mem_reverse] at hu
    induction hF with
    | nil => simp at hu
    | cons h _ ih =>
      rcases List.mem_cons.1 hu with rfl | hu
      · exact h.1
      · exact ih hu
  have := Nat.ofDigits_lt_base_pow_length (b := r) (l := us.reverse) (by omega) hd
  rwa [List.length_reverse, ← hF.length_eq] at this

theorem digits_drop_lt {fs : Bytes} {us : List Nat} {n c : Nat} {fs' : Bytes} (hr2 : 2 ≤ r) (hF : List.Forall₂ (IsDigit r) fs us)
    (e : fs = List.replicate n 48 ++ c :: fs') : Nat.ofDigits r us.reverse < r ^ (fs.length - n) := by
  subst e
  induction n generalizing us with
  | zero => simpa using digits_lt hr2 hF
  | succ n ih =>
    rw [List.replicate_succ, List.cons_append] at hF ⊢
    cases hF with
    | @cons _ u _ us hcu hF =>
      have hu : u = 0 := by
        obtain ⟨_, h2⟩ := hcu
        unfold digitChar at h2
        rcases h2 with h2 | h2
        · split at h2 <;> omega
        · omega
      subst hu
      rw [List.reverse_cons, Nat.ofDigits_append, Nat.ofDigits_singleton, Nat.mul_zero, Nat.add_zero, List.length_cons]
      refine Nat.lt_of_lt_of_le (ih hF) (Nat.pow_le_pow_right (by omega) ?_)
      simp only [List.length_append, List.length_cons, List.length_replicate]; omega

/-- The power of the radix found is the number of digits. -/
theorem frac_exp {F F' t J L n : Nat} (hr2 : 2 ≤ r) (hF : F = F' * r ^ t) (hnd : ¬ r ∣ F') (hJ1 : 1 ≤ J) (hJ : F' ≤ r ^ J)
    (hJ2 : J = 1 ∨ r ^ (J - 1) < F') (h1 : r ^ (L - n - 1) ≤ F) (h2 : F < r ^ (L - n)) (hn : n < L) : L = J + n + t := by
  have hr1 : 1 < r := hr2
  have hlt : F' < r ^ J := by
    refine lt_of_le_of_ne hJ fun e => hnd ?_
    rw [e]; exact dvd_pow_self r (by omega)
  have hF0 : 0 < F' := Nat.pos_of_ne_zero fun e => hnd (by rw [e]; exact dvd_zero r)
  have hge : r ^ (J - 1) ≤ F' := by
    rcases hJ2 with rfl | h
    · rw [Nat.sub_self, Nat.pow_zero]; exact hF0
    · omega
  have h3 : r ^ (J - 1 + t) ≤ F := by
    rw [hF, Nat.pow_add]; exact Nat.mul_le_mul_right _ hge
  have h4 : F < r ^ (J + t) := by
    rw [hF, Nat.pow_add]
    exact Nat.mul_lt_mul_of_pos_right hlt (Nat.pow_pos (by omega))
  have e1 := (Nat.pow_lt_pow_iff_right hr1).1 (Nat.lt_of_le_of_lt h3 h2)
  have e2 := (Nat.pow_lt_pow_iff_right hr1).1 (Nat.lt_of_le_of_lt h1 h4)
  omega

theorem frac_value {F F' t J L n N : Nat} (hr2 : 2 ≤ r) (hF : F = F' * r ^ t) (hL : L = J + n + t) (s : Int) :
    Rat.divInt (s * ((N * r ^ (J + n) + F' : Nat) : Int)) ((r ^ (J + n) : Nat) : Int) = s * (N + (F : ℚ) / (r : ℚ) ^ L) := by
  have hr0 : (r : ℚ) ≠ 0 := by exact_mod_cast (by omega : r ≠ 0)
  rw [Rat.divInt_eq_div, hF, hL, pow_add (r : ℚ) (J + n) t]
  push_cast
  field_simp

/-! ### The functions -/

theorem readFrac_spec {Q : Int × Option Nat → Mem → Prop} {P fs rest : Bytes} {us : List Nat} {ch N : Nat} {neg : Bool}
    (hE : Ref env E) (hr2 : 2 ≤ r) (hr : r ≤ 36) (hF : List.Forall₂ (IsDigit r) fs us) (hch : ∀ d, ¬ IsDigit r ch d)
    (hhead : fs = [] → ¬ IsSpace ch ∧ ch ≠ 43 ∧ ch ≠ 45)
    (h0 : 0 ∈ (fs ++ ch :: rest).take 800000001)
    (h : R2 m σ) (hc : OutQ σ c) (hn : σ c.num = some ((if neg = true then -1 else 1) * (N : Int))) (hd : σ c.den = some 1)
    (hQ : ∀ m', R2 m' (updQ σ c ((if neg = true then -1 else 1) * (N + (Nat.ofDigits r us.reverse : Nat) / (r : ℚ) ^ fs.length))) →
      Q (if ch = 0 then MP_OK else MP_TRUNC, some (P.length + fs.length)) m') :
    wp env E (readFrac c r (P ++ (fs ++ ch :: rest)) P.length neg) Q m := by
  obtain ⟨s1, s2⟩ := small_radix hr
  unfold readFrac
  refine withInit_spec h fun T σ1 m1 g h1 => ?_
  have hn1 : σ1 c.num = some _ := g.out hn
  refine wp_bind ?_
  rw [List.drop_left]
  have hrd := @read_cstring_spec' env E m1 σ1 (T 0) 0 (fun p m' => wp env E (if p.1 ≠ MP_OK ∧ p.1 ≠ MP_TRUNC then pure (p.1, none) else do
    let k ← mp_int_compare_zero (T 0)
    if k = 0 then pure (p.1, some (P.length + p.2)) else do
    let res ← stripLoop (T 0) r ((P ++ (fs ++ ch :: rest)).length + 1)
    if res ≠ MP_OK then pure (res, none) else do
    let num_lz ← countZero (P ++ (fs ++ ch :: rest)) ((P ++ (fs ++ ch :: rest)).length + 1) P.length
    let _ ← cint num_lz
    let _ ← mp_int_set_value c.den r
    let res ←
      REQUIRE (growLoop c.den (T 0) r ((P ++ (fs ++ ch :: rest)).length + 1)) <|
      REQUIRE (shiftLoop c.den r num_lz) <|
      REQUIRE (mp_int_mul c.num c.den c.num) do
        setSign c.num false
        REQUIRE (mp_int_add c.num (T 0) c.num) do
          setSign c.num neg
          s_rat_reduce c
    if res ≠ MP_OK then pure (res, none)
    else pure (p.1, some (P.length + p.2))) (fun r m'' => TDone 1 T Q r m'') m') r ch [] [] fs rest us hE hr2 hr (by simp) (.inl rfl) hF hch
    (fun _ e => hhead e) h0 (g.ow 0) h1 (g.get 0)
  refine hrd fun m2 h2 => ?_
  clear hrd
  rw [if_neg (by simp), one_mul] at h2
  generalize hFv : Nat.ofDigits r us.reverse = F at *
  obtain ⟨σ2, r2, g2⟩ := g.up 0 h2
  tsimp at g2
  clear h2 h1 g hn1
  refine wp_if_neg (by dsimp only; split <;> simp) (wp_bind (mp_int_compare_zero_spec r2 (g2.get 0) ?_))
  have efin : ([] ++ [] ++ fs : Bytes).length = fs.length := rfl
  have hl : fs.length ≤ 800000000 := by
    by_contra hlt
    rw [List.take_append_of_le_length (by omega)] at h0
    exact digits_ne hr hF (List.mem_of_mem_take h0)
  by_cases hz : F = 0
  · subst hz
    refine wp_if_pos (by simp [L]) (wp_pure (.mk g2 r2 fun m3 h3 => hQ m3 ?_))
    have e : updQ σ c ((if neg = true then -1 else 1) * (N + ((0 : Nat) : ℚ) / (r : ℚ) ^ fs.length)) = σ := by
      have e2 : ((if neg = true then -1 else 1) * (N + ((0 : Nat) : ℚ) / (r : ℚ) ^ fs.length)) =
          ((((if neg = true then -1 else 1) * (N : Int) : Int)) : ℚ) := by
        push_cast; split <;> simp
      rw [e2]
      unfold updQ
      rw [Rat.num_intCast, Rat.den_intCast, upd_same _ hn]
      exact upd_same _ hd
    rw [e]; exact h3
  · refine wp_if_neg (by simpa [L] using hz) (wp_bind (stripLoop_spec hE hr2 hr (g2.ow 0) _ F m2 σ2 r2 (g2.get 0) (Nat.pos_of_ne_zero hz) ?_
      fun m3 F' t hFt hnd h3 => wp_if_neg (by simp) ?_))
    · rw [← hFv]
      refine Nat.lt_of_lt_of_le (digits_lt hr2 hF) (Nat.pow_le_pow_right (by omega) ?_)
      simp only [List.length_append]; omega
    obtain ⟨σ3, r3, g3⟩ := g2.up 0 h3
    tsimp at g3
    clear h3 g2 r2
    obtain ⟨n, c0, fs', efs, hc0, hlo⟩ := digits_split hF (by rw [hFv]; exact hz)
    have hhi := digits_drop_lt hr2 hF efs
    rw [hFv] at hlo hhi
    have hnl : n < fs.length := by rw [efs]; simp
    refine wp_bind ?_
    have estr : P ++ (fs ++ ch :: rest) = P ++ (List.replicate n 48 ++ c0 :: (fs' ++ ch :: rest)) := by rw [efs]; simp
    rw [estr]
    refine countZero_spec hc0 n P _ (by simp; omega) (wp_bind (wp_cint (by omega) (by omega) ?_))
    rw [← estr]
    refine wp_bind (mp_int_set_value_spec hE s1 s2 r3 (g3.out hd) hc.oden fun m4 h4 => ?_)
    obtain ⟨σ4, r4, g4⟩ := g3.up_out hd h4
    clear h4 g3 r3
    have nf : T 0 ≠ c.den := g4.ne (upd_self ..) 0 (by omega)
    unfold REQUIRE
    refine wp_bind ?_
    refine wp_bind (growLoop_spec (F := F') hE hr hc.oden nf (P ++ (fs ++ ch :: rest)).length 1 m4 σ4 r4 (g4.get 0)
      (by rw [Nat.pow_one]; exact g4.out (upd_self ..)) ?_ fun m5 J hJ1 hJ hJ2 h5 => wp_if_neg (by simp) ?_)
    · have h1 := digits_lt hr2 hF
      rw [hFv, hFt] at h1
      have h2 : F' ≤ F' * r ^ t := Nat.le_mul_of_pos_right _ (Nat.pow_pos (by omega))
      refine Nat.le_of_lt (Nat.lt_of_lt_of_le (Nat.lt_of_le_of_lt h2 h1) (Nat.pow_le_pow_right (by omega) ?_))
      simp only [List.length_append]; omega
    obtain ⟨σ5, r5, g5⟩ := g4.up_out (upd_self ..) h5
    rw [upd_upd] at g5
    clear h5 g4 r4
    refine wp_bind (shiftLoop_spec hE hr hc.oden n J m5 σ5 r5 (g5.out (upd_self ..)) fun m6 h6 => wp_if_neg (by simp) ?_)
    obtain ⟨σ6, r6, g6⟩ := g5.up_out (upd_self ..) h6
    rw [upd_upd] at g6
    clear h6 g5 r5
    have hn6 : upd σ c.den (some ((r ^ (J + n) : Nat) : Int)) c.num = some ((if neg = true then -1 else 1) * (N : Int)) := by
      rw [upd_ne _ _ hc.ne]; exact hn
    refine wp_bind (mp_int_mul_spec hE r6 (g6.out hn6) (g6.out (upd_self ..)) (g6.out hn6) hc.onum fun m7 h7 => wp_if_neg (by simp) ?_)
    obtain ⟨σ7, r7, g7⟩ := g6.up_out hn6 h7
    clear h7 g6 r6
    refine wp_bind (setSign_spec r7 (g7.out (upd_self ..)) (by simp) fun m8 h8 => ?_)
    obtain ⟨σ8, r8, g8⟩ := g7.up_out (upd_self ..) h8
    rw [upd_upd] at g8
    clear h8 g7 r7
    have e8 : sval false (((if neg = true then -1 else 1) * (N : Int)) * ((r ^ (J + n) : Nat) : Int)).natAbs = ((N * r ^ (J + n) : Nat) : Int) := by
      rw [Int.natAbs_mul]
      cases neg <;> simp [sval, Int.natAbs_pow]
    rw [e8] at g8
    refine wp_bind (mp_int_add_spec hE r8 (g8.out (upd_self ..)) (g8.get 0) (g8.out (upd_self ..)) hc.onum fun m9 h9 => wp_if_neg (by simp) ?_)
    obtain ⟨σ9, r9, g9⟩ := g8.up_out (upd_self ..) h9
    rw [upd_upd] at g9
    clear h9 g8 r8
    tsimp at g9
    have hF'0 : F' ≠ 0 := fun e => hnd (by rw [e]; exact dvd_zero r)
    refine wp_bind (setSign_spec r9 (g9.out (upd_self ..)) (fun _ => by omega) fun m10 h10 => ?_)
    obtain ⟨σ10, r10, g10⟩ := g9.up_out (upd_self ..) h10
    rw [upd_upd] at g10
    clear h10 g9 r9
    have e10 : sval neg (((N * r ^ (J + n) : Nat) : Int) + (F' : Int)).natAbs = (if neg = true then -1 else 1) * ((N * r ^ (J + n) + F' : Nat) : Int) := by
      rw [← Nat.cast_add, Int.natAbs_natCast]
      cases neg <;> simp [sval]
    rw [e10] at g10
    have hden : upd (upd σ c.den (some ((r ^ (J + n) : Nat) : Int))) c.num
        (some ((if neg = true then -1 else 1) * ((N * r ^ (J + n) + F' : Nat) : Int))) c.den = some ((r ^ (J + n) : Nat) : Int) := by
      rw [upd_ne _ _ hc.ne.symm, upd_self]
    have hp : r ^ (J + n) ≠ 0 := by
      have : 0 < r ^ (J + n) := Nat.pow_pos (by omega)
      omega
    refine s_rat_reduce_spec hE r10 (g10.out (upd_self ..)) (g10.out hden) (fun _ => by exact_mod_cast hp)
      ⟨hc.ne, ⟨_, g10.out (upd_self ..)⟩, ⟨_, g10.out hden⟩, hc.onum, hc.oden⟩ fun m11 h11 => wp_if_neg (by simp) (wp_pure ?_)
    have g11 := g10.updQ (q := Rat.divInt ((if neg = true then -1 else 1) * ((N * r ^ (J + n) + F' : Nat) : Int)) ((r ^ (J + n) : Nat) : Int))
      ((hc.upd c.den ((r ^ (J + n) : Nat) : Int)).upd c.num _)
    refine .mk g11 h11 fun m12 h12 => hQ m12 ?_
    rw [upd_comm _ _ _ hc.ne.symm, updQ_upd2 hc.ne, frac_value hr2 hFt (frac_exp hr2 hFt hnd hJ1 hJ hJ2 hlo hhi hnl)] at h12
    have e : (((if neg = true then -1 else 1 : Int)) : ℚ) = if neg = true then -1 else 1 := by split <;> simp
    rw [e] at h12
    exact h12


theorem isspace_iff (c : Nat) : isspace c = true ↔ IsSpace c := by
  unfold isspace IsSpace
  simp only [decide_eq_true_eq]

theorem upd_same' {z : Id} {v : Int} (h : σ z = some v) : upd σ z (some v) = σ := upd_same _ h

/-- The part before the decimal point. -/
theorem cdecimal_head {Q : Int × Option Nat → Mem → Prop} {w sg ds R : Bytes} {vs : List Nat} {c1 : Nat}
    (hE : Ref env E) (hr2 : 2 ≤ r) (hr : r ≤ 36)
    (hw : ∀ x ∈ w, IsSpace x) (hsg : sg = [] ∨ sg = [43] ∨ sg = [45]) (hF : List.Forall₂ (IsDigit r) ds vs)
    (hc1 : ∀ d, ¬ IsDigit r c1 d) (hhead : sg = [] → ds = [] → ¬ IsSpace c1 ∧ c1 ≠ 43 ∧ c1 ≠ 45)
    (h0 : 0 ∈ (w ++ sg ++ ds ++ c1 :: R).take 800000001)
    (h : R2 m σ) (hc : OutQ σ c)
    (hQ : ∀ m', R2 m' (upd (upd σ c.num (some ((if sg = [45] then -1 else 1) * ((Nat.ofDigits r vs.reverse : Nat) : Int)))) c.den (some 1)) →
      wp env E (if c1 ≠ 46 then pure (if c1 = 0 then MP_OK else MP_TRUNC, some (w ++ sg ++ ds).length) else do
        let c' ← bget (w ++ sg ++ ds ++ c1 :: R) ((w ++ sg ++ ds).length + 1)
        if c' = 0 then pure (MP_OK, some ((w ++ sg ++ ds).length + 1))
        else if isspace c' = true ∨ c' = 45 ∨ c' = 43 then pure (MP_TRUNC, none)
        else readFrac c r (w ++ sg ++ ds ++ c1 :: R) ((w ++ sg ++ ds).length + 1) (decide (sg = [45]))) Q m') :
    wp env E (mp_rat_read_cdecimal c r (w ++ sg ++ ds ++ c1 :: R)) Q m := by
  obtain ⟨u1, hu1⟩ := hc.num
  obtain ⟨u2, hu2⟩ := hc.den
  have z1 : 0 ∈ (ds ++ c1 :: R).take 800000001 := by
    rw [List.append_assoc (w ++ sg)] at h0
    exact nul_later (by simp [space_ne hw, sign_ne hsg]) h0
  have key : ∃ c0 R0, sg ++ ds ++ c1 :: R = c0 :: R0 ∧ ¬ IsSpace c0 ∧ (c0 = 45 ↔ sg = [45]) := by
    rcases hsg with rfl | rfl | rfl
    · cases hF with
      | nil =>
        obtain ⟨e1, e2, e3⟩ := hhead rfl rfl
        exact ⟨c1, R, rfl, e1, by simp [e3]⟩
      | @cons d u ds vs hd _ =>
        have := hd.range hr
        exact ⟨d, _, rfl, by unfold IsSpace; omega, by simp; omega⟩
    · exact ⟨43, _, rfl, by unfold IsSpace; omega, by simp⟩
    · exact ⟨45, _, rfl, by unfold IsSpace; omega, by simp⟩
  obtain ⟨c0, R0, e0, hs0, h45⟩ := key
  have estr : w ++ sg ++ ds ++ c1 :: R = [] ++ (w ++ c0 :: R0) := by
    rw [← e0]; simp
  unfold mp_rat_read_cdecimal
  refine wp_bind ?_
  rw [estr]
  refine skipSpace_spec hs0 w [] _ (by simp) hw ?_
  rw [show ([] : Bytes).length + w.length = w.length by simp]
  refine wp_bind (wp_bget (by rw [List.nil_append]; exact getElem?_append_len) ?_)
  refine wp_bind ?_
  rw [show ([] ++ (w ++ c0 :: R0) : Bytes).drop w.length = [] ++ sg ++ ds ++ c1 :: R by
    rw [List.nil_append, List.drop_left, ← e0]; simp]
  refine read_cstring_spec' hE hr2 hr (by simp) hsg hF hc1 hhead z1 hc.onum h hu1 fun m1 h1 => ?_
  refine wp_if_neg (by dsimp only; split <;> simp) ?_
  refine wp_bind (mp_int_set_value_spec hE (by decide) (by decide) h1 (by rw [upd_ne _ _ hc.ne.symm]; exact hu2) hc.oden fun m2 h2 => ?_)
  have hQ' := hQ m2 h2
  rw [estr] at hQ'
  have el : w.length + ([] ++ sg ++ ds : Bytes).length = (w ++ sg ++ ds).length := by simp
  have eb : ([] ++ (w ++ c0 :: R0) : Bytes)[(w ++ sg ++ ds).length]? = some c1 := by
    rw [← estr]; exact getElem?_append_len
  have es : decide (c0 = 45) = decide (sg = [45]) := by simp only [h45]
  show wp env E (bget _ (w.length + ([] ++ sg ++ ds : Bytes).length) >>= fun c => _) Q m2
  rw [el]
  refine wp_bind (wp_bget eb ?_)
  rw [es]
  exact hQ'

/-- A numeral with a decimal point. -/
theorem mp_rat_read_cdecimal_spec {Q : Int × Option Nat → Mem → Prop} {w sg ds fs rest : Bytes} {vs us : List Nat} {ch : Nat}
    (hE : Ref env E) (hr2 : 2 ≤ r) (hr : r ≤ 36)
    (hw : ∀ x ∈ w, IsSpace x) (hsg : sg = [] ∨ sg = [43] ∨ sg = [45]) (hF : List.Forall₂ (IsDigit r) ds vs)
    (hG : List.Forall₂ (IsDigit r) fs us) (hch : ∀ d, ¬ IsDigit r ch d) (hfs : fs = [] → ¬ IsSpace ch ∧ ch ≠ 43 ∧ ch ≠ 45)
    (h0 : 0 ∈ (w ++ sg ++ ds ++ 46 :: (fs ++ ch :: rest)).take 800000001)
    (h : R2 m σ) (hc : OutQ σ c)
    (hQ : ∀ m', R2 m' (updQ σ c ((if sg = [45] then -1 else 1) *
        ((Nat.ofDigits r vs.reverse : Nat) + (Nat.ofDigits r us.reverse : Nat) / (r : ℚ) ^ fs.length))) →
      Q (if ch = 0 then MP_OK else MP_TRUNC, some (w ++ sg ++ ds ++ [46] ++ fs).length) m') :
    wp env E (mp_rat_read_cdecimal c r (w ++ sg ++ ds ++ 46 :: (fs ++ ch :: rest))) Q m := by
  refine cdecimal_head hE hr2 hr hw hsg hF (fun d => not_isDigit_of_lt hr (by omega)) (fun _ _ => ⟨by unfold IsSpace; omega, by omega, by omega⟩)
    h0 h hc fun m1 h1 => wp_if_neg (by simp) ?_
  have z1 : 0 ∈ (fs ++ ch :: rest).take 800000001 := by
    rw [show w ++ sg ++ ds ++ 46 :: (fs ++ ch :: rest) = (w ++ sg ++ ds ++ [46]) ++ (fs ++ ch :: rest) by simp] at h0
    exact nul_later (by simp [space_ne hw, sign_ne hsg, digits_ne hr hF]) h0
  have ep : (w ++ sg ++ ds).length + 1 = (w ++ sg ++ ds ++ [46]).length := by
    simp only [List.length_append, List.length_singleton]
  have estr : w ++ sg ++ ds ++ 46 :: (fs ++ ch :: rest) = (w ++ sg ++ ds ++ [46]) ++ (fs ++ ch :: rest) := by simp
  rw [ep, estr]
  generalize hV : Nat.ofDigits r vs.reverse = N at *
  have hn : (upd (upd σ c.num (some ((if sg = [45] then -1 else 1) * (N : Int)))) c.den (some 1)) c.num =
      some ((if decide (sg = [45]) = true then -1 else 1) * (N : Int)) := by
    rw [upd_ne _ _ hc.ne, upd_self]; simp only [decide_eq_true_eq]
  have hfin : ∀ m', R2 m' (updQ (upd (upd σ c.num (some ((if sg = [45] then -1 else 1) * (N : Int)))) c.den (some 1)) c
      ((if decide (sg = [45]) = true then -1 else 1) * (N + (Nat.ofDigits r us.reverse : Nat) / (r : ℚ) ^ fs.length))) →
      Q (if ch = 0 then MP_OK else MP_TRUNC, some ((w ++ sg ++ ds ++ [46]).length + fs.length)) m' := by
    intro m' h'
    rw [updQ_upd2 hc.ne] at h'
    simp only [decide_eq_true_eq] at h'
    have := hQ m' h'
    rwa [List.length_append (bs := fs)] at this
  cases hG with
  | nil =>
    refine wp_bind (wp_bget (by exact getElem?_append_len) ?_)
    refine wp_ite (fun e => ?_) fun e => ?_
    · have := hfin m1 ?_
      · rw [if_pos e] at this
        exact wp_pure this
      · have e2 : ((if decide (sg = [45]) = true then -1 else 1) * ((N : ℚ) + ((Nat.ofDigits r ([] : List Nat).reverse : Nat) : ℚ) / (r : ℚ) ^ ([] : Bytes).length)) =
            (((if sg = [45] then -1 else 1) * (N : Int) : Int) : ℚ) := by
          push_cast; simp [Nat.ofDigits]
        rw [e2]
        unfold updQ
        rw [Rat.num_intCast, Rat.den_intCast, upd_comm (upd σ c.num _) _ _ hc.ne.symm, upd_upd, upd_upd]
        exact h1
    · obtain ⟨a1, a2, a3⟩ := hfs rfl
      refine wp_if_neg (by rw [isspace_iff]; tauto) (readFrac_spec hE hr2 hr .nil hch hfs z1 h1 ((hc.upd _ _).upd _ _) hn (upd_self ..) hfin)
  | @cons d u fs us hd hG =>
    have := hd.range hr
    refine wp_bind (wp_bget (by exact getElem?_append_len) (wp_if_neg (by omega) ?_))
    refine wp_if_neg (by rw [isspace_iff]; unfold IsSpace; omega) (readFrac_spec hE hr2 hr (.cons hd hG) hch (by simp) z1 h1 ((hc.upd _ _).upd _ _) hn (upd_self ..) hfin)

/-- A numeral without a decimal point. -/
theorem mp_rat_read_cdecimal_int {Q : Int × Option Nat → Mem → Prop} {w sg ds R : Bytes} {vs : List Nat} {c1 : Nat}
    (hE : Ref env E) (hr2 : 2 ≤ r) (hr : r ≤ 36)
    (hw : ∀ x ∈ w, IsSpace x) (hsg : sg = [] ∨ sg = [43] ∨ sg = [45]) (hF : List.Forall₂ (IsDigit r) ds vs)
    (hc1 : ∀ d, ¬ IsDigit r c1 d) (hhead : sg = [] → ds = [] → ¬ IsSpace c1 ∧ c1 ≠ 43 ∧ c1 ≠ 45) (h46 : c1 ≠ 46)
    (h0 : 0 ∈ (w ++ sg ++ ds ++ c1 :: R).take 800000001)
    (h : R2 m σ) (hc : OutQ σ c)
    (hQ : ∀ m', R2 m' (updQ σ c (((if sg = [45] then -1 else 1) * ((Nat.ofDigits r vs.reverse : Nat) : Int) : Int) : ℚ)) →
      Q (if c1 = 0 then MP_OK else MP_TRUNC, some (w ++ sg ++ ds).length) m') :
    wp env E (mp_rat_read_cdecimal c r (w ++ sg ++ ds ++ c1 :: R)) Q m := by
  refine cdecimal_head hE hr2 hr hw hsg hF hc1 hhead h0 h hc fun m1 h1 => wp_if_pos h46 (wp_pure (hQ m1 ?_))
  unfold updQ
  rw [Rat.num_intCast, Rat.den_intCast]
  exact h1

end Imath
