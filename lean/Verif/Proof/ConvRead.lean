import Verif.Proof.ConvLen
import Mathlib.Tactic.FieldSimp

/-! # Input of strings -/

namespace Imath

variable {env : Env} {E : Fault → Prop} {m : Mem} {s : Id → Option Cell} {σ : Id → Option Int} {z : Id} {v : Int}

/-! ### Characters -/

theorem IsDigit.ch2val {r c d : Nat} (hr : r ≤ 36) (h : IsDigit r c d) : s_ch2val c r = d := by
  obtain ⟨h1, h2⟩ := h
  have hd : d < 36 := by omega
  rcases h2 with h2 | ⟨h2, h3⟩
  · unfold digitChar at h2
    by_cases h10 : d < 10
    · rw [if_pos h10] at h2
      subst h2
      unfold s_ch2val
      rw [if_pos (by simp [isdigit]; omega), if_neg (by push_cast; omega)]
      push_cast; omega
    · rw [if_neg h10] at h2
      subst h2
      unfold s_ch2val
      have e : toupper (55 + d) = 55 + d := by unfold toupper; rw [if_neg (by omega)]
      rw [if_neg (by simp [isdigit]; omega), if_pos ⟨by omega, by simp [isalpha]; omega⟩, e, if_neg (by push_cast; omega)]
      push_cast; omega
  · subst h3
    unfold s_ch2val
    have e : toupper (87 + d) = 55 + d := by unfold toupper; rw [if_pos (by omega)]; omega
    rw [if_neg (by simp [isdigit]; omega), if_pos ⟨by omega, by simp [isalpha]; omega⟩, e, if_neg (by push_cast; omega)]
    push_cast; omega

theorem ch2val_neg {r c : Nat} (h : ∀ d, ¬ IsDigit r c d) : s_ch2val c r = -1 := by
  unfold s_ch2val
  split
  · rename_i hd
    simp only [isdigit, decide_eq_true_eq] at hd
    split
    · rfl
    · exfalso
      refine h (c - 48) ⟨by omega, .inl ?_⟩
      unfold digitChar; rw [if_pos (by omega)]; omega
  · split
    · rename_i h1 h2
      obtain ⟨h2, h3⟩ := h2
      simp only [isalpha, decide_eq_true_eq] at h3
      split
      · rfl
      · rename_i h4
        exfalso
        rcases h3 with h3 | h3
        · have e : toupper c = c := by unfold toupper; rw [if_neg (by omega)]
          rw [e] at h4
          refine h (c - 55) ⟨by omega, .inl ?_⟩
          unfold digitChar; rw [if_neg (by omega)]; omega
        · have e : toupper c = c - 32 := by unfold toupper; rw [if_pos (by omega)]
          rw [e] at h4
          refine h (c - 87) ⟨by omega, .inr ⟨by omega, by omega⟩⟩
    · rfl

theorem IsDigit.range {r c d : Nat} (hr : r ≤ 36) (h : IsDigit r c d) : 48 ≤ c ∧ c < 123 := by
  obtain ⟨h1, h2⟩ := h
  unfold digitChar at h2
  rcases h2 with h2 | ⟨h2, h3⟩
  · split at h2 <;> omega
  · omega

/-! ### Loops over the string -/

theorem getElem?_append_len {P R : Bytes} {c : Nat} : (P ++ c :: R)[P.length]? = some c := by
  rw [List.getElem?_append_right (Nat.le_refl _), Nat.sub_self]; rfl

theorem skipSpace_spec {Q : Nat → Mem → Prop} {c : Nat} {R : Bytes} (hc : ¬ IsSpace c) :
    ∀ (w P : Bytes) (f : Nat), w.length < f → (∀ x ∈ w, IsSpace x) → Q (P.length + w.length) m →
    wp env E (skipSpace (P ++ (w ++ c :: R)) f P.length) Q m := by
  intro w
  induction w with
  | nil =>
    intro P f hf _ hQ
    obtain ⟨f, rfl⟩ : ∃ g, f = g + 1 := ⟨f - 1, by simp at hf; omega⟩
    unfold skipSpace
    refine wp_bind (wp_bget getElem?_append_len ?_)
    refine wp_if_neg ?_ (wp_pure hQ)
    simpa [isspace, IsSpace] using hc
  | cons x w ih =>
    intro P f hf hw hQ
    obtain ⟨f, rfl⟩ : ∃ g, f = g + 1 := ⟨f - 1, by simp at hf; omega⟩
    unfold skipSpace
    refine wp_bind (wp_bget (by rw [List.cons_append]; exact getElem?_append_len) ?_)
    have hx := hw x (by simp)
    refine wp_if_pos (by simpa [isspace, IsSpace] using hx) ?_
    have := ih (P ++ [x]) f (by simp at hf; omega) (fun y hy => hw y (by simp [hy])) (by
      simpa [Nat.add_assoc, Nat.add_comm 1] using hQ)
    simpa using this

theorem skipZero_spec {Q : Nat → Mem → Prop} {r c : Nat} {R : Bytes} (hc : s_ch2val c r ≠ 0) :
    ∀ (ds P : Bytes) (f : Nat), ds.length < f →
    (∀ zs ds', ds = zs ++ ds' → (∀ x ∈ zs, s_ch2val x r = 0) → Q (P.length + zs.length) m) →
    wp env E (skipZero (P ++ (ds ++ c :: R)) r f P.length) Q m := by
  intro ds
  induction ds with
  | nil =>
    intro P f hf hQ
    obtain ⟨f, rfl⟩ : ∃ g, f = g + 1 := ⟨f - 1, by simp at hf; omega⟩
    unfold skipZero
    refine wp_bind (wp_bget getElem?_append_len ?_)
    exact wp_if_neg hc (wp_pure (hQ [] [] rfl (by simp)))
  | cons x w ih =>
    intro P f hf hQ
    obtain ⟨f, rfl⟩ : ∃ g, f = g + 1 := ⟨f - 1, by simp at hf; omega⟩
    unfold skipZero
    refine wp_bind (wp_bget (by rw [List.cons_append]; exact getElem?_append_len) ?_)
    refine wp_ite (fun hx => ?_) (fun hx => wp_pure (hQ [] (x :: w) rfl (by simp)))
    have := ih (P ++ [x]) f (by simp at hf; omega) (fun zs ds' e hz => by
      have := hQ (x :: zs) ds' (by simp [e]) (by intro y hy; rcases List.mem_cons.1 hy with rfl | h; exacts [hx, hz _ h])
      simpa [Nat.add_assoc, Nat.add_comm 1] using this)
    simpa using this

theorem strlen_spec {Q : Nat → Mem → Prop} :
    ∀ (T P : Bytes) (f : Nat), T.length ≤ f → 0 ∈ T →
    (∀ n, (∀ k, 0 ∈ T.take k → n < k) → (∀ D R, T = D ++ R → 0 ∉ D → D.length ≤ n) → Q n m) →
    wp env E (strlen (P ++ T) f P.length) Q m := by
  intro T
  induction T generalizing Q with
  | nil => intro P f _ h; simp at h
  | cons x T ih =>
    intro P f hf h0 hQ
    obtain ⟨f, rfl⟩ : ∃ g, f = g + 1 := ⟨f - 1, by simp at hf; omega⟩
    unfold strlen
    refine wp_bind (wp_bget getElem?_append_len ?_)
    refine wp_ite (fun hx => ?_) (fun hx => ?_)
    · refine wp_pure (hQ 0 (fun k hk => ?_) fun D R e hD => ?_)
      · rcases k with _ | k
        · simp at hk
        · omega
      · match D with
        | [] => simp
        | y :: D =>
          simp only [List.cons_append, List.cons.injEq] at e
          exact absurd (by simp [← e.1, hx]) hD
    · have h0' : 0 ∈ T := (List.mem_cons.1 h0).resolve_left (Ne.symm hx)
      have := ih (Q := fun n m' => wp env E (pure (n + 1)) Q m') (P ++ [x]) f (by simp at hf; omega) h0'
        (fun n hn hD => wp_pure (hQ (n + 1) (fun k hk => by
          rcases k with _ | k
          · simp at hk
          · rw [List.take_succ_cons] at hk
            have := hn k ((List.mem_cons.1 hk).resolve_left (Ne.symm hx))
            omega) fun D R e hD' => by
          match D with
          | [] => simp
          | y :: D =>
            simp only [List.cons_append, List.cons.injEq] at e
            have := hD D R e.2 (fun hm => hD' (by simp [hm]))
            simp; omega))
      refine wp_bind ?_
      simpa using this

/-! ### Size estimate -/

theorem inlen_bounds (env : Env) {len l : Nat} (hlen : len * 1000000000 ≤ 4294967294 * l) (hl1 : 193426404 ≤ l) (hl2 : l ≤ 1000000000) :
    (len : Rat) * (1000000000 / l) + 1 / 4 ≤
      env.fl (env.fl (len / env.fl (l / 1000000000)) + 1 / 2) ∧
    env.fl (env.fl (len / env.fl (l / 1000000000)) + 1 / 2) <
      (len : Rat) * (1000000000 / l) + 1 := by
  have hb' : (len : Rat) * 1000000000 ≤ 4294967294 * l := by exact_mod_cast hlen
  have hb0 : (0 : Rat) ≤ len := by positivity
  have hl' : (l : Rat) ≤ 1000000000 := by exact_mod_cast hl2
  have hl0 : (193426404 : Rat) ≤ l := by exact_mod_cast hl1
  obtain ⟨S, hS⟩ : ∃ S : Rat, S = l / 1000000000 := ⟨_, rfl⟩
  have hS0 : 19 / 100 ≤ S := by rw [hS]; linarith
  have hS1 : S ≤ 1 := by rw [hS]; linarith
  have hT : (1000000000 / l : Rat) = 1 / S := by
    rw [hS]; field_simp
  obtain ⟨e1, e2⟩ := env.fl_err S (by linarith)
  rw [← hS, hT]
  generalize env.fl S = l' at *
  have hl'0 : 0 < l' := by linarith
  have hSp : 0 < S := by linarith
  -- the quotient
  obtain ⟨T, hTd⟩ : ∃ T : Rat, T = len * (1 / S) := ⟨_, rfl⟩
  have hT0 : 0 ≤ T := by rw [hTd]; positivity
  have hTS : T * S = len := by rw [hTd]; field_simp
  have hTle : T ≤ 4300000000 := by
    by_contra hcon
    have h1 : 4300000000 * S < T * S := by nlinarith
    have h2 : (len : Rat) ≤ 4294967294 * S := by rw [hS]; linarith
    linarith
  obtain ⟨y, hy⟩ : ∃ y : Rat, y = len / l' := ⟨_, rfl⟩
  have hyl : y * l' = len := by rw [hy]; field_simp
  have hy0 : 0 ≤ y := by rw [hy]; positivity
  rw [← hTd, ← hy]
  have y1 : T - T / 4503599627370496 ≤ y := by
    have : (T - T / 4503599627370496) * l' ≤ y * l' := by
      rw [hyl, ← hTS]
      have h1 : (T - T / 4503599627370496) * l' ≤ (T - T / 4503599627370496) * (S + S / 9007199254740992) := by
        apply mul_le_mul_of_nonneg_left e2
        linarith
      have h2 : (T - T / 4503599627370496) * (S + S / 9007199254740992) ≤ T * S := by
        have : 0 ≤ T * S := by positivity
        have e : (T - T / 4503599627370496) * (S + S / 9007199254740992) =
          T * S * ((1 - 1 / 4503599627370496) * (1 + 1 / 9007199254740992)) := by ring
        rw [e]
        have : ((1 - 1 / 4503599627370496) * (1 + 1 / 9007199254740992) : Rat) ≤ 1 := by norm_num
        nlinarith
      linarith
    exact le_of_mul_le_mul_right this hl'0
  have y2 : y ≤ T + T / 4503599627370496 := by
    have : y * l' ≤ (T + T / 4503599627370496) * l' := by
      rw [hyl, ← hTS]
      have h1 : (T + T / 4503599627370496) * (S - S / 9007199254740992) ≤ (T + T / 4503599627370496) * l' := by
        apply mul_le_mul_of_nonneg_left e1
        linarith
      have h2 : T * S ≤ (T + T / 4503599627370496) * (S - S / 9007199254740992) := by
        have : 0 ≤ T * S := by positivity
        have e : (T + T / 4503599627370496) * (S - S / 9007199254740992) =
          T * S * ((1 + 1 / 4503599627370496) * (1 - 1 / 9007199254740992)) := by ring
        rw [e]
        have : (1 : Rat) ≤ ((1 + 1 / 4503599627370496) * (1 - 1 / 9007199254740992) : Rat) := by norm_num
        nlinarith
      linarith
    exact le_of_mul_le_mul_right this hl'0
  clear hyl hy hTd hTS hT hS e1 e2
  obtain ⟨e3, e4⟩ := env.fl_err _ hy0
  generalize env.fl y = raw at *
  obtain ⟨e5, e6⟩ := env.fl_err (raw + 1 / 2) (by linarith)
  generalize env.fl (raw + 1 / 2) = X at *
  constructor <;> linarith

theorem pow_in_cert {r len K M N : Nat} (hN : 1 ≤ N) (hc : r ^ N ≤ 2 ^ M) (hk : len * M ≤ K * N) : r ^ len ≤ 2 ^ K := by
  have h1 : (r ^ len) ^ N ≤ (2 ^ K) ^ N := by
    rw [← Nat.pow_mul, Nat.mul_comm, Nat.pow_mul, ← Nat.pow_mul 2]
    refine Nat.le_trans (Nat.pow_le_pow_left hc len) ?_
    rw [← Nat.pow_mul]
    exact Nat.pow_le_pow_right (by norm_num) (by rw [Nat.mul_comm M]; exact hk)
  exact (Nat.pow_le_pow_iff_left (by omega)).1 h1

theorem in_ok {r len bits M N l : Nat} (hb : bits ≤ 2147483648) (hl : 1 ≤ l) (h : len * 1000000000 ≤ (bits + 1) * l)
    (c : okIn r M N l = true) : r ^ len ≤ 2 ^ (bits + 32) := by
  simp only [okIn, Bool.and_eq_true, decide_eq_true_eq] at c
  obtain ⟨⟨c1, c2⟩, c3⟩ := c
  refine pow_in_cert c1 c2 ?_
  -- len M l <= (bits + 32) N l
  refine Nat.le_of_mul_le_mul_right ?_ hl
  rcases Nat.le_total (M * l) (N * 1000000000) with hML | hML
  · calc len * M * l = len * (M * l) := by ring
      _ ≤ len * (N * 1000000000) := Nat.mul_le_mul_left _ hML
      _ = len * 1000000000 * N := by ring
      _ ≤ (bits + 1) * l * N := Nat.mul_le_mul_right _ h
      _ ≤ (bits + 32) * l * N := Nat.mul_le_mul_right _ (Nat.mul_le_mul_right _ (by omega))
      _ = (bits + 32) * N * l := by ring
  · obtain ⟨g, hg⟩ := Nat.exists_eq_add_of_le hML
    have h5 : g * 2147483649 ≤ 31 * N * 1000000000 := by
      rw [hg, Nat.add_mul] at c3
      exact Nat.le_of_add_le_add_left c3
    have h6 : len * g ≤ 31 * N * l := by
      refine Nat.le_of_mul_le_mul_right (c := 1000000000) ?_ (by norm_num)
      calc len * g * 1000000000 = len * 1000000000 * g := by ring
        _ ≤ (bits + 1) * l * g := Nat.mul_le_mul_right _ h
        _ ≤ 2147483649 * l * g := Nat.mul_le_mul_right _ (Nat.mul_le_mul_right _ (by omega))
        _ = g * 2147483649 * l := by ring
        _ ≤ 31 * N * 1000000000 * l := Nat.mul_le_mul_right _ h5
        _ = 31 * N * l * 1000000000 := by ring
    calc len * M * l = len * (M * l) := by ring
      _ = len * 1000000000 * N + len * g := by rw [hg]; ring
      _ ≤ (bits + 1) * l * N + 31 * N * l := Nat.add_le_add (Nat.mul_le_mul_right _ h) h6
      _ = (bits + 32) * N * l := by ring

theorem s_inlen_spec {Q : Nat → Mem → Prop} {len r : Nat} (hr2 : 2 ≤ r) (hr : r ≤ 36) (hlen1 : len ≤ 2147483647)
    (hlen : len * 1000000000 ≤ 4294967294 * s_log2.getD r 0)
    (hQ : ∀ need, 1 ≤ need → need < 4294967295 → (need ≤ MAXD → r ^ len ≤ 𝔹 ^ need) → Q need m) :
    wp env E (s_inlen len r) Q m := by
  unfold s_inlen
  refine wp_bind (wp_cint (by omega) (by omega) ?_)
  refine wp_bind (wp_getFl ?_)
  obtain ⟨hl, hl1, hl2⟩ := s_log2_range r (by omega) hr2
  have c1 := inCert_ok r (by omega) hr2
  obtain ⟨l, hle⟩ : ∃ l, s_log2.getD r 0 = l := ⟨_, rfl⟩
  rw [hle] at hl hl1 hl2 c1 hlen
  refine wp_bind (wp_bget hl ?_)
  have hb := inlen_bounds env hlen hl1 hl2
  rw [show (((len : Int) : Rat)) = ((len : Nat) : Rat) by simp]
  show wp env E (if (env.fl (env.fl (len / env.fl (l / 1000000000)) + 1 / 2)).floor.toNat < 4294967296 then
    pure (u32 (u32 (((env.fl (env.fl (len / env.fl (l / 1000000000)) + 1 / 2)).floor.toNat + 31) / 32) + 1))
    else fail .ub) Q m
  generalize env.fl (env.fl (len / env.fl (l / 1000000000)) + 1 / 2) = X at hb ⊢
  obtain ⟨b1, b2⟩ := hb
  have hlp : (0 : Rat) < l := by exact_mod_cast (by omega : 0 < l)
  have hT0 : (0 : Rat) ≤ len * (1000000000 / l) := by positivity
  have hf0 : 0 ≤ X.floor := by rw [Rat.le_floor_iff]; push_cast; linarith
  obtain ⟨B, hB⟩ : ∃ B : Nat, X.floor = B := ⟨X.floor.toNat, by omega⟩
  rw [hB, Int.toNat_natCast]
  have f1 : X < B + 1 := by
    have := Rat.lt_floor_add_one X
    rw [hB] at this; exact_mod_cast this
  have f2 : (B : Rat) ≤ X := by
    have := Rat.floor_le X
    rw [hB] at this; exact_mod_cast this
  have g1 : len * 1000000000 ≤ (B + 1) * l := by
    have : (len : Rat) * (1000000000 / l) ≤ B + 1 := by linarith
    rw [← mul_div_assoc, div_le_iff₀ hlp] at this
    exact_mod_cast this
  have g2 : B < 4294967295 := by
    have h1 : (B : Rat) < len * (1000000000 / l) + 1 := by linarith
    have h2 : (len : Rat) * (1000000000 / l) ≤ 4294967294 := by
      rw [← mul_div_assoc, div_le_iff₀ hlp]
      exact_mod_cast hlen
    have : (B : Rat) < 4294967295 := by linarith
    exact_mod_cast this
  refine wp_if_pos (by omega) ?_
  have h5 : (B + 31) / 32 + 1 < 4294967295 := by omega
  rw [u32_of_lt (by omega : (B + 31) / 32 < 𝔹), u32_of_lt (by omega : (B + 31) / 32 + 1 < 𝔹)]
  refine wp_pure (hQ _ (by omega) h5 fun hM => ?_)
  have h6 := in_ok (bits := B) (by omega) (by omega) g1 c1
  refine Nat.le_trans h6 ?_
  rw [show 𝔹 = 2 ^ 32 by norm_num, ← Nat.pow_mul]
  exact Nat.pow_le_pow_right (by norm_num) (by omega)

/-! ### The digit loop -/

theorem foldl_ofDigits (r : Nat) (vs : List Nat) (a : Nat) :
    vs.foldl (fun a d => a * r + d) a = a * r ^ vs.length + Nat.ofDigits r vs.reverse := by
  induction vs generalizing a with
  | nil => simp
  | cons d vs ih =>
    rw [List.foldl_cons, ih, List.reverse_cons, Nat.ofDigits_append, List.length_cons, List.length_reverse,
      Nat.ofDigits_singleton]
    ring

theorem readLoop_spec {r c : Nat} {R : Bytes} (hr2 : 2 ≤ r) (hr : r ≤ 36) (hc : ∀ d, ¬ IsDigit r c d) {s0 : Id → Option Cell} :
    ∀ (ds : Bytes) (vs : List Nat) (P : Bytes) (f : Nat) {m : Mem} {C : Cell} {Q : Nat → Mem → Prop},
    ds.length < f → List.Forall₂ (IsDigit r) ds vs →
    Rep m (upd s0 z (some C)) → Norm C → (C.mag + 1) * r ^ ds.length ≤ 𝔹 ^ C.buf.length →
    (∀ m' C', Rep m' (upd s0 z (some C')) → Norm C' → C'.neg = C.neg →
      C'.mag = vs.foldl (fun a d => a * r + d) C.mag → Q (P.length + ds.length) m') →
    wp env E (readLoop z (P ++ (ds ++ c :: R)) r f P.length) Q m := by
  intro ds
  induction ds with
  | nil =>
    intro vs P f m C Q hf hF h nC hcap hQ
    obtain ⟨f, rfl⟩ : ∃ g, f = g + 1 := ⟨f - 1, by simp at hf; omega⟩
    cases hF
    unfold readLoop
    refine wp_bind (wp_bget getElem?_append_len ?_)
    refine wp_if_neg (by rw [ch2val_neg hc]; simp) (wp_pure (hQ m C h nC rfl rfl))
  | cons x ds ih =>
    intro vs P f m C Q hf hF h nC hcap hQ
    obtain ⟨f, rfl⟩ : ∃ g, f = g + 1 := ⟨f - 1, by simp at hf; omega⟩
    cases hF with
    | @cons _ d _ vs hx hF =>
    unfold readLoop
    refine wp_bind (wp_bget (by rw [List.cons_append]; exact getElem?_append_len) ?_)
    have hv := hx.ch2val hr
    have hxr := hx.range hr
    have hd := hx.1
    refine wp_if_pos ⟨by omega, by rw [hv]; omega⟩ ?_
    have hp : 1 ≤ r ^ ds.length := Nat.one_le_pow _ _ (by omega)
    rw [List.length_cons, Nat.pow_succ] at hcap
    have hcap2 : (C.mag + 1) * r ≤ 𝔹 ^ C.buf.length := by
      refine Nat.le_trans ?_ hcap
      rw [Nat.mul_comm (r ^ ds.length), ← Nat.mul_assoc]
      exact Nat.le_mul_of_pos_right _ hp
    rw [u32_of_lt (by omega : r < 𝔹)]
    have hexp : (C.mag + 1) * r = C.mag * r + r := by ring
    refine wp_bind (s_dmul_rep h (upd_self _ _ _) nC (by omega) (by omega) (by omega) fun m1 C1 h1 n1 g1 l1 v1 => ?_)
    rw [upd_upd] at h1
    rw [hv, Int.toNat_natCast]
    refine wp_bind (s_dadd_rep h1 (upd_self _ _ _) n1 (by omega) (by rw [l1, v1]; omega) fun m2 C2 h2 n2 g2 l2 v2 => ?_)
    rw [upd_upd] at h2
    have := ih vs (P ++ [x]) f (m := m2) (C := C2) (Q := Q) (by simp at hf; omega) hF h2 n2 ?_ ?_
    · simpa using this
    · rw [l2, l1, v2, v1]
      refine Nat.le_trans ?_ hcap
      rw [Nat.mul_comm (r ^ ds.length), ← Nat.mul_assoc]
      exact Nat.mul_le_mul_right _ (by omega)
    · intro m3 C3 h3 n3 g3 v3
      have := hQ m3 C3 h3 n3 (by rw [g3, g2, g1]) (by rw [v3, v2, v1]; rfl)
      simpa [Nat.add_assoc, Nat.add_comm 1] using this

theorem forall2_zeros {r : Nat} (hr : r ≤ 36) {zs ds : Bytes} {vs : List Nat} (hF : List.Forall₂ (IsDigit r) (zs ++ ds) vs)
    (hz : ∀ x ∈ zs, s_ch2val x r = 0) :
    ∃ vs', vs = List.replicate zs.length 0 ++ vs' ∧ List.Forall₂ (IsDigit r) ds vs' := by
  induction zs generalizing vs with
  | nil => exact ⟨vs, by simp, hF⟩
  | cons x zs ih =>
    rw [List.cons_append] at hF
    cases hF with
    | @cons _ d _ vs hx hF =>
    obtain ⟨vs', e, h⟩ := ih hF fun y hy => hz y (by simp [hy])
    have h1 := hx.ch2val hr
    rw [hz x (by simp)] at h1
    have : d = 0 := by omega
    subst this
    exact ⟨vs', by rw [e]; simp [List.replicate_succ], h⟩

theorem foldl_zeros (r n : Nat) (vs : List Nat) :
    (List.replicate n 0 ++ vs).foldl (fun a d => a * r + d) 0 = vs.foldl (fun a d => a * r + d) 0 := by
  induction n with
  | zero => simp
  | succ n ih => rw [List.replicate_succ, List.cons_append, List.foldl_cons]; simpa using ih

theorem IsDigit.not_special {r c d : Nat} (hr : r ≤ 36) (h : IsDigit r c d) : ¬ IsSpace c ∧ c ≠ 45 ∧ c ≠ 43 ∧ c ≠ 0 := by
  have := h.range hr
  unfold IsSpace
  omega

theorem Norm.goodSv {C : Cell} {n : Bool} (h : Norm C) (hn : C.neg = n) (h0 : C.mag ≠ 0) : Good C (sval n C.mag) :=
  ⟨h, fun _ => h0, by rw [hn]⟩

theorem zero_not_zeros {r : Nat} {zs : Bytes} (h : ∀ x ∈ zs, s_ch2val x r = 0) : 0 ∉ zs := by
  intro hm
  have := h 0 hm
  simp [s_ch2val, isdigit, isalpha] at this

/-- `mp_int_read_cstring`; `K` bounds the length of the string. -/
theorem mp_int_read_cstring_spec {Q : Int × Nat → Mem → Prop} {r c : Nat} {w sg ds rest : Bytes} {vs : List Nat} {K : Nat}
    (hE : Ref env E) (hr2 : 2 ≤ r) (hr : r ≤ 36)
    (hw : ∀ x ∈ w, IsSpace x) (hsg : sg = [] ∨ sg = [43] ∨ sg = [45])
    (hF : List.Forall₂ (IsDigit r) ds vs) (hc : ∀ d, ¬ IsDigit r c d)
    (hhead : sg = [] → ds = [] → ¬ IsSpace c ∧ c ≠ 43 ∧ c ≠ 45)
    (hK1 : K ≤ 2147483647) (hK2 : K * 1000000000 ≤ 4294967294 * s_log2.getD r 0) (h0 : 0 ∈ (ds ++ c :: rest).take (K + 1))
    (ho : z.own = true) (h : R2 m σ) (hz : σ z = some v)
    (hQ : ∀ m', R2 m' (upd σ z (some ((if sg = [45] then -1 else 1) * ((Nat.ofDigits r vs.reverse : Nat) : Int)))) →
      Q (if c = 0 then MP_OK else MP_TRUNC, (w ++ sg ++ ds).length) m') :
    wp env E (mp_int_read_cstring z r (w ++ sg ++ ds ++ c :: rest)) Q m := by
  obtain ⟨str, hstr⟩ : ∃ str, str = w ++ sg ++ ds ++ c :: rest := ⟨_, rfl⟩
  have hln : str.length = w.length + sg.length + ds.length + 1 + rest.length := by rw [hstr]; simp; omega
  rw [← hstr]
  unfold mp_int_read_cstring
  refine wp_bind (wp_cassert (decide_eq_true ⟨hr2, hr⟩) ?_)
  -- the character after the white space
  obtain ⟨c0, R0, hc0, hsp, hsgn⟩ : ∃ c0 R0, sg ++ ds ++ c :: rest = c0 :: R0 ∧ ¬ IsSpace c0 ∧
      ((sg = [] ∧ c0 ≠ 45 ∧ c0 ≠ 43) ∨ sg = [c0]) := by
    rcases hsg with rfl | rfl | rfl
    · cases hF with
      | nil =>
        obtain ⟨h1, h2, h3⟩ := hhead rfl rfl
        exact ⟨c, rest, rfl, h1, .inl ⟨rfl, h3, h2⟩⟩
      | cons hx hF =>
        obtain ⟨h1, h2, h3, _⟩ := hx.not_special hr
        exact ⟨_, _, rfl, h1, .inl ⟨rfl, h2, h3⟩⟩
    · exact ⟨43, _, rfl, by unfold IsSpace; omega, .inr rfl⟩
    · exact ⟨45, _, rfl, by unfold IsSpace; omega, .inr rfl⟩
  have hs1 : str = [] ++ (w ++ c0 :: R0) := by rw [hstr, ← hc0]; simp
  have k1 := skipSpace_spec (m := m) (env := env) (E := E) (R := R0) (Q := fun i m' => i = w.length ∧ m' = m)
    hsp w [] (str.length + 1) (by omega) hw (by simp)
  rw [← hs1] at k1
  refine wp_bind (wp_mono k1 ?_)
  rintro _ _ ⟨rfl, rfl⟩
  refine wp_bind (wp_bget (x := c0) (by rw [hs1]; exact getElem?_append_len) ?_)
  obtain ⟨s, hrp, hg⟩ := h
  obtain ⟨C, hC, gC⟩ := hg.get hz
  refine wp_bind (wp_setSign hrp hC fun m1 h1 => ?_)
  have hi : (if c0 = 45 ∨ c0 = 43 then w.length + 1 else w.length) = (w ++ sg).length := by
    rcases hsgn with ⟨rfl, h2, h3⟩ | hs
    · rw [if_neg (by omega)]; simp
    · rw [hs, if_pos (by rcases hsg with h | h | h <;> rw [hs] at h <;> simp at h <;> omega)]; simp
  have hneg : decide (c0 = 45) = decide (sg = [45]) := by
    rcases hsgn with ⟨rfl, h2, h3⟩ | hs
    · simp [h2]
    · rw [hs]; simp
  rw [hneg] at h1
  rw [hi]
  have k2 := skipZero_spec (m := m1) (env := env) (E := E) (R := rest) (c := c) (r := r)
    (Q := fun i m' => m' = m1 ∧ ∃ zs ds', ds = zs ++ ds' ∧ (∀ x ∈ zs, s_ch2val x r = 0) ∧ i = (w ++ sg).length + zs.length)
    (by rw [ch2val_neg hc]; omega) ds (w ++ sg) (str.length + 1) (by omega)
    (fun zs ds' e hz => ⟨rfl, zs, ds', e, hz, rfl⟩)
  rw [show w ++ sg ++ (ds ++ c :: rest) = str by rw [hstr]; simp] at k2
  refine wp_bind (wp_mono k2 ?_)
  rintro _ m1' ⟨hm1, zs, ds', e, hzs, rfl⟩
  rw [hm1]
  have hs2 : str = (w ++ sg ++ zs) ++ (ds' ++ c :: rest) := by rw [hstr, e]; simp
  have hi2 : (w ++ sg).length + zs.length = (w ++ sg ++ zs).length := by simp [Nat.add_assoc]
  rw [hi2]
  rw [e] at hF
  obtain ⟨vs', hvs, hF'⟩ := forall2_zeros hr hF hzs
  have hnz : 0 ∉ ds' := by
    intro hm
    obtain ⟨i, hi, hi2⟩ := List.mem_iff_getElem.1 hm
    have hl := hF'.length_eq
    have := List.Forall₂.get hF' hi (by omega)
    simp only [List.get_eq_getElem] at this
    rw [hi2] at this
    exact (this.not_special hr).2.2.2 rfl
  have h0' : 0 ∈ (ds' ++ c :: rest).take (K + 1) := by
    rw [e, List.append_assoc, List.take_append] at h0
    refine List.mem_of_mem_take (i := K + 1 - zs.length) ?_
    rw [List.take_take, show min (K + 1 - zs.length) (K + 1) = K + 1 - zs.length by omega]
    refine (List.mem_append.1 h0).resolve_left fun hm => ?_
    exact zero_not_zeros hzs (List.mem_of_mem_take hm)
  have k3 := strlen_spec (m := m1) (env := env) (E := E)
    (Q := fun n m'' => m'' = m1 ∧ ds'.length ≤ n ∧ n ≤ K)
    (ds' ++ c :: rest) (w ++ sg ++ zs) (str.length + 1) (by rw [hs2]; simp; omega) (List.mem_of_mem_take h0')
    (fun n hn hD => ⟨rfl, hD ds' (c :: rest) rfl hnz, by have := hn _ h0'; omega⟩)
  rw [← hs2] at k3
  refine wp_bind (wp_mono k3 ?_)
  rintro n _ ⟨rfl, hn1, hn2⟩
  refine wp_bind (s_inlen_spec hr2 hr (by omega) (Nat.le_trans (Nat.mul_le_mul_right _ hn2) hK2) fun need hd1 hd2 hd3 => ?_)
  refine wp_bind (s_pad_spec hE h1 (upd_self _ _ _) ho hd2 fun m2 C2 h2 g2 l2 => ?_)
  refine wp_if_pos rfl ?_
  rw [upd_upd] at h2
  have hl2 := (h2.okl (upd_self _ _ _)).2
  have hcap : r ^ ds'.length ≤ 𝔹 ^ C2.buf.length :=
    Nat.le_trans (Nat.pow_le_pow_right (by omega) hn1) (Nat.le_trans (hd3 (by omega))
      (Nat.pow_le_pow_right (by norm_num) l2))
  refine wp_bind (wp_setUsed h2 (upd_self _ _ _) fun m3 h3 => ?_)
  rw [upd_upd] at h3
  refine wp_bind (wp_DIGITS h3 (upd_self _ _ _) ?_)
  refine wp_bind (wp_wrz (C := { C2 with used := 1 }) (i := 0) (x := 0) h3 (upd_self _ _ _) (show 0 < C2.buf.length by omega) (by norm_num) fun m4 h4 => ?_)
  rw [upd_upd] at h4
  obtain ⟨C4, hC4⟩ : ∃ C4 : Cell, C4 = ⟨C2.base, spliceL C2.buf 0 [0], 1, C2.neg⟩ := ⟨_, rfl⟩
  have h4' : Rep m4 (upd s z (some C4)) := by rw [hC4]; exact h4
  obtain ⟨y, Y, hY⟩ : ∃ y Y, C2.buf = y :: Y := List.exists_cons_of_length_pos (by omega)
  have hsp4 : spliceL C2.buf 0 [0] = 0 :: Y := by rw [spliceL_zero_append _ _ (by simp; omega), hY]; simp
  have hl4 : C4.buf.length = C2.buf.length := by rw [hC4]; simp
  have n4 : Norm C4 := by rw [hC4]; exact ⟨Nat.le_refl _, by simp; omega, by simp⟩
  have v4 : C4.mag = 0 := by rw [hC4]; simp [Cell.mag, hsp4]
  have s4 : C4.neg = decide (sg = [45]) := by rw [hC4]; exact g2.neg
  have k4 := readLoop_spec (env := env) (E := E) (R := rest) (c := c) (z := z) hr2 hr hc ds' vs' (w ++ sg ++ zs) (str.length + 1)
    (Q := fun i m5 => i = (w ++ sg ++ zs).length + ds'.length ∧ ∃ C5, Rep m5 (upd s z (some C5)) ∧ Norm C5 ∧ C5.neg = C4.neg ∧
      C5.mag = vs'.foldl (fun a d => a * r + d) C4.mag)
    (by rw [hs2]; simp; omega) hF' h4' n4 (by rw [v4, hl4]; simpa using hcap)
    (fun m5 C5 a1 a2 a3 a4 => ⟨rfl, C5, a1, a2, a3, a4⟩)
  rw [← hs2] at k4
  refine wp_bind (wp_mono k4 ?_)
  rintro _ m5 ⟨rfl, C5, h5, n5, s5, v5⟩
  have hval : C5.mag = Nat.ofDigits r vs.reverse := by
    have := foldl_ofDigits r vs 0
    rw [Nat.zero_mul, Nat.zero_add] at this
    rw [v5, v4, ← this, hvs, foldl_zeros]
  refine wp_bind (CLAMP_spec h5 (upd_self _ _ _) n5.le fun m6 h6 => ?_)
  rw [upd_upd] at h6
  obtain ⟨C6, hC6⟩ : ∃ C6 : Cell, C6 = { C5 with used := clampLen C5.buf C5.used } := ⟨_, rfl⟩
  rw [← hC6] at h6
  have n6 : Norm C6 := by rw [hC6]; exact Norm.clamp (C := C5) (n := C5.neg) n5.pos n5.le
  have v6 : C6.mag = C5.mag := by
    rw [hC6]
    exact val_take_clampLen _ _ n5.le
  have s6 : C6.neg = decide (sg = [45]) := by rw [hC6]; show C5.neg = _; rw [s5, s4]
  refine wp_bind (CMPZ_norm h6 (upd_self _ _ _) n6 ?_)
  have hidx : (w ++ sg ++ zs).length + ds'.length = (w ++ sg ++ ds).length := by rw [e]; simp; omega
  have hget : str[(w ++ sg ++ ds).length]? = some c := by rw [hstr]; exact getElem?_append_len
  rw [hidx]
  have fin : ∀ m7, R2 m7 (upd σ z (some ((if sg = [45] then -1 else 1) * ((Nat.ofDigits r vs.reverse : Nat) : Int)))) →
      wp env E (do
        let c ← bget str (w ++ sg ++ ds).length
        pure (if c ≠ 0 then MP_TRUNC else MP_OK, (w ++ sg ++ ds).length)) Q m7 := by
    intro m7 h7
    refine wp_bind (wp_bget hget (wp_pure ?_))
    have := hQ m7 h7
    by_cases hc0 : c = 0
    · simpa [hc0] using this
    · simpa [hc0] using this
  rw [← hval, ← v6] at fin
  refine wp_bind (wp_cwhen (fun hh => ?_) (fun hh => ?_))
  · have hm0 : C6.mag = 0 := by
      by_contra hne
      rw [if_neg hne] at hh
      split at hh <;> simp at hh
    refine wp_setSign h6 (upd_self _ _ _) fun m7 h7 => fin m7 ?_
    rw [upd_upd] at h7
    rw [hm0]
    refine ⟨_, h7, hg.upd ⟨⟨n6.pos, n6.le, n6.top⟩, by simp, ?_⟩⟩
    show _ = sval false C6.mag
    rw [hm0]; simp [sval]
  · have hm0 : C6.mag ≠ 0 := fun hz0 => hh (by rw [if_pos hz0])
    refine fin m6 ⟨_, h6, hg.upd ⟨n6, fun _ => hm0, ?_⟩⟩
    rw [s6]
    by_cases hs45 : sg = [45] <;> simp [hs45, sval]

end Imath
