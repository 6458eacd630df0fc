import Verif.Proof.Calc3
import Verif.Proof.Read

/-! # The calculator: reading -/

namespace Imath

variable {env : Env} {E : Fault → Prop} {m : Mem} {σ σ0 σ' : Id → Option Int} {a b c : Id} {x y w v : Int}
  {S K : List (Id × Int)} {V : List (Bytes × Id × Int)} {sp sp' : Calc} {Q : Int × Calc → Mem → Prop} {r : Nat}

/-! ### Tokens -/

theorem skipWs_eq : ∀ s, skipWs s = trim s
  | [] => rfl
  | c :: s => by
    unfold skipWs trim
    by_cases h : IsSpace c
    · rw [if_pos h, if_pos ((isspace_iff c).2 h), skipWs_eq s]
    · rw [if_neg h, if_neg (fun e => h ((isspace_iff c).1 e))]

theorem trim_len : ∀ s, (trim s).length ≤ s.length
  | [] => le_rfl
  | c :: s => by
    unfold trim
    split
    · have := trim_len s; simp; omega
    · rfl

theorem nextTok1_lt {s s' : List Nat} {t : Tok} (h : nextTok1 s = some (t, s')) : s'.length < s.length := by
  have hl := trim_len s
  unfold nextTok1 at h
  rcases ht : trim s with _ | ⟨c, u⟩
  · rw [ht] at h; simp at h
  · rw [ht] at h hl
    simp only [List.length_cons] at hl
    dsimp only at h
    split at h
    · simp only [Option.some.injEq, Prod.mk.injEq] at h
      rw [← h.2, List.length_drop]; omega
    · simp only [Option.some.injEq, Prod.mk.injEq] at h
      rw [← h.2, List.length_drop]; omega

theorem nextTok1_nil : nextTok1 [] = none := rfl

theorem tokensN_eq {n : Nat} {s : List Nat} {k : Nat} (hn : s.length ≤ n) (hk : s.length ≤ k) : tokensN n s = tokensN k s := by
  induction n generalizing s k with
  | zero =>
    have : s = [] := List.length_eq_zero_iff.1 (by omega)
    subst this
    rcases k with _ | k
    · rfl
    · rw [tokensN, tokensN, nextTok1_nil]
  | succ n ih =>
    rcases k with _ | k
    · have : s = [] := List.length_eq_zero_iff.1 (by omega)
      subst this
      rw [tokensN, tokensN, nextTok1_nil]
    · rw [tokensN, tokensN]
      rcases hs : nextTok1 s with _ | ⟨t, s'⟩
      · rfl
      · have := nextTok1_lt hs
        simp only
        rw [ih (k := k) (by omega) (by omega)]

theorem tokens_none {s : List Nat} (h : nextTok1 s = none) : tokens s = [] := by
  unfold tokens
  rcases s with _ | ⟨c, s⟩
  · rfl
  · rw [List.length_cons, tokensN, h]

theorem tokens_some {s s' : List Nat} {t : Tok} (h : nextTok1 s = some (t, s')) : tokens s = t :: tokens s' := by
  have := nextTok1_lt h
  unfold tokens
  rcases s with _ | ⟨c, s⟩
  · rw [nextTok1_nil] at h; simp at h
  · simp only [List.length_cons] at this
    rw [List.length_cons, tokensN, h]
    simp only
    rw [tokensN_eq (k := s'.length) (by omega) le_rfl]

theorem tokLoop_spec {Q : Token × Bytes × Bytes → Mem → Prop} {n : Bool} {k : Token} (hk : k = if n then .number else .symbol)
    {s P R : Bytes} {d : Nat}
    (hl : (P ++ d :: R).length = 16384)
    (hQ1 : P.length + (s.takeWhile fun c => !endsTok n c).length ≤ 16383 → ∀ R', (P ++ s.takeWhile (fun c => !endsTok n c) ++ 0 :: R').length = 16384 →
      Q (k, P ++ s.takeWhile (fun c => !endsTok n c) ++ 0 :: R', s.drop (s.takeWhile fun c => !endsTok n c).length) m)
    (hQ2 : 16383 < P.length + (s.takeWhile fun c => !endsTok n c).length → ∀ B : Bytes, B.length = 16384 → Q (.error, B, s.drop (16384 - P.length)) m) :
    wp env E (tokLoop 16384 s k (P ++ d :: R) P.length) Q m := by
  have hlt : P.length < (P ++ d :: R).length := by simp
  induction s generalizing P d R with
  | nil =>
    unfold tokLoop
    refine wp_bind (wp_bset hlt (wp_pure ?_))
    rw [set_append_len]
    have hl' := hl
    simp only [List.length_append, List.length_cons] at hl'
    have := hQ1 (by simp; omega) R (by simpa using hl')
    simpa using this
  | cons ch s ih =>
    unfold tokLoop
    have he : ((k = .number ∧ ispunct ch = true ∧ ch ≠ 45) ∨ (k = .symbol ∧ isdigit ch = true) ∨ isspace ch = true) ↔ endsTok n ch = true := by
      rw [hk, isspace_iff]
      cases n <;> simp [endsTok, ispunct, isPunct, isdigit, isDec] <;> tauto
    refine wp_ite (fun hc => ?_) fun hc => ?_
    · have hc := he.1 hc
      refine wp_bind (wp_bset hlt (wp_pure ?_))
      rw [set_append_len]
      have hl' := hl
      simp only [List.length_append, List.length_cons] at hl'
      have := hQ1 (by simp [hc]; omega) R (by simpa [hc] using hl')
      simpa [hc] using this
    · have hc : endsTok n ch = false := by simpa using fun e => hc (he.2 e)
      have tw : (ch :: s).takeWhile (fun c => !endsTok n c) = ch :: s.takeWhile (fun c => !endsTok n c) := by simp [hc]
      rw [tw] at hQ1 hQ2
      refine wp_ite (fun hp => ?_) fun hp => ?_
      · refine wp_bind (wp_bset hlt (wp_pure ?_))
        rw [set_append_len]
        have hl' := hl
        simp only [List.length_append, List.length_cons] at hl'
        have := hQ2 (by simp; omega) (P ++ 0 :: R) (by simpa using hl')
        rw [show 16384 - P.length = 1 by omega] at this
        simpa using this
      · refine wp_bind (wp_bset hlt ?_)
        rw [set_append_len]
        have hl' := hl
        simp only [List.length_append, List.length_cons] at hl'
        rcases R with _ | ⟨d', R⟩
        · simp at hl'; omega
        have := ih (P := P ++ [ch]) (d := d') (R := R) (by simpa using hl') ?_ ?_ (by simp)
        · simpa using this
        · intro h1 R' h2
          simp only [List.length_append, List.length_cons, List.length_nil] at h1 h2
          have := hQ1 (by simp; omega) R' (by simp; omega)
          simpa using this
        · intro h1 B h2
          simp only [List.length_append, List.length_cons, List.length_nil] at h1
          have := hQ2 (by simp; omega) B h2
          rw [show 16384 - P.length = (16384 - (P ++ [ch]).length) + 1 by simp; omega, List.drop_succ_cons] at this
          exact this

theorem tokKind_eq (ch : Nat) (s : Bytes) : tokKind ch s = if startsNum ch s then .number else .symbol := by
  unfold tokKind startsNum
  by_cases h : ch = 45
  · subst h
    rcases s with _ | ⟨d, s⟩
    · simp [isDec]
    · simp [isDec, isdigit]
      by_cases hd : 48 ≤ d ∧ d ≤ 57
      · simp [hd]
      · simp [hd]
  · simp [h, isdigit, isDec]

theorem nextTok_spec {Q : Token × Calc → Mem → Prop} (g : CR σ0 S V sp σ)
    (hQ0 : nextTok1 sp.inp = none → ∀ B : Bytes, B.length = 16384 → Q (.eof, { sp with ibuf := B, inp := [] }) m)
    (hQ1 : ∀ t s, nextTok1 sp.inp = some (.num t, s) → ∀ R, (t ++ 0 :: R).length = 16384 → t ≠ [] → Q (.number, { sp with ibuf := t ++ 0 :: R, inp := s }) m)
    (hQ2 : ∀ t s, nextTok1 sp.inp = some (.sym t, s) → ∀ R, (t ++ 0 :: R).length = 16384 → Q (.symbol, { sp with ibuf := t ++ 0 :: R, inp := s }) m)
    (hQ3 : ∀ s, nextTok1 sp.inp = some (.long, s) → ∀ B : Bytes, B.length = 16384 → Q (.error, { sp with ibuf := B, inp := s }) m) :
    wp env E (nextTok sp) Q m := by
  have e2 : next_token sp.inp sp.ibuf sp.buflen = next_token sp.inp sp.ibuf 16384 := by rw [g.len.1]
  unfold nextTok
  rw [e2]
  unfold next_token
  rw [skipWs_eq]
  refine wp_bind (wp_bind (wp_cassert (by decide) ?_))
  have hb := g.buf
  rcases hi : sp.ibuf with _ | ⟨b0, B⟩
  · rw [hi] at hb; simp at hb
  rw [hi] at hb
  unfold nextTok1 at hQ0 hQ1 hQ2 hQ3
  rcases ht : trim sp.inp with _ | ⟨ch, s⟩
  · rw [ht] at hQ0
    refine wp_bind (wp_bset (by simp) (wp_pure (wp_pure ?_)))
    exact hQ0 rfl (0 :: B) (by simpa using hb)
  · rw [ht] at hQ1 hQ2 hQ3
    dsimp only at hQ1 hQ2 hQ3 ⊢
    refine wp_bind (wp_bset (by simp) ?_)
    rw [tokKind_eq]
    rcases B with _ | ⟨b1, B⟩
    · simp at hb
    refine tokLoop_spec (n := startsNum ch s) (P := [ch]) (d := b1) (R := B) rfl (by simpa using hb) (fun h1 R' h2 => wp_pure ?_) fun h1 B' h2 => wp_pure ?_
    · rw [List.length_singleton] at h1
      rw [if_pos (by omega)] at hQ1 hQ2
      cases hn : startsNum ch s
      · rw [hn] at hQ2 h2
        simp only [Bool.false_eq_true, if_false] at hQ2 ⊢
        exact hQ2 _ _ rfl R' (by simpa using h2)
      · rw [hn] at hQ1 h2
        simp only [if_true] at hQ1 ⊢
        exact hQ1 _ _ rfl R' (by simpa using h2) (by simp)
    · rw [List.length_singleton] at h1
      rw [if_neg (by omega)] at hQ3
      exact hQ3 _ rfl B' h2

/-! ### Numbers -/

theorem trim_append {s : List Nat} (h : 0 ∈ s) (X : List Nat) : trim (s ++ X) = trim s ++ X ∧ 0 ∈ trim s := by
  induction s with
  | nil => simp at h
  | cons c s ih =>
    rw [List.cons_append]
    unfold trim
    split
    · next hc =>
      have : 0 ∈ s := by
        rcases List.mem_cons.1 h with e | e
        · subst e; unfold IsSpace at hc; omega
        · exact e
      exact ih this
    · exact ⟨rfl, h⟩

theorem scanDigits_append {s : List Nat} (h : 0 ∈ s) (X : List Nat) : ∀ k, scanDigits r k (s ++ X) = ((scanDigits r k s).1, (scanDigits r k s).2 ++ X) := by
  induction s with
  | nil => simp at h
  | cons c s ih =>
    intro k
    rw [List.cons_append]
    unfold scanDigits
    rcases hd : digitVal r c with _ | d
    · rfl
    · have : 0 ∈ s := by
        rcases List.mem_cons.1 h with e | e
        · subst e; simp [digitVal] at hd
        · exact e
      exact ih this _

theorem scanDigits_ne {s : List Nat} (h : 0 ∈ s) : ∀ k, (scanDigits r k s).2 ≠ [] := by
  induction s with
  | nil => simp at h
  | cons c s ih =>
    intro k
    unfold scanDigits
    rcases hd : digitVal r c with _ | d
    · simp
    · have : 0 ∈ s := by
        rcases List.mem_cons.1 h with e | e
        · subst e; simp [digitVal] at hd
        · exact e
      exact ih this _

theorem scanInt_of {s t : List Nat} {c : Nat} (h : trim s = c :: t) :
    scanInt r s = (if c = 45 then -((scanDigits r 0 (if c = 45 ∨ c = 43 then t else c :: t)).1 : Int) else (scanDigits r 0 (if c = 45 ∨ c = 43 then t else c :: t)).1,
      (scanDigits r 0 (if c = 45 ∨ c = 43 then t else c :: t)).2) := by
  unfold scanInt minus
  rw [h]
  simp

theorem scanInt_append {s : List Nat} (h : 0 ∈ s) (X : List Nat) :
    scanInt r (s ++ X) = ((scanInt r s).1, (scanInt r s).2 ++ X) ∧ (scanInt r s).2 ≠ [] := by
  obtain ⟨e1, e2⟩ := trim_append h X
  rcases ht : trim s with _ | ⟨c, t⟩
  · rw [ht] at e2; simp at e2
  · rw [ht] at e2 e1
    rw [List.cons_append] at e1
    rw [scanInt_of e1, scanInt_of ht]
    by_cases hc : c = 45 ∨ c = 43
    · have : 0 ∈ t := by
        rcases List.mem_cons.1 e2 with e | e
        · subst e; simp at hc
        · exact e
      simp only [if_pos hc, scanDigits_append this]
      exact ⟨trivial, scanDigits_ne this _⟩
    · simp only [if_neg hc]
      rw [← List.cons_append, scanDigits_append e2]
      exact ⟨rfl, scanDigits_ne e2 _⟩

theorem read_token {Q : Int × Option Id → Mem → Prop} {t R : Bytes} (hE : Ref env E) (h : R2 m σ) (hr2 : 2 ≤ r) (hr : r ≤ 36)
    (hl : t.length ≤ 16384)
    (hQ1 : endCode (scanInt r (t ++ [0])).2 = MP_OK → ∀ z m', σ z = none → z.own = true → (∀ n, z ≠ .var n) →
      R2 m' (upd σ z (some (scanInt r (t ++ [0])).1)) → Q (MP_OK, some z) m')
    (hQ2 : endCode (scanInt r (t ++ [0])).2 ≠ MP_OK → ∀ m', R2 m' σ → Q (endCode (scanInt r (t ++ [0])).2, none) m') :
    wp env E (do
      let value ← mp_int_alloc
      let res ← mp_int_read_string value r (t ++ 0 :: R)
      if res ≠ MP_OK then do
        mp_int_free value
        pure (res, none)
      else pure (res, some value)) Q m := by
  obtain ⟨e1, e2⟩ := scanInt_append (r := r) (s := t ++ [0]) (by simp) R
  rw [List.append_assoc, List.singleton_append] at e1
  have ec : endCode (scanInt r (t ++ 0 :: R)).2 = endCode (scanInt r (t ++ [0])).2 := by
    rw [e1]
    rcases hx : (scanInt r (t ++ [0])).2 with _ | ⟨c, u⟩
    · exact absurd hx e2
    · rfl
  have h0 : 0 ∈ (t ++ 0 :: R).take 800000001 := by
    rw [List.take_append]
    refine List.mem_append_right _ ?_
    obtain ⟨k, hk⟩ : ∃ k, 800000001 - t.length = k + 1 := ⟨800000000 - t.length, by omega⟩
    rw [hk]; simp
  refine wp_bind (mp_int_alloc_spec hE h fun z m1 hz ho hv h1 => wp_bind ?_)
  unfold mp_int_read_string
  refine wp_bind (read_cstring_total hE hr2 hr h0 ho h1 (upd_self _ _ _) fun m2 h2 => wp_pure ?_)
  rw [upd_upd] at h2
  dsimp only
  rw [ec]
  refine wp_ite (fun hc => ?_) fun hc => wp_pure ?_
  · refine wp_bind (mp_int_free_spec h2 (upd_self _ _ _) ho hv fun m3 h3 _ => wp_pure (hQ2 hc m3 ?_))
    rwa [upd_upd, upd_same σ hz] at h3
  · rw [e1] at h2
    rw [not_not.1 hc]
    exact hQ1 (not_not.1 hc) z m2 hz ho hv h2

theorem read_number_spec {Q : Int × Option Id → Mem → Prop} {t R : Bytes} (hE : Ref env E) (h : R2 m σ) (ht : t ≠ []) (hl : t.length ≤ 16384)
    (hQ1 : ∀ v, numVal t = .ok v → ∀ z m', σ z = none → z.own = true → (∀ n, z ≠ .var n) → R2 m' (upd σ z (some v)) → Q (MP_OK, some z) m')
    (hQ2 : ∀ e, numVal t = .error e → ∀ m', R2 m' σ → Q (e, none) m') :
    wp env E (read_number (t ++ 0 :: R)) Q m := by
  unfold read_number numberRadix
  rcases t with _ | ⟨c, t⟩
  · exact absurd rfl ht
  refine wp_bind (wp_bind (wp_bget (x := c) (by simp) ?_))
  refine wp_ite (fun hc => ?_) fun hc => ?_
  · subst hc
    rcases t with _ | ⟨d, t⟩
    · refine wp_bind (wp_bget (x := 0) (by simp) ?_)
      refine wp_if_neg (by decide) (wp_if_neg (by decide) (wp_if_neg (by decide) (wp_if_neg (by decide) (wp_pure (wp_pure ?_)))))
      exact hQ2 _ rfl m h
    · refine wp_bind (wp_bget (x := d) (by simp) ?_)
      let rd := fun r => if endCode (scanInt r (t ++ [0])).2 = MP_OK then Except.ok (scanInt r (t ++ [0])).1 else Except.error (endCode (scanInt r (t ++ [0])).2)
      have e : numVal (35 :: d :: t) = if d = 98 ∨ d = 66 then rd 2 else if d = 111 ∨ d = 79 then rd 8 else if d = 100 ∨ d = 68 then rd 10
          else if d = 120 ∨ d = 88 then rd 16 else .error MP_BADARG := rfl
      rw [e] at hQ1 hQ2
      have hl' : t.length ≤ 16384 := by simp only [List.length_cons] at hl; omega
      have fin : ∀ r, 2 ≤ r → r ≤ 36 →
          (∀ v, (if endCode (scanInt r (t ++ [0])).2 = MP_OK then Except.ok (scanInt r (t ++ [0])).1 else Except.error (endCode (scanInt r (t ++ [0])).2)) = Except.ok v →
            ∀ z m', σ z = none → z.own = true → (∀ n, z ≠ .var n) → R2 m' (upd σ z (some v)) → Q (MP_OK, some z) m') →
          (∀ e, (if endCode (scanInt r (t ++ [0])).2 = MP_OK then Except.ok (scanInt r (t ++ [0])).1 else Except.error (endCode (scanInt r (t ++ [0])).2)) = Except.error e →
            ∀ m', R2 m' σ → Q (e, none) m') →
          wp env E (do
            let value ← mp_int_alloc
            let res ← mp_int_read_string value r ((35 :: d :: t ++ 0 :: R).drop 2)
            if res ≠ MP_OK then do
              mp_int_free value
              pure (res, none)
            else pure (res, some value)) Q m := fun r hr2 hr k1 k2 =>
        read_token hE h hr2 hr hl' (fun he => k1 _ (by rw [if_pos he])) fun he => k2 _ (by rw [if_neg he])
      refine wp_ite (fun h1 => ?_) fun h1 => wp_ite (fun h2 => ?_) fun h2 => wp_ite (fun h3 => ?_) fun h3 => wp_ite (fun h4 => ?_) fun h4 => ?_
      · rw [if_pos h1] at hQ1 hQ2
        exact wp_pure (fin 2 (by decide) (by decide) hQ1 hQ2)
      · rw [if_neg h1, if_neg (by omega), if_pos h2] at hQ1 hQ2
        exact wp_pure (fin 10 (by decide) (by decide) hQ1 hQ2)
      · rw [if_neg h1, if_pos h3] at hQ1 hQ2
        exact wp_pure (fin 8 (by decide) (by decide) hQ1 hQ2)
      · rw [if_neg h1, if_neg h3, if_neg h2, if_pos h4] at hQ1 hQ2
        exact wp_pure (fin 16 (by decide) (by decide) hQ1 hQ2)
      · rw [if_neg h1, if_neg h3, if_neg h2, if_neg h4] at hQ2
        exact wp_pure (wp_pure (hQ2 _ rfl m h))
  · have e : numVal (c :: t) = if endCode (scanInt 10 (c :: t ++ [0])).2 = MP_OK then .ok (scanInt 10 (c :: t ++ [0])).1 else .error (endCode (scanInt 10 (c :: t ++ [0])).2) := by
      unfold numVal
      split
      · next h => exact absurd (by simpa using h : c = 35 ∧ t = []).1 hc
      · next h => exact absurd (by simpa using h : c = 35 ∧ _).1 hc
      · rfl
    rw [e] at hQ1 hQ2
    exact wp_pure (read_token (t := c :: t) hE h (by decide) (by decide) hl (fun he => hQ1 _ (by rw [if_pos he])) fun he => hQ2 _ (by rw [if_neg he]))

/-! ### Names -/

theorem cut_split (t R : Bytes) : ∃ R', t ++ 0 :: R = cut t ++ 0 :: R' ∧ 0 ∉ cut t := by
  induction t with
  | nil => exact ⟨R, rfl, by simp [cut]⟩
  | cons c t ih =>
    obtain ⟨R', h1, h2⟩ := ih
    by_cases hc : c = 0
    · subst hc
      exact ⟨t ++ 0 :: R, by simp [cut], by simp [cut]⟩
    · have e : cut (c :: t) = c :: cut t := by simp [cut, hc]
      exact ⟨R', by rw [e, List.cons_append, h1, List.cons_append], by rw [e]; simp [h2, Ne.symm hc]⟩

theorem cstr_cut {Q : Bytes → Mem → Prop} {t R : Bytes} (hQ : Q (cut t) m) : wp env E (cstr (t ++ 0 :: R)) Q m := by
  obtain ⟨R', h1, h2⟩ := cut_split t R
  rw [h1]
  exact cstr_spec h2 hQ

end Imath
