import Verif.Proof.Calc5

/-! # Expressions for the calculator -/

namespace Imath

variable {L : Lib} {A : Calculator} {x y v : Int} {code : Int} {s : List Nat}

theorem trim_space (s : List Nat) : trim (32 :: s) = trim s := by
  conv_lhs => unfold trim
  rw [if_pos (.inl rfl)]

theorem nextTok1_space (s : List Nat) : nextTok1 (32 :: s) = nextTok1 s := by
  unfold nextTok1
  rw [trim_space]

theorem tokens_space (s : List Nat) : tokens (32 :: s) = tokens s := by
  rcases h : nextTok1 s with _ | ⟨t, s'⟩
  · rw [tokens_none h, tokens_none (by rw [nextTok1_space]; exact h)]
  · rw [tokens_some h, tokens_some (by rw [nextTok1_space]; exact h)]

theorem takeWhile_word {p : Nat → Bool} {w : List Nat} (hw : ∀ d ∈ w, p d = true) (hp : p 32 = false) :
    (w ++ 32 :: s).takeWhile p = w := by
  induction w with
  | nil => simp [hp]
  | cons d w ih =>
    rw [List.cons_append, List.takeWhile_cons, hw d (by simp), ih fun e he => hw e (by simp [he])]
    rfl

theorem tokens_word {n : Bool} {c : Nat} {w : List Nat} (hc : ¬ IsSpace c) (hn : startsNum c (w ++ 32 :: s) = n)
    (hw : ∀ d ∈ w, endsTok n d = false) (hl : w.length < 16383) :
    tokens (c :: w ++ 32 :: s) = (if n then .num (c :: w) else .sym (c :: w)) :: tokens s := by
  have tw : (w ++ 32 :: s).takeWhile (fun c => !endsTok n c) = w := takeWhile_word (by simpa using hw) (by simp [endsTok, IsSpace])
  have : nextTok1 (c :: w ++ 32 :: s) = some (if n then .num (c :: w) else .sym (c :: w), 32 :: s) := by
    unfold nextTok1
    rw [List.cons_append, trim_cons hc]
    dsimp only
    rw [hn, tw, if_pos hl]
    simp
  rw [tokens_some this, tokens_space]

theorem numeral_char {d : Nat} (h : d ∈ numeralN 10 k) : 48 ≤ d ∧ d ≤ 57 := by
  unfold numeralN at h
  split at h
  · simp at h; omega
  · rw [List.mem_reverse, List.mem_map] at h
    obtain ⟨e, he, rfl⟩ := h
    have := Nat.digits_lt_base (by norm_num) he
    unfold digitChar
    rw [if_pos this]; omega

theorem session_lit (hl : (numeral 10 x).length < 16383) :
    session L A code (tokens (numeral 10 x ++ 32 :: s)) = session L { A with stack := x :: A.stack } MP_OK (tokens s) := by
  have tk : tokens (numeral 10 x ++ 32 :: s) = .num (numeral 10 x) :: tokens s := by
    have hN := numeralN_pos 10 x.natAbs (by norm_num)
    rcases hd : numeralN 10 x.natAbs with _ | ⟨d, w⟩
    · rw [hd] at hN; simp at hN
    · have hch : ∀ e ∈ d :: w, 48 ≤ e ∧ e ≤ 57 := fun e he => numeral_char (k := x.natAbs) (by rw [hd]; exact he)
      have he : ∀ e, 48 ≤ e ∧ e ≤ 57 → endsTok true e = false := by
        intro e he
        simp [endsTok, IsSpace, isPunct]; omega
      unfold numeral at hl ⊢
      rw [hd] at hl ⊢
      have hd0 := hch d (by simp)
      by_cases hx : x < 0
      · rw [if_pos hx] at hl ⊢
        rw [List.singleton_append] at hl ⊢
        exact tokens_word (n := true) (c := 45) (w := d :: w) (by simp [IsSpace]) (by simp [startsNum, isDec, hd0]) (fun e hm => he e (hch e hm)) (by simp at hl ⊢; omega)
      · rw [if_neg hx] at hl ⊢
        rw [List.nil_append] at hl ⊢
        exact tokens_word (n := true) (c := d) (w := w) (by simp [IsSpace]; omega) (by simp [startsNum, isDec, hd0]) (fun e hm => he e (hch e (by simp [hm]))) (by simp at hl ⊢; omega)
  have nv : numVal (numeral 10 x) = .ok x := by
    have h35 : ∀ t, numeral 10 x ≠ 35 :: t := by
      intro t ht
      have : (35 : Nat) ∈ numeral 10 x := by rw [ht]; simp
      unfold numeral at this
      rw [List.mem_append] at this
      rcases this with h | h
      · split at h <;> simp at h
      · have := numeral_char h; omega
    unfold numVal
    split
    · next h => exact absurd h (h35 _)
    · next h => exact absurd h (h35 _)
    · have := (scanInt_numeral (r := 10) (by norm_num) (by norm_num) x (ch := 0) (by rintro d ⟨hd, hd2⟩; unfold digitChar at hd2; split_ifs at hd2 <;> omega) []).1
      simp only [this]
      rfl
  rw [tk, session, nv]

theorem session_word {c : Cmd} {k : Nat} {w : List Nat} {code' : Int} {A' : Calculator} {txt : List Nat} (hk : ¬ IsSpace k) (hn : startsNum k (w ++ 32 :: s) = false)
    (hw : ∀ d ∈ w, endsTok false d = false) (hl : w.length < 16383) (hc : command (cut (k :: w)) = some c) (h1 : c ≠ .store) (h2 : c ≠ .recall)
    (hs : c.info.1 ≤ A.stack.length) (ha : c.act L A = .ok code' A' txt) :
    session L A code (tokens (k :: w ++ 32 :: s)) = (session L A' code' (tokens s)).after txt := by
  rw [tokens_word hk hn hw hl]
  simp only [Bool.false_eq_true, if_false]
  rw [session, hc]
  dsimp only
  rw [if_neg (by omega), if_neg (by tauto), ha]

theorem after_nil (o : Outcome) : o.after [] = o := by cases o <;> simp [Outcome.after]

theorem Expr.session (e : Expr) (he : e.short) (hv : e.value = some v) (A : Calculator) (code : Int) (s : List Nat) :
    Imath.session L A code (tokens (e.text ++ s)) = Imath.session L { A with stack := v :: A.stack } MP_OK (tokens s) := by
  induction e generalizing v A code s with
  | lit x =>
    have : x = v := by simpa [Expr.value] using hv
    subst this
    unfold Expr.text
    rw [List.append_assoc, List.singleton_append]
    exact session_lit he
  | neg a ih =>
    simp only [Expr.value, Option.pure_def, Option.bind_eq_bind, Option.bind_eq_some_iff, Option.some.injEq] at hv
    obtain ⟨x, hx, rfl⟩ := hv
    unfold Expr.text
    rw [List.append_assoc, ih he hx]
    refine (session_word (c := .neg) (k := 110) (w := [101, 103]) (by decide) (by rfl) (by decide) (by decide) (by decide) (by decide) (by decide) (by simp [Cmd.info]) rfl).trans ?_
    rw [after_nil]
    rfl
  | abs a ih =>
    simp only [Expr.value, Option.pure_def, Option.bind_eq_bind, Option.bind_eq_some_iff, Option.some.injEq] at hv
    obtain ⟨x, hx, rfl⟩ := hv
    unfold Expr.text
    rw [List.append_assoc, ih he hx]
    refine (session_word (c := .abs) (k := 97) (w := [98, 115]) (by decide) (by rfl) (by decide) (by decide) (by decide) (by decide) (by decide) (by simp [Cmd.info]) rfl).trans ?_
    rw [after_nil]
    rfl
  | sqr a ih =>
    simp only [Expr.value, Option.pure_def, Option.bind_eq_bind, Option.bind_eq_some_iff, Option.some.injEq] at hv
    obtain ⟨x, hx, rfl⟩ := hv
    unfold Expr.text
    rw [List.append_assoc, ih he hx]
    refine (session_word (c := .sqr) (k := 115) (w := [113, 114]) (by decide) (by rfl) (by decide) (by decide) (by decide) (by decide) (by decide) (by simp [Cmd.info]) rfl).trans ?_
    rw [after_nil, pow_two]
    rfl
  | fact a ih =>
    simp only [Expr.value, Option.bind_eq_bind, Option.bind_eq_some_iff] at hv
    obtain ⟨x, hx, hv⟩ := hv
    split at hv
    · simp at hv
    next h0 =>
    have hv := Option.some.inj hv
    subst hv
    unfold Expr.text
    rw [List.append_assoc, ih he hx]
    refine (session_word (c := .fact) (code' := MP_OK) (txt := []) (A' := { A with stack := (x.toNat.factorial : Int) :: A.stack }) (k := 33) (w := []) (by decide) (by rfl) (by decide) (by decide) (by decide) (by decide) (by decide) (by simp [Cmd.info]) (by simp only [Cmd.act]; rw [if_neg h0])).trans ?_
    rw [after_nil]
    rfl
  | add a b iha ihb =>
    simp only [Expr.value, Option.pure_def, Option.bind_eq_bind, Option.bind_eq_some_iff, Option.some.injEq] at hv
    obtain ⟨x, hx, y, hy, rfl⟩ := hv
    unfold Expr.text
    rw [List.append_assoc, List.append_assoc, iha he.1 hx, ihb he.2 hy]
    refine (session_word (c := .add) (k := 43) (w := []) (by decide) (by rfl) (by decide) (by decide) (by decide) (by decide) (by decide) (by simp [Cmd.info]) rfl).trans ?_
    rw [after_nil]
    rfl
  | sub a b iha ihb =>
    simp only [Expr.value, Option.pure_def, Option.bind_eq_bind, Option.bind_eq_some_iff, Option.some.injEq] at hv
    obtain ⟨x, hx, y, hy, rfl⟩ := hv
    unfold Expr.text
    rw [List.append_assoc, List.append_assoc, iha he.1 hx, ihb he.2 hy]
    refine (session_word (c := .sub) (k := 45) (w := []) (by decide) (by rfl) (by decide) (by decide) (by decide) (by decide) (by decide) (by simp [Cmd.info]) rfl).trans ?_
    rw [after_nil]
    rfl
  | mul a b iha ihb =>
    simp only [Expr.value, Option.pure_def, Option.bind_eq_bind, Option.bind_eq_some_iff, Option.some.injEq] at hv
    obtain ⟨x, hx, y, hy, rfl⟩ := hv
    unfold Expr.text
    rw [List.append_assoc, List.append_assoc, iha he.1 hx, ihb he.2 hy]
    refine (session_word (c := .mul) (k := 42) (w := []) (by decide) (by rfl) (by decide) (by decide) (by decide) (by decide) (by decide) (by simp [Cmd.info]) rfl).trans ?_
    rw [after_nil]
    rfl
  | quo a b iha ihb =>
    simp only [Expr.value, Option.bind_eq_bind, Option.bind_eq_some_iff] at hv
    obtain ⟨x, hx, y, hy, hv⟩ := hv
    split at hv
    · simp at hv
    next h0 =>
    have hv := Option.some.inj hv
    subst hv
    unfold Expr.text
    rw [List.append_assoc, List.append_assoc, iha he.1 hx, ihb he.2 hy]
    refine (session_word (c := .div) (code' := MP_OK) (txt := []) (A' := { A with stack := x.tdiv y :: A.stack }) (k := 47) (w := [47]) (by decide) (by rfl) (by decide) (by decide) (by decide) (by decide) (by decide) (by simp [Cmd.info]) (by simp only [Cmd.act]; rw [if_neg h0])).trans ?_
    rw [after_nil]
    rfl
  | rem a b iha ihb =>
    simp only [Expr.value, Option.bind_eq_bind, Option.bind_eq_some_iff] at hv
    obtain ⟨x, hx, y, hy, hv⟩ := hv
    split at hv
    · simp at hv
    next h0 =>
    have hv := Option.some.inj hv
    subst hv
    unfold Expr.text
    rw [List.append_assoc, List.append_assoc, iha he.1 hx, ihb he.2 hy]
    refine (session_word (c := .mod) (code' := MP_OK) (txt := []) (A' := { A with stack := x % y :: A.stack }) (k := 37) (w := []) (by decide) (by rfl) (by decide) (by decide) (by decide) (by decide) (by decide) (by simp [Cmd.info]) (by simp only [Cmd.act]; rw [if_neg (by omega), remOf, if_pos (by omega)])).trans ?_
    rw [after_nil]
    rfl
  | gcd a b iha ihb =>
    simp only [Expr.value, Option.bind_eq_bind, Option.bind_eq_some_iff] at hv
    obtain ⟨x, hx, y, hy, hv⟩ := hv
    split at hv
    · simp at hv
    next h0 =>
    have hv := Option.some.inj hv
    subst hv
    unfold Expr.text
    rw [List.append_assoc, List.append_assoc, iha he.1 hx, ihb he.2 hy]
    refine (session_word (c := .gcd) (code' := MP_OK) (txt := []) (A' := { A with stack := (Int.gcd x y : Int) :: A.stack }) (k := 103) (w := [99, 100]) (by decide) (by rfl) (by decide) (by decide) (by decide) (by decide) (by decide) (by simp [Cmd.info]) (by simp only [Cmd.act]; rw [if_neg h0])).trans ?_
    rw [after_nil]
    rfl
  | pow a b iha ihb =>
    simp only [Expr.value, Option.bind_eq_bind, Option.bind_eq_some_iff] at hv
    obtain ⟨x, hx, y, hy, hv⟩ := hv
    split at hv
    · simp at hv
    next h0 =>
    have hv := Option.some.inj hv
    subst hv
    unfold Expr.text
    rw [List.append_assoc, List.append_assoc, iha he.1 hx, ihb he.2 hy]
    refine (session_word (c := .expt) (k := 94) (w := []) (code' := MP_OK) (txt := []) (by decide) (by rfl) (by decide) (by decide) (by decide) (by decide) (by decide) (by simp [Cmd.info])
      (A' := { A with stack := x ^ y.toNat :: A.stack }) ?_).trans ?_
    · simp only [Cmd.act, small]
      rw [if_neg (by omega), if_neg (by omega), if_neg (by omega), show y % 2 ^ 32 = y from Int.emod_eq_of_lt (by omega) (by omega)]
    · rw [after_nil]
      rfl

end Imath
