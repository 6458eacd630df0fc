import Verif.Proof.Root
import Verif.Model.Conv
import Verif.SpecConv

/-! # Output of strings -/

namespace Imath

variable {env : Env} {E : Fault → Prop} {m : Mem} {s : Id → Option Cell} {σ : Id → Option Int}
  {z a b c : Id} {A B C : Cell} {x y w v : Int}

theorem wp_bget {l : Bytes} {i x : Nat} {Q : Nat → Mem → Prop} (h : l[i]? = some x) (hQ : Q x m) :
    wp env E (bget l i) Q m := by
  unfold wp bget; rw [h]; exact hQ

theorem wp_bset {l : Bytes} {i x : Nat} {Q : Bytes → Mem → Prop} (h : i < l.length) (hQ : Q (l.set i x) m) :
    wp env E (bset l i x) Q m := by
  unfold wp bset; rw [if_pos h]; exact hQ

theorem wp_cint {x : Int} {Q : Int → Mem → Prop} (h1 : -2147483648 ≤ x) (h2 : x ≤ 2147483647) (hQ : Q x m) :
    wp env E (cint x) Q m := by
  unfold cint; rw [if_pos ⟨h1, h2⟩]; exact hQ

theorem wp_getFl {Q : (Rat → Rat) → Mem → Prop} (hQ : Q env.fl m) : wp env E getFl Q m := hQ

/-- A declared temporary is not part of the state until it is initialised. -/
theorem declInt_tmp_rep {Q : Id → Mem → Prop} (h : Rep m s)
    (hQ : ∀ t m', s t = none → t.own = true → Decl m' t → Rep m' s → (∀ n, t ≠ .var n) → Q t m') :
    wp env E (declInt .tmp) Q m := by
  refine declInt_tmp_spec h fun t m1 Z d hst hown htn hi1 hi2 hd1 hd2 hn hp ht => ?_
  have hne : ∀ {z C}, s z = some C → z ≠ t := fun hz he => by rw [he, hst] at hz; simp at hz
  have hb : ∀ {z C}, s z = some C → C.base ≠ .single t := fun hz he => by
    have h1 := h.kind hz
    rw [he] at h1
    exact hne hz (okBase_single h1).symm
  refine hQ t m1 hst hown ⟨⟨Z, hi2⟩, ⟨d, hd1⟩, hown, fun n hn' => ?_⟩ ?_ (by rw [htn]; simp)
  · rw [htn]; simp; omega
  · refine ⟨fun hz => ?_, fun hz => ?_, h.kind, h.inj, fun hz => ?_, fun n => ?_, fun {k l} hk => ?_, fun n hn' => ?_,
      fun n hn' => h.freshI n (by omega), fun n hn' => ?_, h.okd, h.okl, by rw [hp]; exact h.prec, by rw [ht]; exact h.thr⟩
    · rw [hi1 _ (hne hz)]; exact h.int hz
    · rw [hd2 _ (hb hz)]; exact h.dig hz
    · rw [hd2 _ (by simp [hne hz])]; exact h.sng hz
    · rw [hi1 _ (by rw [htn]; simp), hd2 _ (by rw [htn]; simp)]; exact h.decl n
    · rw [hd2 _ (by simp)] at hk; exact h.owned hk
    · rw [hd2 _ (by simp)]; exact h.freshH n (by omega)
    · rw [hd2 _ (by simp)]; exact h.freshS n (by omega)

theorem clear_drop_rep {α : Type} {k : M α} {Q : α → Mem → Prop} (h1 : Rep m s) (h2 : s z = some C) (hown : z.own = true)
    (hv : ∀ n, z ≠ .var n) (h3 : ∀ m3, Rep m3 (upd s z none) → wp env E k Q m3) :
    wp env E (do mp_int_clear z; dropInt z; k) Q m := by
  refine wp_bind (mp_int_clear_raw h1 h2 hown ?_)
  intro m3 g1 g2 g3 g4 g5 g6
  refine wp_bind (wp_dropInt (h3 _ ?_))
  refine h1.remove h2 ?_ ?_ ?_ ?_ ?_ ?_ g5 g6
  · intro y hy; simp [Mem.setInt, Mem.setDig, hy, g1 y hy]
  · intro b hb1 hb2; simp [Mem.setInt, Mem.setDig, hb2, g3 b, hb1]
  · intro k' hb; simp [Mem.setInt, Mem.setDig, g3, hb, Base.isHeap]
  · intro k' hb
    rcases okBase_own hown (h1.kind h2) with h5 | ⟨j, h5⟩ <;> rw [h5] at hb <;> simp at hb
  · intro n hn'; exact absurd hn' (hv n)
  · show m.next ≤ m3.next
    omega

theorem withLocal_rep {α : Type} {ini : Id → M Int} {err : Int → α} {k : Id → M α} {Q : α → Mem → Prop}
    (h : Rep m s)
    (hi : ∀ t m1, s t = none → t.own = true → Decl m1 t → Rep m1 s →
      wp env E (ini t) (fun r m2 => r = MP_OK ∧
        wp env E (k t) (fun r m'' => ∃ s'' D, Rep m'' s'' ∧ s'' t = some D ∧
          (∀ m3, Rep m3 (upd s'' t none) → Q r m3)) m2) m1) :
    wp env E (withLocal ini err k) Q m := by
  unfold withLocal
  refine wp_bind (declInt_tmp_rep h fun t m1 hst hown hd h1 hv => ?_)
  refine wp_bind (wp_mono (hi t m1 hst hown hd h1) ?_)
  rintro r m2 ⟨rfl, hk⟩
  refine wp_if_neg (by simp) ?_
  refine wp_bind (wp_mono hk ?_)
  rintro r m3 ⟨s'', D, h3, h4, h5⟩
  exact clear_drop_rep h3 h4 hown hv fun m4 h6 => wp_pure (h5 m4 h6)

/-! ### The digit loop -/

theorem s_val2ch_eq {d : Nat} (h : d < 36) : s_val2ch d = digitChar d := by
  unfold s_val2ch digitChar
  split
  · omega
  · have : u8 (d - 10 + 97) = d + 87 := by unfold u8; omega
    rw [this]; unfold toupper
    rw [if_pos (by omega)]; omega

theorem set_append_len {α : Type} (P R : List α) (y x : α) :
    (P ++ y :: R).set P.length x = (P ++ [x]) ++ R := by simp

theorem toStrLoop_spec {t : Id} {r : Nat} (hr2 : 2 ≤ r) (hr : r ≤ 36) :
    ∀ (n : Nat) {m : Mem} {s : Id → Option Cell} {C : Cell} {cmp : Int} {P R : Bytes} {Q : Int × Bytes × Nat → Mem → Prop},
    Rep m s → s t = some C → Norm C → min n (Nat.digits r C.mag).length ≤ R.length →
    (∀ m' C' cmp', Rep m' (upd s t (some C')) →
      (cmp' = 0 ↔ if n = 0 then cmp = 0 else (Nat.digits r C.mag).length < n) →
      Q (cmp', P ++ ((Nat.digits r C.mag).take n).map digitChar ++ R.drop (min n (Nat.digits r C.mag).length),
        P.length + min n (Nat.digits r C.mag).length) m') →
    wp env E (toStrLoop t r n cmp (P ++ R) P.length) Q m := by
  intro n
  induction n with
  | zero =>
    intro m s C cmp P R Q h ht nC hl hQ
    have := hQ m C cmp (by rw [upd_same _ ht]; exact h) (by simp)
    exact wp_pure (by simpa using this)
  | succ n ih =>
    intro m s C cmp P R Q h ht nC hl hQ
    unfold toStrLoop
    refine wp_bind (CMPZ_norm h ht nC ?_)
    by_cases h0 : C.mag = 0
    · rw [if_pos h0]
      refine wp_if_pos rfl ?_
      have := hQ m C 0 (by rw [upd_same _ ht]; exact h) (by simp [h0])
      rw [h0] at this
      refine wp_pure ?_
      simpa using this
    · rw [if_neg h0]
      refine wp_if_neg (by split <;> simp) ?_
      have hdg : Nat.digits r C.mag = C.mag % r :: Nat.digits r (C.mag / r) :=
        Nat.digits_def' (by omega) (by omega)
      rw [hdg] at hl hQ
      have hur : u32 r = r := u32_of_lt (by omega)
      rw [hur]
      refine wp_bind (s_ddiv_rep h ht nC (by omega) (by omega) fun m1 C1 h1 n1 _ _ v1 => ?_)
      have hR : R ≠ [] := by rintro rfl; simp at hl
      obtain ⟨y, R', rfl⟩ := List.exists_cons_of_ne_nil hR
      refine wp_bind (wp_bset (by simp) ?_)
      rw [set_append_len, s_val2ch_eq (by have := Nat.mod_lt C.mag (show r > 0 by omega); omega)]
      have hlen : P.length + 1 = (P ++ [digitChar (C.mag % r)]).length := by simp
      rw [hlen]
      refine ih h1 (upd_self _ _ _) n1 ?_ fun m2 C2 cmp' h2 hc => ?_
      · rw [v1]; simp at hl; omega
      · rw [upd_upd] at h2
        rw [v1] at hc ⊢
        have := hQ m2 C2 cmp' h2 ?_
        · simp only [List.take_succ_cons, List.map_cons, List.length_cons,
            Nat.add_min_add_right, List.drop_succ_cons] at this
          simp only [List.length_append, List.length_cons, List.length_nil, List.append_assoc, List.cons_append,
            List.nil_append] at this ⊢
          rw [show P.length + (0 + 1) + min n (r.digits (C.mag / r)).length =
            P.length + (min n (r.digits (C.mag / r)).length + 1) by omega]
          exact this
        · rw [hc]
          by_cases hn : n = 0
          · subst hn; simp; split <;> simp
          · simp [hn]

theorem revLoop_spec {Q : Bytes → Mem → Prop} : ∀ (f : Nat) {P X R : Bytes}, X.length ≤ f →
    Q (P ++ X.reverse ++ R) m → wp env E (revLoop f (P ++ X ++ R) P.length (P.length + X.length)) Q m := by
  intro f
  induction f with
  | zero =>
    intro P X R hf hQ
    have : X = [] := List.eq_nil_of_length_eq_zero (by omega)
    subst this
    unfold revLoop
    refine wp_if_neg (by simp) (wp_pure (by simpa using hQ))
  | succ f ih =>
    intro P X R hf hQ
    unfold revLoop
    refine wp_ite (fun h => ?_) (fun h => wp_pure ?_)
    · match X, h with
      | [], h => simp at h
      | [_], h => simp at h
      | x :: x2 :: X', h =>
        obtain ⟨Y, y, hY⟩ : ∃ Y y, x2 :: X' = Y ++ [y] :=
          ⟨_, _, (List.dropLast_append_getLast (by simp)).symm⟩
        rw [hY] at hQ hf ⊢
        have e1 : P ++ x :: (Y ++ [y]) ++ R = P ++ x :: (Y ++ y :: R) := by simp
        have e2 : P.length + (x :: (Y ++ [y])).length - 1 = (P ++ x :: Y).length := by simp
        rw [e1, e2]
        refine wp_bind (wp_bget (x := x) (by simp) ?_)
        refine wp_bind (wp_bget (x := y) ?_ ?_)
        · rw [show P ++ x :: (Y ++ y :: R) = (P ++ x :: Y) ++ y :: R by simp]
          simp only [List.getElem?_append_right (Nat.le_refl _), Nat.sub_self]; rfl
        refine wp_bind (wp_bset (by simp) ?_)
        rw [set_append_len]
        refine wp_bind (wp_bset (by simp) ?_)
        rw [show P ++ [y] ++ (Y ++ y :: R) = (P ++ y :: Y) ++ y :: R by simp,
          show (P ++ x :: Y).length = (P ++ y :: Y).length by simp, set_append_len]
        have := ih (P := P ++ [y]) (X := Y) (R := x :: R) (by simp at hf; omega) (by simpa using hQ)
        rw [show (P ++ y :: Y).length = (P ++ [y]).length + Y.length by simp; omega,
          show P.length + 1 = (P ++ [y]).length by simp,
          show P ++ y :: Y ++ [x] ++ R = P ++ [y] ++ Y ++ x :: R by simp]
        exact this
    · match X, h with
      | [], h => simpa using hQ
      | [_], h => simpa using hQ
      | _ :: _ :: _, h => simp at h

theorem digits_len_pos {r n : Nat} (hr : 2 ≤ r) (hn : n ≠ 0) : 1 ≤ (Nat.digits r n).length := by
  rw [Nat.digits_def' (by omega) (by omega)]; simp

theorem numeralTail_length {r k : Nat} (h1 : 1 ≤ k) (hk : k ≤ (numeral r v).length) : (numeralTail r v k).length = k := by
  have hl : (numeral r v).length = (if v < 0 then 1 else 0) + (numeralN r v.natAbs).length := by
    unfold numeral; rw [List.length_append]; split <;> rfl
  unfold numeralTail
  rw [List.length_append, List.length_drop]
  split at hl <;> rename_i hv
  · rw [if_pos hv]; simp only [List.length_singleton]; omega
  · rw [if_neg hv]; simp only [List.length_nil]; omega

/-- `mp_int_to_string`. -/
theorem mp_int_to_string_full {Q : Int × Bytes → Mem → Prop} {r : Nat} {str : Bytes} {limit : Int}
    (hE : Ref env E) (hr2 : 2 ≤ r) (hr : r ≤ 36) (hlim : 2 ≤ limit)
    (hbuf : min limit ((numeral r v).length : Int) + 1 ≤ str.length)
    (h : R2 m σ) (hz : σ z = some v)
    (hQ1 : ∀ m', R2 m' σ → ((numeral r v).length : Int) < limit →
      Q (MP_OK, numeral r v ++ 0 :: str.drop ((numeral r v).length + 1)) m')
    (hQ2 : ∀ m', R2 m' σ → limit ≤ (numeral r v).length →
      Q (MP_TRUNC, numeralTail r v limit.toNat ++ 0 :: str.drop (limit.toNat + 1)) m') :
    wp env E (mp_int_to_string z r str limit) Q m := by
  unfold mp_int_to_string
  refine wp_bind (wp_cassert (decide_eq_true (by omega)) ?_)
  refine wp_bind (wp_cassert (decide_eq_true ⟨hr2, hr⟩) ?_)
  refine wp_bind (CMPZ_spec h hz ?_)
  refine wp_ite (fun h0 => ?_) (fun h0 => ?_)
  · have hv : v = 0 := Int.sign_eq_zero_iff_zero.1 h0
    subst hv
    have hn : numeral r 0 = [48] := by simp [numeral, numeralN]
    rw [hn] at hbuf hQ1
    simp only [List.length_cons, List.length_nil] at hbuf
    match str, hbuf with
    | [], hbuf => simp at hbuf; omega
    | [_], hbuf => simp at hbuf; omega
    | x :: y :: str', hbuf =>
      refine wp_bind (wp_bset (by simp) ?_)
      refine wp_bind (wp_bset (by simp) ?_)
      have := hQ1 m h (by simp; omega)
      refine wp_pure ?_
      simpa [s_val2ch] using this
  · have hv : v ≠ 0 := fun h1 => h0 (by rw [h1]; rfl)
    obtain ⟨s, hrp, hg⟩ := h
    obtain ⟨C, hC, gC⟩ := hg.get hz
    refine withLocal_rep hrp fun t m1 hst hown hd h1 => ?_
    refine mp_int_init_copy_rep hE h1 hd hst hC gC.norm fun m2 T h2 hT => ⟨rfl, ?_⟩
    have hzt : z ≠ t := fun he => by rw [he, hst] at hC; simp at hC
    refine wp_bind (wp_SIGN h2 (by rw [upd_ne _ _ hzt]; exact hC) ?_)
    have hmag : T.mag = v.natAbs := by rw [hT.mag, gC.natAbs]
    have hnn : numeralN r v.natAbs = ((Nat.digits r v.natAbs).map digitChar).reverse := by
      unfold numeralN; rw [if_neg (by omega)]
    -- the prefix
    obtain ⟨P, hP, hPl⟩ : ∃ P : Bytes, P = (if v < 0 then [45] else []) ∧ P.length = if C.neg then 1 else 0 := by
      refine ⟨_, rfl, ?_⟩
      rw [gC.neg_eq]; by_cases hv0 : v < 0 <;> simp [hv0]
    have hnum : numeral r v = P ++ ((Nat.digits r v.natAbs).map digitChar).reverse := by
      unfold numeral; rw [hnn, hP]
    have hnl : (numeral r v).length = P.length + (Nat.digits r v.natAbs).length := by rw [hnum]; simp
    have hdl := digits_len_pos hr2 (show v.natAbs ≠ 0 by omega)
    have hPle : P.length ≤ 1 := by rw [hPl]; split <;> omega
    rw [hnl] at hbuf hQ1 hQ2
    generalize hD : Nat.digits r v.natAbs = D at *
    obtain ⟨y, R, hstr, hlR⟩ : ∃ y R, str = y ++ R ∧ y.length = P.length :=
      ⟨str.take P.length, str.drop P.length, by simp, by rw [List.length_take]; omega⟩
    have key : wp env E (cif (C.neg = true) (bset str 0 45) (pure str)) (fun str' m' => str' = P ++ R ∧ m' = m2) m2 := by
      refine wp_cif (fun hn => ?_) (fun hn => wp_pure ?_)
      · refine wp_bset (by omega) ?_
        rw [gC.neg_eq] at hn
        have hv0 : v < 0 := by simpa using hn
        rw [if_pos hv0] at hP
        subst hP
        obtain ⟨y0, rfl⟩ := List.length_eq_one_iff.1 hlR
        rw [hstr]; simp
      · have hv0 : ¬ v < 0 := by rw [gC.neg_eq] at hn; simpa using hn
        rw [if_neg hv0] at hP
        subst hP
        have := List.eq_nil_of_length_eq_zero hlR
        rw [hstr, this]; simp
    refine wp_bind (wp_mono key ?_)
    rintro str' m' ⟨rfl, rfl⟩
    have hsl : str.length = P.length + R.length := by rw [hstr]; simp [hlR]
    have hdrop : ∀ k, str.drop (P.length + k) = R.drop k := by
      intro k; rw [hstr, ← hlR, List.drop_append]; simp
    simp only [← hPl]
    have hn : (limit - (P.length : Int)).toNat ≠ 0 := by omega
    obtain ⟨n, hnn'⟩ : ∃ n, (limit - (P.length : Int)).toNat = n := ⟨_, rfl⟩
    rw [hnn'] at hn ⊢
    have hln : limit = (P.length + n : Nat) := by omega
    refine wp_bind (toStrLoop_spec hr2 hr n h2 (upd_self _ _ _) (hT.norm gC.norm) ?_ fun m3 C3 cmp' h3 hc => ?_)
    · rw [hmag, hD]; omega
    rw [hmag, hD] at hc ⊢
    rw [upd_upd] at h3
    rw [if_neg hn] at hc
    obtain ⟨X, hX⟩ : ∃ X, X = (D.take n).map digitChar := ⟨_, rfl⟩
    have hXl : X.length = min n D.length := by rw [hX]; simp
    rw [← hX, ← hXl]
    refine wp_bind (revLoop_spec (P.length + X.length) (by omega) ?_)
    have hRX : X.length < R.length := by omega
    obtain ⟨y1, hy1⟩ : ∃ y1, R.drop X.length = y1 :: R.drop (X.length + 1) :=
      ⟨R[X.length], (List.getElem_cons_drop hRX).symm⟩
    refine wp_bind (wp_bset (by simp; omega) ?_)
    have e3 : (P ++ X.reverse ++ R.drop X.length).set (P.length + X.length) 0 =
        P ++ X.reverse ++ 0 :: R.drop (X.length + 1) := by
      rw [hy1, show P.length + X.length = (P ++ X.reverse).length by simp, set_append_len]; simp
    simp only [e3]
    refine wp_pure ⟨_, C3, h3, upd_self _ _ _, fun m4 h4 => ?_⟩
    rw [upd_tmp0 _ hst] at h4
    have hR2 : R2 m4 σ := ⟨s, h4, hg⟩
    by_cases hlt : D.length < n
    · rw [if_pos (hc.2 hlt)]
      have hXX : X.length = D.length := by omega
      have hXD : X = D.map digitChar := by rw [hX, List.take_of_length_le (by omega)]
      have := hQ1 m4 hR2 (by omega)
      rw [hnum, Nat.add_assoc, hdrop, ← hXD, ← hXX] at this
      exact this
    · rw [if_neg (fun h5 => hlt (hc.1 h5))]
      have hXX : X.length = n := by omega
      have hlt' : limit.toNat = P.length + X.length := by omega
      have := hQ2 m4 hR2 (by omega)
      have hP2 : (if v < 0 then [45] else []) = P := hP.symm
      rw [hlt', Nat.add_assoc, hdrop] at this
      have e4 : numeralTail r v (P.length + X.length) = P ++ X.reverse := by
        unfold numeralTail
        rw [hP2, hnn, hnl, hXX, hX, show P.length + D.length - (P.length + n) = D.length - n by omega]
        rw [List.drop_reverse, List.length_map, show D.length - (D.length - n) = n by omega, List.map_take]
      rw [e4] at this
      exact this

theorem mp_int_to_string_spec {Q : Int × Bytes → Mem → Prop} {r : Nat} {str : Bytes} {limit : Int}
    (hE : Ref env E) (hr2 : 2 ≤ r) (hr : r ≤ 36) (hlim : 2 ≤ limit)
    (hbuf : min limit ((numeral r v).length : Int) + 1 ≤ str.length)
    (h : R2 m σ) (hz : σ z = some v)
    (hQ1 : ∀ m', R2 m' σ → ((numeral r v).length : Int) < limit →
      Q (MP_OK, numeral r v ++ 0 :: str.drop ((numeral r v).length + 1)) m')
    (hQ2 : ∀ m' str', R2 m' σ → limit ≤ (numeral r v).length → str'.length = str.length →
      str'.drop (limit.toNat + 1) = str.drop (limit.toNat + 1) → str'[limit.toNat]? = some 0 →
      Q (MP_TRUNC, str') m') :
    wp env E (mp_int_to_string z r str limit) Q m := by
  refine mp_int_to_string_full hE hr2 hr hlim hbuf h hz hQ1 fun m' h' hl => ?_
  have hlen : (numeralTail r v limit.toNat).length = limit.toNat := numeralTail_length (by omega) (by omega)
  refine hQ2 m' _ h' hl ?_ ?_ ?_
  · simp only [List.length_append, List.length_cons, List.length_drop, hlen]; omega
  · rw [List.drop_append, List.drop_eq_nil_of_le (by omega), hlen, List.nil_append, Nat.add_sub_cancel_left]; rfl
  · rw [List.getElem?_append_right (by omega), hlen, Nat.sub_self]; rfl

end Imath
