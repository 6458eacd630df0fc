import Verif.Proof.RatDec
import Verif.Proof.RatToDec
import Verif.SpecRead

/-! # The functions that read text agree with the reference reader -/

namespace Imath

variable {env : Env} {E : Fault → Prop} {m : Mem} {σ : Id → Option Int} {z : Id} {c : MpQ} {x y w v : Int} {r : Nat}

theorem IsDigit.digitVal {r c d : Nat} (hr : r ≤ 36) (h : IsDigit r c d) : digitVal r c = some d := by
  obtain ⟨h1, h2⟩ := h
  unfold digitChar at h2
  unfold Imath.digitVal
  have : (if 48 ≤ c ∧ c ≤ 57 then c - 48 else if 65 ≤ c ∧ c ≤ 90 then c - 55 else if 97 ≤ c ∧ c ≤ 122 then c - 87 else r) = d := by
    rcases h2 with h2 | ⟨h2, h3⟩
    · split at h2 <;> (repeat' split) <;> omega
    · (repeat' split) <;> omega
  dsimp only
  rw [this, if_pos h1]

theorem digitVal_none {r c : Nat} (h : ∀ d, ¬ IsDigit r c d) : digitVal r c = none := by
  unfold digitVal
  dsimp only
  rw [if_neg]
  intro h1
  refine h _ ⟨h1, ?_⟩
  unfold digitChar
  (repeat' split) <;> (repeat' split at h1) <;> omega

theorem scanDigits_split {ds rest : Bytes} {vs : List Nat} {ch : Nat} (hr : r ≤ 36) (hF : List.Forall₂ (IsDigit r) ds vs)
    (hc : ∀ d, ¬ IsDigit r ch d) (a : Nat) :
    scanDigits r a (ds ++ ch :: rest) = (vs.foldl (fun a d => a * r + d) a, ch :: rest) := by
  induction hF generalizing a with
  | nil => rw [List.nil_append, scanDigits, digitVal_none hc]; rfl
  | cons h _ ih => rw [List.cons_append, scanDigits, h.digitVal hr]; exact ih _

theorem trim_split {w t : Bytes} (hw : ∀ x ∈ w, IsSpace x) (ht : ∀ x t', t = x :: t' → ¬ IsSpace x) : trim (w ++ t) = t := by
  induction w with
  | nil =>
    cases t with
    | nil => rfl
    | cons x t => rw [List.nil_append, trim, if_neg (ht x t rfl)]
  | cons x w ih =>
    rw [List.cons_append, trim, if_pos (hw x (by simp))]
    exact ih fun y hy => hw y (by simp [hy])

theorem scanInt_split {w sg ds rest : Bytes} {vs : List Nat} {ch : Nat} (hr : r ≤ 36)
    (hw : ∀ x ∈ w, IsSpace x) (hsg : sg = [] ∨ sg = [43] ∨ sg = [45])
    (hF : List.Forall₂ (IsDigit r) ds vs) (hc : ∀ d, ¬ IsDigit r ch d)
    (hhead : sg = [] → ds = [] → ¬ IsSpace ch ∧ ch ≠ 43 ∧ ch ≠ 45) :
    minus (w ++ sg ++ ds ++ ch :: rest) = decide (sg = [45]) ∧
    scanInt r (w ++ sg ++ ds ++ ch :: rest) =
      ((if sg = [45] then -1 else 1) * ((Nat.ofDigits r vs.reverse : Nat) : Int), ch :: rest) := by
  have hd := scanDigits_split (rest := rest) hr hF hc 0
  rw [foldl_ofDigits, Nat.zero_mul, Nat.zero_add] at hd
  have hns : sg = [] → ∀ x t', ds ++ ch :: rest = x :: t' → ¬ IsSpace x ∧ x ≠ 45 ∧ x ≠ 43 := by
    intro he x t' e
    cases hF with
    | nil =>
      simp only [List.nil_append, List.cons.injEq] at e
      obtain ⟨h1, h2, h3⟩ := hhead he rfl
      rw [← e.1]
      exact ⟨h1, h3, h2⟩
    | cons hx hF =>
      simp only [List.cons_append, List.cons.injEq] at e
      obtain ⟨h1, h2, h3, _⟩ := hx.not_special hr
      rw [← e.1]
      exact ⟨h1, h2, h3⟩
  have ht : trim (w ++ sg ++ ds ++ ch :: rest) = sg ++ (ds ++ ch :: rest) := by
    rw [List.append_assoc, List.append_assoc]
    refine trim_split hw fun x t' e => ?_
    rcases hsg with h | h | h
    · rw [h] at e; exact (hns h x t' e).1
    · rw [h] at e; simp only [List.cons_append, List.cons.injEq] at e; rw [← e.1]; unfold IsSpace; omega
    · rw [h] at e; simp only [List.cons_append, List.cons.injEq] at e; rw [← e.1]; unfold IsSpace; omega
  have hm : minus (w ++ sg ++ ds ++ ch :: rest) = decide (sg = [45]) := by
    unfold minus
    rw [ht]
    rcases hsg with h | h | h
    · subst h
      obtain ⟨x, t', e⟩ : ∃ x t', ds ++ ch :: rest = x :: t' := List.exists_cons_of_ne_nil (by simp)
      have := (hns rfl x t' e).2.1
      rw [List.nil_append, e]
      simp [this]
    · rw [h]; simp
    · rw [h]; simp
  refine ⟨hm, ?_⟩
  unfold scanInt
  rw [hm, ht]
  have hd' : scanDigits r 0 (if (sg ++ (ds ++ ch :: rest)).head? = some 45 ∨ (sg ++ (ds ++ ch :: rest)).head? = some 43
      then (sg ++ (ds ++ ch :: rest)).tail else sg ++ (ds ++ ch :: rest)) = (Nat.ofDigits r vs.reverse, ch :: rest) := by
    rw [← hd]
    congr 1
    rcases hsg with h | h | h
    · subst h
      obtain ⟨x, t', e⟩ : ∃ x t', ds ++ ch :: rest = x :: t' := List.exists_cons_of_ne_nil (by simp)
      have := (hns rfl x t' e).2
      rw [List.nil_append, e, if_neg (by simpa using this)]
    · rw [h]; simp
    · rw [h]; simp
  dsimp only
  rw [hd']
  simp only [decide_eq_true_eq]
  split <;> simp

theorem not_nil_of_len {s : Bytes} (h : 0 ∈ s.take 800000001) : 0 ∈ s := List.mem_of_mem_take h

/-- The part of the text that has been read. -/
theorem scanInt_suffix (hr : r ≤ 36) {s : Bytes} (h0 : 0 ∈ s.take 800000001) :
    ∃ P, s = P ++ (scanInt r s).2 ∧ 0 ∉ P ∧ 0 ∈ ((scanInt r s).2).take 800000001 ∧ (scanInt r s).2 ≠ [] := by
  obtain ⟨w, sg, ds, vs, ch, rest, e, hw, hsg, hF, hch, hhead, -⟩ := split_string r s (not_nil_of_len h0)
  obtain ⟨-, h2⟩ := scanInt_split (rest := rest) hr hw hsg hF hch hhead
  rw [← e] at h2
  have hP : 0 ∉ w ++ sg ++ ds := by simp [space_ne hw, sign_ne hsg, digits_ne hr hF]
  refine ⟨w ++ sg ++ ds, by rw [h2]; exact e, hP, ?_, by rw [h2]; simp⟩
  rw [h2]
  rw [e] at h0
  exact nul_later hP h0

theorem endCode_cons (ch : Nat) (rest : List Nat) : endCode (ch :: rest) = if ch = 0 then MP_OK else MP_TRUNC := by
  unfold endCode; simp

/-- `mp_int_read_cstring`, any text. -/
theorem read_cstring_total {Q : Int × Nat → Mem → Prop} {s : Bytes} (hE : Ref env E) (hr2 : 2 ≤ r) (hr : r ≤ 36)
    (h0 : 0 ∈ s.take 800000001) (ho : z.own = true) (h : R2 m σ) (hz : σ z = some v)
    (hQ : ∀ m', R2 m' (upd σ z (some (scanInt r s).1)) → Q (endCode (scanInt r s).2, s.length - (scanInt r s).2.length) m') :
    wp env E (mp_int_read_cstring z r s) Q m := by
  obtain ⟨w, sg, ds, vs, ch, rest, e, hw, hsg, hF, hch, hhead, -⟩ := split_string r s (not_nil_of_len h0)
  obtain ⟨-, h2⟩ := scanInt_split (rest := rest) hr hw hsg hF hch hhead
  rw [← e] at h2
  rw [h2, endCode_cons] at hQ
  have z1 : 0 ∈ (ds ++ ch :: rest).take 800000001 := by
    rw [e, List.append_assoc (w ++ sg)] at h0
    exact nul_later (by simp [space_ne hw, sign_ne hsg]) h0
  have hl : s.length - (ch :: rest).length = (w ++ sg ++ ds).length := by rw [e]; simp; omega
  rw [hl] at hQ
  rw [e]
  exact read_cstring_spec' hE hr2 hr hw hsg hF hch hhead z1 ho h hz hQ

/-- `mp_rat_read_cstring`, any text. -/
theorem mp_rat_read_cstring_total {Q : Int × Option Nat → Mem → Prop} {s : Bytes} (hE : Ref env E) (hr2 : 2 ≤ r) (hr : r ≤ 36)
    (h0 : 0 ∈ s.take 800000001) (h : R2 m σ) (hc : OutQ σ c)
    (hQ : ∀ m', R2 m' (upd (upd σ c.num (some (readFraction r s).num)) c.den (some (readFraction r s).den)) →
      Q ((readFraction r s).res, (readFraction r s).rest.map fun t => s.length - t.length) m') :
    wp env E (mp_rat_read_cstring c r s) Q m := by
  obtain ⟨u1, hu1⟩ := hc.num
  obtain ⟨u2, hu2⟩ := hc.den
  obtain ⟨P, eP, hP0, hR0, hRn⟩ := scanInt_suffix hr h0
  unfold mp_rat_read_cstring
  refine wp_bind (read_cstring_total hE hr2 hr h0 hc.onum h hu1 fun m1 h1 => ?_)
  unfold readFraction at hQ
  dsimp only at hQ
  generalize (scanInt r s).1 = X at *
  generalize (scanInt r s).2 = T at *
  refine wp_if_neg (by unfold endCode; dsimp only; split <;> simp) ?_
  obtain ⟨w, t, et, hw, ht0, htn⟩ := split_space T (not_nil_of_len hR0)
  obtain ⟨ch, t', rfl⟩ : ∃ x t', t = x :: t' := List.exists_cons_of_ne_nil (by rintro rfl; simp at ht0)
  have hch := htn ch t' rfl
  rw [et, trim_split hw htn, ← et] at hQ
  have el : s.length - T.length = P.length := by rw [eP]; simp
  have es : s = P ++ (w ++ ch :: t') := by rw [← et]; exact eP
  rw [el]
  have ef : s.length = P.length + w.length + t'.length + 1 := by rw [es]; simp; omega
  refine wp_bind ?_
  rw [ef]
  have k := skipSpace_spec (env := env) (E := E) (m := m1) (R := t') (Q := fun i m' => i = P.length + w.length ∧ m' = m1)
    hch w P (P.length + w.length + t'.length + 1 + 1) (by omega) hw ⟨rfl, rfl⟩
  rw [← es] at k
  refine wp_mono k ?_
  rintro _ _ ⟨rfl, rfl⟩
  have es2 : s = (P ++ w) ++ ch :: t' := by rw [es]; simp
  refine wp_bind (wp_bget (x := ch) (by rw [es2, ← List.length_append]; exact getElem?_append_len) ?_)
  by_cases h47 : ch = 47
  · refine wp_if_neg (by simp [h47]) ?_
    subst h47
    have ed : s.drop (P.length + w.length + 1) = t' := by
      rw [show s = (P ++ w ++ [47]) ++ t' by rw [es]; simp,
        show P.length + w.length + 1 = (P ++ w ++ [47]).length by simp only [List.length_append, List.length_singleton], List.drop_left]
    rw [ed]
    have z3 : 0 ∈ t'.take 800000001 := by
      rw [et, show w ++ 47 :: t' = (w ++ [47]) ++ t' by simp] at hR0
      exact nul_later (by simp [space_ne hw]) hR0
    obtain ⟨P2, eP2, -, -, hRn2⟩ := scanInt_suffix hr z3
    refine wp_bind (read_cstring_total hE hr2 hr z3 hc.oden h1 (by rw [upd_ne _ _ hc.ne.symm]; exact hu2) fun m2 h2 => ?_)
    simp only at hQ
    generalize (scanInt r t').1 = Y at *
    generalize (scanInt r t').2 = U at *
    have hend : ∀ k : Int, k ≠ MP_MEMORY → endOf (k, t'.length - U.length) (P.length + w.length + 1) = some (s.length - U.length) := by
      intro k hk
      unfold endOf
      rw [if_neg (by simpa using hk)]
      have : t'.length = P2.length + U.length := by rw [eP2]; simp
      congr 1
      dsimp only
      omega
    have hec : endCode U ≠ MP_MEMORY := by unfold endCode; split <;> decide
    dsimp only
    rw [hend _ hec]
    by_cases hu : U.head? = some 0
    · rw [if_neg (by simpa using hu)] at hQ
      have : endCode U = MP_OK := by unfold endCode; rw [if_pos hu]
      rw [this]
      refine wp_if_neg (by simp) (wp_bind (mp_int_compare_zero_spec h2 (upd_self _ _ _) ?_))
      by_cases hY : Y = 0
      · refine wp_if_pos (by rw [hY]; rfl) (wp_pure ?_)
        rw [if_pos hY] at hQ
        rw [hY] at h2
        exact hQ m2 h2
      · refine wp_if_neg (by rwa [Int.sign_eq_zero_iff_zero]) ?_
        rw [if_neg hY] at hQ
        have hn : (upd (upd σ c.num (some X)) c.den (some Y)) c.num = some X := by rw [upd_ne _ _ hc.ne, upd_self]
        have hc2 : OutQ (upd (upd σ c.num (some X)) c.den (some Y)) c := ⟨hc.ne, ⟨_, hn⟩, ⟨_, upd_self _ _ _⟩, hc.onum, hc.oden⟩
        refine wp_bind (s_rat_reduce_spec hE h2 hn (upd_self _ _ _) (fun _ => hY) hc2 fun m3 h3 => wp_pure ?_)
        rw [updQ_upd2 hc.ne] at h3
        exact hQ m3 h3
    · rw [if_pos (by simpa using hu)] at hQ
      have : endCode U = MP_TRUNC := by unfold endCode; rw [if_neg hu]
      rw [this]
      exact wp_if_pos (by decide) (wp_pure (hQ m2 h2))
  · have hQ' : ∀ m', R2 m' (upd (upd σ c.num (some X)) c.den (some 1)) → Q (endCode T, some (s.length - T.length)) m' := by
      intro m' h'
      have := hQ m'
      split at this
      · next hh => simp only [List.cons.injEq] at hh; exact absurd hh.1 h47
      · exact this h'
    refine wp_if_pos h47 (wp_bind (mp_int_set_value_spec hE (by decide) (by decide) h1
      (by rw [upd_ne _ _ hc.ne.symm]; exact hu2) hc.oden fun m2 h2 => wp_pure ?_))
    rw [← el]
    exact hQ' m2 h2

/-- `mp_rat_read_cdecimal`, any text. -/
theorem mp_rat_read_cdecimal_total {Q : Int × Option Nat → Mem → Prop} {s : Bytes} (hE : Ref env E) (hr2 : 2 ≤ r) (hr : r ≤ 36)
    (h0 : 0 ∈ s.take 800000001) (h : R2 m σ) (hc : OutQ σ c)
    (hQ : ∀ m', R2 m' (upd (upd σ c.num (some (readDecimal r s).num)) c.den (some (readDecimal r s).den)) →
      Q ((readDecimal r s).res, (readDecimal r s).rest.map fun t => s.length - t.length) m') :
    wp env E (mp_rat_read_cdecimal c r s) Q m := by
  obtain ⟨w, sg, ds, vs, ch, rest, e, hw, hsg, hF, hch, hhead, hz0⟩ := split_string r s (not_nil_of_len h0)
  obtain ⟨hm, h2⟩ := scanInt_split (rest := rest) hr hw hsg hF hch hhead
  rw [← e] at h2 hm
  have hP : 0 ∉ w ++ sg ++ ds := by simp [space_ne hw, sign_ne hsg, digits_ne hr hF]
  unfold readDecimal at hQ
  rw [h2] at hQ
  dsimp only at hQ
  have hlen : s.length = (w ++ sg ++ ds).length + rest.length + 1 := by rw [e]; simp; omega
  by_cases h46 : ch = 46
  · subst h46
    rw [hm] at hQ
    simp only at hQ
    have hr0 : 0 ∈ rest := by simpa using hz0
    by_cases hsp : (rest.head?.any fun c => IsSpace c ∨ c = 45 ∨ c = 43) = true
    · rw [if_pos hsp] at hQ
      rw [e] at h0 ⊢
      refine cdecimal_head hE hr2 hr hw hsg hF hch hhead h0 h hc fun m1 h1 => wp_if_neg (by simp) ?_
      obtain ⟨u, rest', rfl⟩ : ∃ u l, rest = u :: l := List.exists_cons_of_ne_nil (by rintro rfl; simp at hr0)
      have hu : IsSpace u ∨ u = 45 ∨ u = 43 := by simpa using hsp
      refine wp_bind (wp_bget (x := u) ?_ ?_)
      · rw [show w ++ sg ++ ds ++ 46 :: u :: rest' = (w ++ sg ++ ds ++ [46]) ++ u :: rest' by simp,
          show (w ++ sg ++ ds).length + 1 = (w ++ sg ++ ds ++ [46]).length by simp only [List.length_append, List.length_singleton]]
        exact getElem?_append_len
      · refine wp_if_neg (by rintro rfl; unfold IsSpace at hu; omega) (wp_if_pos (by rw [isspace_iff]; exact hu) (wp_pure ?_))
        exact hQ m1 h1
    · rw [if_neg hsp] at hQ
      obtain ⟨fs, us, ch2, rest2, e2, hG, hch2, -⟩ := split_digits r rest hr0
      have hfs : fs = [] → ¬ IsSpace ch2 ∧ ch2 ≠ 43 ∧ ch2 ≠ 45 := by
        rintro rfl
        rw [e2] at hsp
        simp at hsp
        tauto
      have hd := scanDigits_split (rest := rest2) hr hG hch2 0
      rw [foldl_ofDigits, Nat.zero_mul, Nat.zero_add, ← e2] at hd
      rw [hd] at hQ
      dsimp only at hQ
      have hl2 : rest.length - (ch2 :: rest2).length = fs.length := by rw [e2]; simp
      have hl3 : s.length - (ch2 :: rest2).length = (w ++ sg ++ ds ++ [46] ++ fs).length := by
        have : rest.length = fs.length + (ch2 :: rest2).length := by rw [e2]; simp
        rw [hlen]
        simp only [List.length_append, List.length_singleton] at *
        omega
      rw [hl2, endCode_cons] at hQ
      have habs : ((if sg = [45] then -1 else 1) * ((Nat.ofDigits r vs.reverse : Nat) : Int)).natAbs = Nat.ofDigits r vs.reverse := by
        split <;> simp
      rw [habs] at hQ
      rw [e, e2] at h0 ⊢
      refine mp_rat_read_cdecimal_spec hE hr2 hr hw hsg hF hG hch2 hfs h0 h hc fun m' h' => ?_
      have := hQ m' (by simpa [updQ] using h')
      rw [Option.map_some, hl3] at this
      exact this
  · have hQ' : ∀ m', R2 m' (upd (upd σ c.num (some ((if sg = [45] then -1 else 1) * ((Nat.ofDigits r vs.reverse : Nat) : Int)))) c.den (some 1)) →
        Q (endCode (ch :: rest), some (s.length - (ch :: rest).length)) m' := by
      intro m' h'
      have := hQ m'
      split at this
      · next hh => simp only [List.cons.injEq] at hh; exact absurd hh.1 h46
      · exact this h'
    rw [endCode_cons, show s.length - (ch :: rest).length = (w ++ sg ++ ds).length by rw [hlen]; simp] at hQ'
    rw [e] at h0 ⊢
    exact cdecimal_head hE hr2 hr hw hsg hF hch hhead h0 h hc fun m1 h1 => wp_if_pos h46 (wp_pure (hQ' m1 h1))

theorem readFraction_rest (hr : r ≤ 36) {s : Bytes} (h0 : 0 ∈ s.take 800000001) :
    ∃ P T, (readFraction r s).rest = some T ∧ s = P ++ T ∧ T ≠ [] := by
  obtain ⟨P, eP, hP0, hR0, hRn⟩ := scanInt_suffix hr h0
  unfold readFraction
  generalize hT : (scanInt r s).2 = T at *
  obtain ⟨w, t, et, hw, ht0, htn⟩ := split_space T (not_nil_of_len hR0)
  dsimp only
  rw [hT, et, trim_split hw htn, ← et]
  split
  · next u =>
    have z3 : 0 ∈ u.take 800000001 := by
      rw [et, show w ++ 47 :: u = (w ++ [47]) ++ u by simp] at hR0
      exact nul_later (by simp [space_ne hw]) hR0
    obtain ⟨P2, eP2, -, -, hRn2⟩ := scanInt_suffix hr z3
    refine ⟨P ++ w ++ [47] ++ P2, (scanInt r u).2, ?_, ?_, hRn2⟩
    · split
      · rfl
      · split <;> rfl
    · rw [eP, et]
      simp only [List.append_assoc, List.singleton_append]
      conv_lhs => rw [eP2]
      rfl
  · exact ⟨P, T, rfl, eP, hRn⟩

/-- `mp_rat_read_ustring`, any text. -/
theorem mp_rat_read_ustring_total {Q : Int × Option Nat → Mem → Prop} {s : Bytes} (hE : Ref env E) (hr : r = 0 ∨ 2 ≤ r ∧ r ≤ 36)
    (h0 : 0 ∈ s.take 800000001) (h : R2 m σ) (hc : OutQ σ c)
    (hQ : ∀ m', R2 m' (upd (upd σ c.num (some (readText r s).num)) c.den (some (readText r s).den)) →
      Q ((readText r s).res, (readText r s).rest.map fun t => s.length - t.length) m') :
    wp env E (mp_rat_read_ustring c r s) Q m := by
  unfold mp_rat_read_ustring
  unfold readText at hQ
  dsimp only at hQ ⊢
  obtain ⟨q, hq, hq2, hq3⟩ : ∃ q, (if r = 0 then 10 else r) = q ∧ 2 ≤ q ∧ q ≤ 36 := by
    refine ⟨_, rfl, ?_⟩
    split <;> omega
  rw [hq] at hQ ⊢
  obtain ⟨P, T, hT, es, hTn⟩ := readFraction_rest hq3 h0
  refine wp_bind (mp_rat_read_cstring_total hE hq2 hq3 h0 h hc fun m1 h1 => ?_)
  have el : s.length - T.length = P.length := by rw [es]; simp
  obtain ⟨ch, T', rfl⟩ := List.exists_cons_of_ne_nil hTn
  rw [hT, Option.map_some, el]
  rw [hT] at hQ
  by_cases htr : (readFraction q s).res = MP_TRUNC
  · refine wp_if_pos htr (wp_bind ?_)
    refine wp_bget (x := ch) (by rw [es]; exact getElem?_append_len) ?_
    by_cases h46 : ch = 46
    · refine wp_if_pos h46 ?_
      rw [if_pos ⟨htr, by simp [h46]⟩] at hQ
      have hc1 : OutQ (upd (upd σ c.num (some (readFraction q s).num)) c.den (some (readFraction q s).den)) c :=
        ⟨hc.ne, ⟨_, by rw [upd_ne _ _ hc.ne, upd_self]⟩, ⟨_, upd_self _ _ _⟩, hc.onum, hc.oden⟩
      refine wp_bind (mp_rat_read_cdecimal_total hE hq2 hq3 h0 h1 hc1 fun m2 h2 => wp_pure ?_)
      rw [upd_comm (upd σ c.num (some (readFraction q s).num)) _ _ hc.ne.symm, upd_upd, upd_upd] at h2
      have := hQ m2 h2
      refine cast ?_ this
      congr 2
      cases hh : (readDecimal q s).rest with
      | none =>
        show some (s.length - (ch :: T').length) = _
        rw [el]; rfl
      | some t => simp
    · refine wp_if_neg h46 (wp_pure ?_)
      rw [if_neg (by simp [h46]), hT, Option.map_some, el] at hQ
      exact hQ m1 h1
  · refine wp_if_neg htr (wp_pure ?_)
    rw [if_neg (by tauto), hT, Option.map_some, el] at hQ
    exact hQ m1 h1

/-! ### The reference reader and the texts that are written -/

theorem scanInt_numeral (hr2 : 2 ≤ r) (hr : r ≤ 36) (v : Int) {ch : Nat} (hc : ∀ d, ¬ IsDigit r ch d) (t : List Nat) :
    scanInt r (numeral r v ++ ch :: t) = (v, ch :: t) ∧ minus (numeral r v ++ ch :: t) = decide (v < 0) := by
  obtain ⟨vs, hvs, hval⟩ := numeralN_digits hr2 v.natAbs
  have hne : numeralN r v.natAbs ≠ [] := fun e => by
    have := numeralN_pos r v.natAbs hr2
    rw [e] at this; simp at this
  obtain ⟨h1, h2⟩ := scanInt_split (w := []) (sg := if v < 0 then [45] else []) (rest := t) hr (by simp) (by split <;> simp) hvs hc
    (fun _ e => absurd e hne)
  rw [show numeral r v ++ ch :: t = [] ++ (if v < 0 then [45] else []) ++ numeralN r v.natAbs ++ ch :: t by simp [numeral]]
  rw [h1, h2, hval]
  by_cases hx : v < 0
  · simp only [hx, if_true]
    refine ⟨?_, by simp⟩
    congr 1
    omega
  · simp only [hx, if_false]
    refine ⟨?_, by simp⟩
    congr 1
    simp
    omega

theorem trim_cons {ch : Nat} (h : ¬ IsSpace ch) (t : List Nat) : trim (ch :: t) = ch :: t := by rw [trim, if_neg h]

theorem readFraction_ratText (hr2 : 2 ≤ r) (hr : r ≤ 36) (q : ℚ) (t : List Nat) :
    readFraction r (ratText r q ++ 0 :: t) = ⟨MP_OK, some (0 :: t), q.num, q.den⟩ := by
  unfold readFraction
  by_cases hq : q = 0
  · have e : ratText r q ++ 0 :: t = numeral r q.num ++ 0 :: t := by simp [ratText, hq]
    rw [e, (scanInt_numeral hr2 hr q.num (fun d => not_isDigit_zero) t).1]
    dsimp only
    rw [trim_cons (by unfold IsSpace; omega)]
    subst hq
    rfl
  · have e : ratText r q ++ 0 :: t = numeral r q.num ++ 47 :: (numeral r q.den ++ 0 :: t) := by simp [ratText, hq]
    rw [e, (scanInt_numeral hr2 hr q.num (fun d => not_isDigit_of_lt hr (by omega)) _).1]
    dsimp only
    rw [trim_cons (by unfold IsSpace; omega)]
    simp only
    rw [(scanInt_numeral hr2 hr _ (fun d => not_isDigit_zero) t).1]
    have : (q.den : Int) ≠ 0 := by exact_mod_cast q.den_nz
    simp only [List.head?_cons, ne_eq, not_true_eq_false, if_false, this, Rat.num_divInt_den]

theorem scanDigits_fixed (hr2 : 2 ≤ r) (hr : r ≤ 36) (k n a : Nat) {ch : Nat} (hc : ∀ d, ¬ IsDigit r ch d) (t : List Nat) :
    scanDigits r a (fixedDigits r k n ++ ch :: t) = (a * r ^ k + n % r ^ k, ch :: t) := by
  have : ∃ vs, List.Forall₂ (IsDigit r) (fixedDigits r k n) vs ∧ ∀ a, vs.foldl (fun a d => a * r + d) a = a * r ^ k + n % r ^ k := by
    induction k generalizing n with
    | zero => exact ⟨[], .nil, fun a => by simp [Nat.mod_one]⟩
    | succ k ih =>
      obtain ⟨vs, h1, h2⟩ := ih (n / r)
      refine ⟨vs ++ [n % r], ?_, fun a => ?_⟩
      · unfold fixedDigits
        exact List.rel_append h1 (.cons ⟨Nat.mod_lt _ (by omega), .inl rfl⟩ .nil)
      · rw [List.foldl_append, h2, List.foldl_cons, List.foldl_nil, Nat.pow_succ, Nat.mul_comm (r ^ k) r, Nat.mod_mul]
        ring
  obtain ⟨vs, h1, h2⟩ := this
  rw [scanDigits_split hr h1 hc, h2]

theorem fixed_head (hr2 : 2 ≤ r) (hr : r ≤ 36) {k n : Nat} (hk : k ≠ 0) : ∃ c l, fixedDigits r k n = c :: l ∧ 48 ≤ c := by
  have hl := fixed_len r k n
  obtain ⟨c, l, e⟩ : ∃ c l, fixedDigits r k n = c :: l := List.exists_cons_of_ne_nil (by intro h; rw [h] at hl; simp at hl; omega)
  refine ⟨c, l, e, ?_⟩
  have : ∀ k n, ∀ c ∈ fixedDigits r k n, 48 ≤ c := by
    intro k
    induction k with
    | zero => intro n c h; simp [fixedDigits] at h
    | succ k ih =>
      intro n c h
      unfold fixedDigits at h
      rcases List.mem_append.1 h with h | h
      · exact ih _ _ h
      · simp only [List.mem_singleton] at h
        rw [h]; unfold digitChar; split <;> omega
  exact this k n c (by rw [e]; simp)

theorem readDecimal_decText (hr2 : 2 ≤ r) (hr : r ≤ 36) (prec N : Nat) (neg : Prop) [Decidable neg] (t : List Nat) {q : ℚ}
    (hq : q = (if neg then -1 else 1) * (N / (r : ℚ) ^ prec)) :
    readDecimal r (decText r prec neg N ++ 0 :: t) = ⟨MP_OK, some (0 :: t), q.num, q.den⟩ := by
  obtain ⟨vs, hvs, hval⟩ := numeralN_digits hr2 (N / r ^ prec)
  have hne : numeralN r (N / r ^ prec) ≠ [] := fun e => by
    have := numeralN_pos r (N / r ^ prec) hr2
    rw [e] at this; simp at this
  have hr0 : (r : ℚ) ≠ 0 := by exact_mod_cast (by omega : r ≠ 0)
  unfold readDecimal
  by_cases hp : prec = 0
  · subst hp
    obtain ⟨h1, h2⟩ := scanInt_split (w := []) (sg := if neg ∧ N ≠ 0 then [45] else []) (rest := t) hr (by simp) (by split <;> simp) hvs
      (fun d => not_isDigit_zero) (fun _ e => absurd e hne)
    have e : decText r 0 neg N ++ 0 :: t = [] ++ (if neg ∧ N ≠ 0 then [45] else []) ++ numeralN r (N / r ^ 0) ++ 0 :: t := by
      simp [decText]
    rw [e, h2, hval]
    dsimp only
    have : q = (((if neg then -1 else 1) * (N : Int) : Int) : ℚ) := by
      rw [hq]; push_cast; simp
    rw [this, Rat.num_intCast, Rat.den_intCast]
    unfold endCode
    simp only [List.head?_cons, if_true, Nat.pow_zero, Nat.div_one, Nat.cast_one]
    congr 1
    by_cases hN : N = 0
    · simp [hN]
    · by_cases hg : neg <;> simp [hN, hg]
  · obtain ⟨h1, h2⟩ := scanInt_split (w := []) (sg := if neg ∧ N ≠ 0 then [45] else []) (ch := 46) (rest := fixedDigits r prec N ++ 0 :: t)
      hr (by simp) (by split <;> simp) hvs (fun d => not_isDigit_of_lt hr (by omega)) (fun _ e => absurd e hne)
    have e : decText r prec neg N ++ 0 :: t = [] ++ (if neg ∧ N ≠ 0 then [45] else []) ++ numeralN r (N / r ^ prec) ++
        46 :: (fixedDigits r prec N ++ 0 :: t) := by
      simp [decText, hp]
    obtain ⟨c0, l0, e0, hc0⟩ := fixed_head (n := N) hr2 hr hp
    rw [e, h1, h2, hval]
    simp only
    have hh : ¬ (IsSpace c0 ∨ c0 = 45 ∨ c0 = 43) := by unfold IsSpace; omega
    rw [if_neg (by rw [e0]; simpa using hh), scanDigits_fixed hr2 hr prec N 0 (fun d => not_isDigit_zero) t]
    dsimp only
    have el : (fixedDigits r prec N ++ 0 :: t).length - (0 :: t).length = prec := by
      rw [List.length_append, fixed_len]; omega
    rw [el, Nat.zero_mul, Nat.zero_add]
    have ev : ((if (decide ((if neg ∧ N ≠ 0 then [45] else ([] : List Nat)) = [45])) = true then -1 else 1 : ℚ) *
        ((((if (if neg ∧ N ≠ 0 then [45] else ([] : List Nat)) = [45] then -1 else 1) * ((N / r ^ prec : Nat) : Int) : Int).natAbs : ℚ) +
          ((N % r ^ prec : Nat) : ℚ) / (r : ℚ) ^ prec)) = q := by
      have ha : (((if (if neg ∧ N ≠ 0 then [45] else ([] : List Nat)) = [45] then -1 else 1) * ((N / r ^ prec : Nat) : Int) : Int).natAbs) = N / r ^ prec := by
        generalize N / r ^ prec = K
        split <;> simp
      rw [ha, hq]
      have hd : (((N / r ^ prec : Nat) : ℚ) + ((N % r ^ prec : Nat) : ℚ) / (r : ℚ) ^ prec) = N / (r : ℚ) ^ prec := by
        have := Nat.div_add_mod N (r ^ prec)
        have hx : ((r ^ prec : Nat) : ℚ) * ((N / r ^ prec : Nat) : ℚ) + ((N % r ^ prec : Nat) : ℚ) = N := by exact_mod_cast this
        push_cast at hx
        field_simp
        linarith
      rw [hd]
      by_cases hN : N = 0
      · simp [hN]
      · by_cases hg : neg <;> simp [hN, hg]
    rw [ev]
    rfl

/-- A text that was used up was a number. -/
theorem readFraction_ok {s : List Nat} (h : (readFraction r s).res = MP_OK) :
    ∃ q : ℚ, (readFraction r s).num = q.num ∧ (readFraction r s).den = q.den := by
  obtain ⟨A, hA⟩ : ∃ A, readFraction r s = A := ⟨_, rfl⟩
  rw [hA] at h ⊢
  unfold readFraction at hA
  dsimp only at hA
  split at hA
  · split at hA
    · rw [← hA] at h; simp [MP_TRUNC, MP_OK] at h
    · split at hA
      · rw [← hA] at h; simp [MP_UNDEF, MP_OK] at h
      · rw [← hA]; exact ⟨_, rfl, rfl⟩
  · refine ⟨((scanInt r s).1 : ℚ), ?_⟩
    rw [Rat.num_intCast, Rat.den_intCast, ← hA]
    exact ⟨rfl, rfl⟩

theorem readDecimal_q (s : List Nat) : ∃ q : ℚ, (readDecimal r s).num = q.num ∧ (readDecimal r s).den = q.den := by
  unfold readDecimal
  dsimp only
  split
  · split
    · exact ⟨((scanInt r s).1 : ℚ), by rw [Rat.num_intCast, Rat.den_intCast]; exact ⟨rfl, rfl⟩⟩
    · exact ⟨_, rfl, rfl⟩
  · exact ⟨((scanInt r s).1 : ℚ), by rw [Rat.num_intCast, Rat.den_intCast]; exact ⟨rfl, rfl⟩⟩

theorem readText_ok {s : List Nat} (h : (readText r s).res = MP_OK) :
    ∃ q : ℚ, (readText r s).num = q.num ∧ (readText r s).den = q.den := by
  obtain ⟨A, hA⟩ : ∃ A, readText r s = A := ⟨_, rfl⟩
  rw [hA] at h ⊢
  unfold readText at hA
  dsimp only at hA
  generalize (if r = 0 then 10 else r) = k at hA
  split at hA
  · rw [← hA]; exact readDecimal_q s
  · rw [← hA] at h ⊢; exact readFraction_ok h

/-! ### The remaining text -/

theorem scanDigits_suffix (hr : r ≤ 36) : ∀ (s : Bytes) (a : Nat), 0 ∈ s → ∃ P, s = P ++ (scanDigits r a s).2 ∧ (scanDigits r a s).2 ≠ [] := by
  intro s
  induction s with
  | nil => intro a h; simp at h
  | cons x s ih =>
    intro a h
    unfold scanDigits
    cases hd : digitVal r x with
    | none => exact ⟨[], rfl, by simp⟩
    | some d =>
      have hx : x ≠ 0 := by
        rintro rfl
        rw [digitVal_none fun d => not_isDigit_zero] at hd
        simp at hd
      obtain ⟨P, e, hn⟩ := ih (a * r + d) ((List.mem_cons.1 h).resolve_left hx.symm)
      exact ⟨x :: P, by dsimp only; rw [List.cons_append, ← e], hn⟩

theorem endCode_cases (t : List Nat) : (endCode t = MP_OK ∧ t.head? = some 0) ∨ (endCode t = MP_TRUNC ∧ t.head? ≠ some 0) := by
  unfold endCode
  split
  · next h => exact .inl ⟨rfl, h⟩
  · next h => exact .inr ⟨rfl, h⟩

/-- What a function that reads a text can return, and where it stops. -/
def Stops (s : List Nat) (A : Reading) (T : List Nat) : Prop :=
  T ≠ [] ∧ (∃ P, s = P ++ T) ∧ (((A.res = MP_OK ∨ A.res = MP_UNDEF) ∧ T.head? = some 0) ∨ (A.res = MP_TRUNC ∧ T.head? ≠ some 0))

theorem readFraction_stops (hr : r ≤ 36) {s : Bytes} (h0 : 0 ∈ s.take 800000001) :
    ∃ T, (readFraction r s).rest = some T ∧ Stops s (readFraction r s) T := by
  obtain ⟨P, T, h1, h2, h3⟩ := readFraction_rest hr h0
  refine ⟨T, h1, h3, ⟨P, h2⟩, ?_⟩
  obtain ⟨A, hA⟩ : ∃ A, readFraction r s = A := ⟨_, rfl⟩
  rw [hA] at h1 ⊢
  unfold readFraction at hA
  dsimp only at hA
  split at hA
  · split at hA
    · next hh => rw [← hA] at h1 ⊢; cases h1; exact .inr ⟨rfl, hh⟩
    · next hh =>
      rw [not_not] at hh
      split at hA
      · rw [← hA] at h1 ⊢; cases h1; exact .inl ⟨.inr rfl, hh⟩
      · rw [← hA] at h1 ⊢; cases h1; exact .inl ⟨.inl rfl, hh⟩
  · rw [← hA] at h1 ⊢
    cases h1
    rcases endCode_cases (scanInt r s).2 with ⟨e, h⟩ | ⟨e, h⟩
    · exact .inl ⟨.inl e, h⟩
    · exact .inr ⟨e, h⟩

theorem readDecimal_stops (hr : r ≤ 36) {s : Bytes} (h0 : 0 ∈ s.take 800000001) :
    ((readDecimal r s).rest = none ∧ (readDecimal r s).res = MP_TRUNC) ∨
    ∃ T, (readDecimal r s).rest = some T ∧ Stops s (readDecimal r s) T := by
  obtain ⟨P, eP, hP0, hR0, hRn⟩ := scanInt_suffix hr h0
  obtain ⟨A, hA⟩ : ∃ A, readDecimal r s = A := ⟨_, rfl⟩
  rw [hA]
  unfold readDecimal at hA
  dsimp only at hA
  generalize hT : (scanInt r s).2 = T at *
  have fin : ∀ t, A.rest = some t → A.res = endCode t → t ≠ [] → (∃ P, s = P ++ t) → ∃ T, A.rest = some T ∧ Stops s A T := by
    intro t h1 h2 h3 h4
    refine ⟨t, h1, h3, h4, ?_⟩
    rw [h2]
    rcases endCode_cases t with ⟨e, h⟩ | ⟨e, h⟩
    · exact .inl ⟨.inl e, h⟩
    · exact .inr ⟨e, h⟩
  split at hA
  · next u =>
    split at hA
    · rw [← hA]; exact .inl ⟨rfl, rfl⟩
    · have hu : 0 ∈ u := by simpa using not_nil_of_len hR0
      obtain ⟨P2, e2, hn2⟩ := scanDigits_suffix (r := r) hr u 0 hu
      refine .inr (fin _ (by rw [← hA]) (by rw [← hA]) hn2 ⟨P ++ [46] ++ P2, ?_⟩)
      rw [eP]
      simp only [List.append_assoc, List.singleton_append]
      conv_lhs => rw [e2]
      rfl
  · exact .inr (fin _ (by rw [← hA]) (by rw [← hA]) hRn ⟨P, eP⟩)

theorem readText_stops (hr : r = 0 ∨ 2 ≤ r ∧ r ≤ 36) {s : Bytes} (h0 : 0 ∈ s.take 800000001) :
    ∃ T, (readText r s).rest = some T ∧ Stops s (readText r s) T := by
  unfold readText
  dsimp only
  obtain ⟨q, hq, hq3⟩ : ∃ q, (if r = 0 then 10 else r) = q ∧ q ≤ 36 := by
    refine ⟨_, rfl, ?_⟩
    split <;> omega
  rw [hq]
  obtain ⟨T, h1, h2⟩ := readFraction_stops hq3 h0
  split
  · next hh =>
    rcases readDecimal_stops hq3 h0 with ⟨e1, e2⟩ | ⟨T', e1, e2⟩
    · refine ⟨T, by rw [e1, h1]; rfl, h2.1, h2.2.1, .inr ⟨e2, ?_⟩⟩
      have := hh.2
      rw [h1] at this
      simp only [Option.any_some, beq_iff_eq] at this
      rw [this]; simp
    · exact ⟨T', by rw [e1]; rfl, e2⟩
  · exact ⟨T, h1, h2⟩

end Imath
