import Verif.Proof.Knuth3
import Verif.Proof.Mul

/-! # `mp_int_div` -/

namespace Imath

variable {env : Env} {E : Fault → Prop} {m : Mem} {s : Id → Option Cell} {σ : Id → Option Int}
  {z a b c : Id} {A B C : Cell} {x y w v : Int}

/-- Update of an optional result. -/
def updO {α : Type} (σ : Id → Option α) (o : Option Id) (v : α) : Id → Option α :=
  match o with
  | some z => upd σ z (some v)
  | none => σ

theorem updO_ne {α : Type} (σ : Id → Option α) {o : Option Id} {z : Id} (v : α) (h : o ≠ some z) :
    updO σ o v z = σ z := by
  cases o with
  | none => rfl
  | some y => exact upd_ne _ _ (by rintro rfl; exact h rfl)

theorem sval_tdiv (x y : Int) (h : y ≠ 0) :
    sval (if decide (x < 0) = decide (y < 0) then false else true) (x.natAbs / y.natAbs) = x.tdiv y := by
  have key : ∀ n k : Nat, k ≠ 0 → ((n / k : Nat) : Int) = (n : Int).tdiv k := fun n k _ => by
    rw [Int.tdiv_eq_ediv_of_nonneg (by omega)]; rfl
  have hk : y.natAbs ≠ 0 := by omega
  have h1 := key x.natAbs y.natAbs hk
  rcases Int.lt_or_le x 0 with hx | hx <;> rcases Int.lt_or_le y 0 with hy | hy
  · rw [if_pos (by simp [hx, hy])]
    have e1 : (x.natAbs : Int) = -x := by omega
    have e2 : (y.natAbs : Int) = -y := by omega
    rw [e1, e2, Int.neg_tdiv_neg] at h1
    simpa [sval] using h1
  · rw [if_neg (by simp [hx]; omega)]
    have e1 : (x.natAbs : Int) = -x := by omega
    have e2 : (y.natAbs : Int) = y := by omega
    rw [e1, e2, Int.neg_tdiv] at h1
    simp only [sval, if_true]; omega
  · rw [if_neg (by simp [hy]; omega)]
    have e1 : (x.natAbs : Int) = x := by omega
    have e2 : (y.natAbs : Int) = -y := by omega
    rw [e1, e2, Int.tdiv_neg] at h1
    simp only [sval, if_true]; omega
  · rw [if_pos (by simp; omega)]
    have e1 : (x.natAbs : Int) = x := by omega
    have e2 : (y.natAbs : Int) = y := by omega
    rw [e1, e2] at h1
    simpa [sval] using h1

theorem sval_tmod (x y : Int) : sval (decide (x < 0)) (x.natAbs % y.natAbs) = x.tmod y := by
  rcases Int.lt_or_le x 0 with hx | hx
  · have h1 : x.tmod y = -((-x).tmod y) := by rw [Int.neg_tmod]; omega
    have h2 : (-x).tmod y = (((-x).natAbs % y.natAbs : Nat) : Int) := by
      rw [Int.tmod_eq_emod_of_nonneg (by omega)]
      have := Int.natAbs_emod_of_nonneg (a := -x) (by omega) y
      have h3 : 0 ≤ (-x) % y ∨ y = 0 := by
        by_cases hy : y = 0
        · exact .inr hy
        · exact .inl (Int.emod_nonneg _ hy)
      rcases h3 with h3 | h3
      · rw [← this]; omega
      · subst h3; rw [Int.natAbs_zero, Nat.mod_zero, Int.emod_zero]; omega
    rw [h1, h2, Int.natAbs_neg]
    simp [sval, hx]
  · have h2 : x.tmod y = ((x.natAbs % y.natAbs : Nat) : Int) := by
      rw [Int.tmod_eq_emod_of_nonneg (by omega)]
      have := Int.natAbs_emod_of_nonneg (a := x) (by omega) y
      have h3 : 0 ≤ x % y ∨ y = 0 := by
        by_cases hy : y = 0
        · exact .inr hy
        · exact .inl (Int.emod_nonneg _ hy)
      rcases h3 with h3 | h3
      · rw [← this]; omega
      · subst h3; rw [Int.natAbs_zero, Nat.mod_zero, Int.emod_zero]; omega
    rw [h2]
    simp [sval]; omega

theorem fixSign_rep {Q : Unit → Mem → Prop} {n : Bool} (h : Rep m s) (hz : s z = some C) (nC : Norm C)
    (hQ : ∀ m' C', Rep m' (upd s z (some C')) → Good C' (sval n C.mag) → C'.buf = C.buf → C'.used = C.used → Q () m') :
    wp env E (fixSign n z) Q m := by
  unfold fixSign
  refine wp_bind (wp_setSign h hz fun m1 h1 => ?_)
  have n1 : Norm { C with neg := n } := ⟨nC.pos, nC.le, nC.top⟩
  refine wp_bind (CMPZ_norm h1 (upd_self _ _ _) n1 ?_)
  have em : Cell.mag { C with neg := n } = C.mag := rfl
  rw [em]
  refine wp_cwhen (fun hc => ?_) (fun hc => ?_)
  · have h0 : C.mag = 0 := by
      by_contra hcc
      rw [if_neg hcc] at hc
      split at hc <;> simp at hc
    refine wp_setSign h1 (upd_self _ _ _) fun m2 h2 => ?_
    rw [upd_upd] at h2
    refine hQ m2 _ h2 ⟨⟨nC.pos, nC.le, nC.top⟩, by simp, ?_⟩ rfl rfl
    show sval n C.mag = sval false C.mag
    rw [h0]; cases n <;> rfl
  · have h0 : C.mag ≠ 0 := fun hcc => hc (by rw [if_pos hcc])
    exact hQ m1 _ h1 ⟨n1, fun _ => h0, rfl⟩ rfl rfl

theorem fixSign_spec {Q : Unit → Mem → Prop} {n : Bool} (h : R2 m σ) (hz : σ z = some v)
    (hQ : ∀ m', R2 m' (upd σ z (some (sval n v.natAbs))) → Q () m') :
    wp env E (fixSign n z) Q m := by
  obtain ⟨s, r, g⟩ := h
  obtain ⟨C, hC, gC⟩ := g.get hz
  refine fixSign_rep r hC gC.norm fun m' C' h' g' _ _ => hQ m' ⟨_, h', g.upd ?_⟩
  rw [gC.natAbs]; exact g'

theorem s_isp2_spec {Q : Int → Mem → Prop} (h : R2 m σ) (hz : σ z = some v) (h0 : v ≠ 0)
    (hQ0 : ∀ k : Nat, v.natAbs = 2 ^ k → k < 2147483648 → Q k m) (hQ1 : Q (-1) m) :
    wp env E (s_isp2 z) Q m := by
  obtain ⟨s, r, g⟩ := h
  obtain ⟨C, hC, gC⟩ := g.get hz
  have hm := gC.natAbs
  exact s_isp2_rep r hC gC.norm (by omega) (fun k hk => hQ0 k (by omega)) (fun _ => hQ1)

/-- `s_qdiv` divides the absolute value. -/
theorem s_qdiv_spec {Q : Unit → Mem → Prop} {p2 : Nat} (h : R2 m σ) (hz : σ z = some v)
    (hQ : ∀ m', R2 m' (upd σ z (some (sval (decide (v < 0)) (v.natAbs / 2 ^ p2)))) → Q () m') :
    wp env E (s_qdiv z p2) Q m := by
  obtain ⟨s, r, g⟩ := h
  obtain ⟨C, hC, gC⟩ := g.get hz
  refine s_qdiv_rep r hC gC.norm fun m' C' h' n' s' _ g' => hQ m' ⟨_, h', g.upd ?_⟩
  rw [gC.natAbs, ← g', ← gC.neg_eq]
  have hn : C'.neg = true → C'.mag ≠ 0 := fun hn h0 => by
    rw [s', if_pos (by rw [← g']; exact h0)] at hn; simp at hn
  refine n'.goodOf ?_ hn
  rw [s', g']; split
  · next h0 => rw [h0]; cases C.neg <;> rfl
  · rfl

/-- `s_qmod` reduces the absolute value; the following `fixSign` repairs a zero. -/
theorem s_qmod_fix_spec {Q : Unit → Mem → Prop} {p2 : Nat} {n : Bool} (h : R2 m σ) (hz : σ z = some v) (hp : p2 < 4294967296)
    (hQ : ∀ m', R2 m' (upd σ z (some (sval n (v.natAbs % 2 ^ p2)))) → Q () m') :
    wp env E (s_qmod z p2) (fun _ m' => wp env E (fixSign n z) Q m') m := by
  obtain ⟨s, r, g⟩ := h
  obtain ⟨C, hC, gC⟩ := g.get hz
  refine s_qmod_rep r hC gC.norm hp fun m1 C1 h1 n1 s1 _ g1 _ => ?_
  refine fixSign_rep h1 (upd_self _ _ _) n1 fun m' C' h' g' _ _ => hQ m' ⟨_, h', ?_⟩
  rw [upd_upd]
  refine g.upd ?_
  rw [gC.natAbs, ← g1]; exact g'

theorem intU32_of_nat {k : Nat} (h : k < 4294967296) : intU32 (k : Int) = k := by
  unfold intU32; omega

/-- The last two copies of `mp_int_div`. -/
theorem divCopies_spec {Q : Int → Mem → Prop} {q r : Option Id} {qo ro : Id} {vq vr : Int} (hE : Ref env E)
    (h : R2 m σ) (hqo : σ qo = some vq) (hro : σ ro = some vr)
    (hq : ∀ z, q = some z → (∃ w, σ z = some w) ∧ z.own = true) (hr : ∀ z, r = some z → (∃ w, σ z = some w) ∧ z.own = true)
    (hne : q ≠ some ro)
    (hQ : ∀ m', R2 m' (updO (updO σ q vq) r vr) → Q MP_OK m') :
    wp env E (optRequire q (fun z => mp_int_copy qo z) <| optRequire r (fun z => mp_int_copy ro z) <| pure MP_OK) Q m := by
  have fin : ∀ (σ : Id → Option Int) (m : Mem), R2 m σ → σ ro = some vr →
      (∀ z, r = some z → (∃ w, σ z = some w) ∧ z.own = true) → (∀ m', R2 m' (updO σ r vr) → Q MP_OK m') →
      wp env E (optRequire r (fun z => mp_int_copy ro z) <| pure MP_OK) Q m := by
    intro σ m h hro hr hQ
    cases r with
    | none => exact wp_pure (hQ m h)
    | some z =>
      obtain ⟨⟨w, hw⟩, ho⟩ := hr z rfl
      exact wp_require (mp_int_copy_spec hE h hro hw ho fun m' h' => ⟨rfl, wp_pure (hQ m' h')⟩)
  cases q with
  | none => exact fin σ m h hro hr hQ
  | some z =>
    obtain ⟨⟨w, hw⟩, ho⟩ := hq z rfl
    refine wp_require (mp_int_copy_spec hE h hqo hw ho fun m' h' => ⟨rfl, fin _ m' h' ?_ ?_ hQ⟩)
    · rw [upd_ne]; exact hro
      rintro rfl; exact hne rfl
    · intro y hy
      obtain ⟨⟨w', hw'⟩, ho'⟩ := hr y hy
      refine ⟨?_, ho'⟩
      by_cases hyz : y = z
      · subst hyz; exact ⟨vq, upd_self _ _ _⟩
      · exact ⟨w', by rw [upd_ne _ _ hyz]; exact hw'⟩

theorem mp_int_div_spec {Q : Int → Mem → Prop} {q r : Option Id} (hE : Ref env E) (h : R2 m σ)
    (ha : σ a = some x) (hb : σ b = some y) (hqr : q ≠ r)
    (hq : ∀ z, q = some z → (∃ w, σ z = some w) ∧ z.own = true)
    (hr : ∀ z, r = some z → (∃ w, σ z = some w) ∧ z.own = true)
    (hQ0 : y = 0 → Q MP_UNDEF m)
    (hQ : y ≠ 0 → ∀ m', R2 m' (updO (updO σ q (x.tdiv y)) r (x.tmod y)) → Q MP_OK m') :
    wp env E (mp_int_div a b q r) Q m := by
  unfold mp_int_div
  refine wp_bind (wp_cassert (by simpa using hqr) ?_)
  refine wp_bind (MP_SIGN_spec h ha ?_)
  refine wp_bind (MP_SIGN_spec h hb ?_)
  refine wp_bind (CMPZ_spec h hb ?_)
  refine wp_ite (fun h0 => wp_pure (hQ0 (by simpa using h0))) (fun h0 => ?_)
  have hy : y ≠ 0 := by simpa using h0
  replace hQ := hQ hy
  refine wp_bind (s_ucmp_spec h ha hb ?_)
  have hcmp : cmpZ |x| |y| = if x.natAbs < y.natAbs then -1 else if x.natAbs = y.natAbs then 0 else 1 := by
    unfold cmpZ
    rw [Int.abs_eq_natAbs, Int.abs_eq_natAbs]
    simp only [Int.ofNat_lt, Int.ofNat_inj]
  rw [hcmp]
  have hdv := sval_tdiv x y hy
  have hmd := sval_tmod x y
  -- a result that is present and distinct from the other one
  refine wp_ite (fun hlt => ?_) (fun hlt => wp_ite (fun heq => ?_) (fun heq => ?_))
  · have hlt : x.natAbs < y.natAbs := by
      by_contra hc; rw [if_neg hc] at hlt; split at hlt <;> simp at hlt
    have e1 : x.tdiv y = 0 := by
      rw [← hdv, Nat.div_eq_of_lt hlt]; split <;> rfl
    have e2 : x.tmod y = x := by
      rw [← hmd, Nat.mod_eq_of_lt hlt]
      unfold sval; split
      · next hh => simp at hh; omega
      · next hh => simp at hh; omega
    rw [e1, e2] at hQ
    have zq : ∀ (σ' : Id → Option Int) (m' : Mem), R2 m' σ' → (∀ z, q = some z → ∃ w, σ' z = some w) →
        (∀ m'', R2 m'' (updO σ' q 0) → Q MP_OK m'') →
        wp env E (do optDo q mp_int_zero; pure MP_OK) Q m' := by
      intro σ' m' h' hq' hQ'
      cases q with
      | none => exact wp_bind (wp_pure (wp_pure (hQ' m' h')))
      | some z =>
        obtain ⟨w, hw⟩ := hq' z rfl
        exact wp_bind (mp_int_zero_spec h' hw fun m'' h'' => wp_pure (hQ' m'' h''))
    cases r with
    | none =>
      refine wp_bind (wp_pure ?_)
      exact wp_if_neg (by simp) (zq σ m h (fun z hz => (hq z hz).1) hQ)
    | some rz =>
      obtain ⟨⟨w, hw⟩, ho⟩ := hr rz rfl
      refine wp_bind (mp_int_copy_spec hE h ha hw ho fun m' h' => ?_)
      refine wp_if_neg (by simp) (zq _ m' h' (fun z hz => ?_) fun m'' h'' => hQ m'' ?_)
      · obtain ⟨⟨w', hw'⟩, _⟩ := hq z hz
        by_cases hzr : z = rz
        · subst hzr; exact ⟨x, upd_self _ _ _⟩
        · exact ⟨w', by rw [upd_ne _ _ hzr]; exact hw'⟩
      · cases q with
        | none => exact h''
        | some qz =>
          have hne : qz ≠ rz := by rintro rfl; exact hqr rfl
          have : updO (updO σ (some qz) 0) (some rz) x = updO (upd σ rz (some x)) (some qz) 0 := by
            unfold updO; exact upd_comm _ _ _ hne
          rw [this]; exact h''
  · have heq' : x.natAbs = y.natAbs := by
      by_contra hc
      split at heq
      · simp at heq
      · simp at heq
    have e1 : x.tdiv y = if decide (x < 0) = decide (y < 0) then 1 else -1 := by
      rw [← hdv, heq', Nat.div_self (by omega)]; split <;> rfl
    have e2 : x.tmod y = 0 := by
      rw [← hmd, heq', Nat.mod_self]; cases decide (x < 0) <;> rfl
    rw [e1, e2] at hQ
    have zq : ∀ (σ' : Id → Option Int) (m' : Mem), R2 m' σ' → (∀ z, q = some z → ∃ w, σ' z = some w) →
        (∀ m'', R2 m'' (updO σ' q (if decide (x < 0) = decide (y < 0) then 1 else -1)) → Q MP_OK m'') →
        wp env E (do
          optDo q fun q => do
            mp_int_zero q
            wr (← MP_DIGITS q) 1
            cwhen (decide (x < 0) ≠ decide (y < 0)) (setSign q true)
          pure MP_OK) Q m' := by
      intro σ' m' h' hq' hQ'
      cases q with
      | none => exact wp_bind (wp_pure (wp_pure (hQ' m' h')))
      | some z =>
        obtain ⟨w, hw⟩ := hq' z rfl
        obtain ⟨s', r', g'⟩ := h'
        obtain ⟨C, hC, gC⟩ := g'.get hw
        refine wp_bind (wp_bind (mp_int_zero_rep r' hC fun m1 C1 r1 g1 l1 b1 => ?_))
        refine wp_bind (wp_DIGITS r1 (upd_self _ _ _) ?_)
        have hl := (r1.okl (upd_self _ _ _)).1
        rw [show C1.ptr = C1.ptr.add 0 from rfl]
        refine wp_bind (wp_wrz r1 (upd_self _ _ _) (by omega) (by norm_num) fun m2 r2 => ?_)
        rw [upd_upd] at r2
        obtain ⟨C2, hC2⟩ : ∃ C2, C2 = { C1 with buf := spliceL C1.buf 0 [1] } := ⟨_, rfl⟩
        rw [← hC2] at r2
        have n1 := g1.norm
        have g1n := g1.ofNat (x := 0)
        have u1 : C1.used = 1 := by
          have := n1.used_eq (r1.okd (upd_self _ _ _)) (u := 1) (by omega) (by simp) (by rw [g1n.2]; norm_num)
          exact this
        have hmag : C2.mag = 1 := by
          rw [hC2]; unfold Cell.mag
          show val ((spliceL C1.buf 0 [1]).take C1.used) = 1
          rw [u1, take_splice0 (n := 1) _ _ rfl hl]; rfl
        have nn : Norm C2 := by
          rw [hC2]
          exact ⟨n1.pos, by simpa using n1.le, fun h => absurd h (by simp only; omega)⟩
        refine wp_mono (Q := fun _ m' => R2 m' (upd σ' z (some (if decide (x < 0) = decide (y < 0) then 1 else -1)))) ?_
          fun _ m3 h3 => wp_pure (hQ' m3 h3)
        refine wp_cwhen (fun hs => ?_) (fun hs => ?_)
        · rw [if_neg hs]
          refine wp_setSign r2 (upd_self _ _ _) fun m3 r3 => ⟨_, r3, ?_⟩
          rw [upd_upd]
          refine g'.upd ⟨⟨nn.pos, nn.le, nn.top⟩, fun _ => ?_, ?_⟩
          · show C2.mag ≠ 0; omega
          · show _ = sval true C2.mag
            rw [hmag]; rfl
        · rw [if_pos (by simpa using hs)]
          exact ⟨_, r2, g'.upd (nn.good_nat (by rw [hC2]; exact g1n.1) hmag)⟩
    cases r with
    | none =>
      refine wp_bind (wp_pure ?_)
      exact zq σ m h (fun z hz => (hq z hz).1) hQ
    | some rz =>
      obtain ⟨⟨w, hw⟩, ho⟩ := hr rz rfl
      refine wp_bind (mp_int_zero_spec h hw fun m' h' => ?_)
      refine zq _ m' h' (fun z hz => ?_) fun m'' h'' => hQ m'' ?_
      · obtain ⟨⟨w', hw'⟩, _⟩ := hq z hz
        by_cases hzr : z = rz
        · subst hzr; exact ⟨0, upd_self _ _ _⟩
        · exact ⟨w', by rw [upd_ne _ _ hzr]; exact hw'⟩
      · cases q with
        | none => exact h''
        | some qz =>
          have hne : qz ≠ rz := by rintro rfl; exact hqr rfl
          unfold updO at h'' ⊢
          simp only at h'' ⊢
          rw [upd_comm _ _ _ hne]; exact h''
  · have hgt : y.natAbs ≤ x.natAbs := by
      by_contra hc
      rw [if_pos (by omega)] at hlt; simp at hlt
    refine withTemp_spec h fun t0 m1 ht0 o0 h1 => ?_
    refine withTemp_spec h1 fun t1 m2 ht1 o1 h2 => ?_
    have h10 : t1 ≠ t0 := by rintro rfl; rw [upd_self] at ht1; simp at ht1
    rw [upd_ne _ _ h10] at ht1
    obtain ⟨σ2, hσ2⟩ : ∃ σ2, σ2 = upd (upd σ t0 (some 0)) t1 (some 0) := ⟨_, rfl⟩
    rw [← hσ2] at h2
    have old : ∀ z w, σ z = some w → σ2 z = some w := fun z w hz => by
      rw [hσ2, upd_ne _ _ (ne_of_none ht1 hz).symm, upd_ne _ _ (ne_of_none ht0 hz).symm]; exact hz
    have ha2 := old a x ha
    have hb2 := old b y hb
    have nt0 : ∀ z w, σ z = some w → z ≠ t0 := fun z w hz => (ne_of_none ht0 hz).symm
    have nt1 : ∀ z w, σ z = some w → z ≠ t1 := fun z w hz => (ne_of_none ht1 hz).symm
    -- what remains when the temporaries are gone
    have fin : ∀ (m' : Mem) (σ3 : Id → Option Int), R2 m' σ3 → (∃ v, σ3 t1 = some v) → (∃ v, σ3 t0 = some v) →
        (∀ z, z ≠ t0 → z ≠ t1 → σ3 z = updO (updO σ q (x.tdiv y)) r (x.tmod y) z) →
        ∃ σ'' v, R2 m' σ'' ∧ σ'' t1 = some v ∧ ∀ m3, R2 m3 (upd σ'' t1 none) →
          ∃ σ''_1 v, R2 m3 σ''_1 ∧ σ''_1 t0 = some v ∧ ∀ m4, R2 m4 (upd σ''_1 t0 none) → Q MP_OK m4 := by
      rintro m' σ3 h3 ⟨v1, hv1⟩ ⟨v0, hv0⟩ hz
      refine ⟨σ3, v1, h3, hv1, fun m3 h3' => ⟨_, v0, h3', by rw [upd_ne _ _ h10.symm]; exact hv0, fun m4 h4 => hQ m4 ?_⟩⟩
      have : upd (upd σ3 t1 none) t0 none = updO (updO σ q (x.tdiv y)) r (x.tmod y) := by
        have nq : ∀ t, σ t = none → q ≠ some t := fun t ht hc => by
          obtain ⟨⟨w, hw⟩, _⟩ := hq t hc; rw [ht] at hw; simp at hw
        have nr : ∀ t, σ t = none → r ≠ some t := fun t ht hc => by
          obtain ⟨⟨w, hw⟩, _⟩ := hr t hc; rw [ht] at hw; simp at hw
        have ne : ∀ t, σ t = none → updO (updO σ q (x.tdiv y)) r (x.tmod y) t = none := fun t ht => by
          rw [updO_ne _ _ (nr t ht), updO_ne _ _ (nq t ht)]; exact ht
        funext z
        by_cases z0 : z = t0
        · rw [z0, upd_self, ne t0 ht0]
        · rw [upd_ne _ _ z0]
          by_cases z1 : z = t1
          · rw [z1, upd_self, ne t1 ht1]
          · rw [upd_ne _ _ z1]; exact hz z z0 z1
      rw [← this]; exact h4
    have h20 : σ2 t0 = some 0 := by rw [hσ2, upd_ne _ _ h10.symm]; exact upd_self _ _ _
    have h21 : σ2 t1 = some 0 := by rw [hσ2]; exact upd_self _ _ _
    have hσ2z : ∀ z, z ≠ t0 → z ≠ t1 → σ2 z = σ z := fun z z0 z1 => by rw [hσ2, upd_ne _ _ z1, upd_ne _ _ z0]
    refine wp_bind (s_isp2_spec h2 hb2 hy (fun k hk hk2 => ?_) ?_)
    · refine wp_if_neg (by omega) ?_
      rw [intU32_of_nat (by omega)]
      rw [hk] at hdv hmd
      have hsv : ∀ n, (sval n x.natAbs).natAbs = x.natAbs := fun n => sval_natAbs _ _
      have hqv : (sval (decide (x < 0)) (x.natAbs / 2 ^ k)).natAbs = x.natAbs / 2 ^ k := sval_natAbs _ _
      cases q with
      | none =>
        cases r with
        | none => exact absurd rfl hqr
        | some rz =>
          obtain ⟨⟨w, hw⟩, ho⟩ := hr rz rfl
          refine wp_require (mp_int_copy_spec hE h2 ha2 (old _ _ hw) ho fun m3 h3 => ⟨rfl, ?_⟩)
          refine wp_bind (wp_pure ?_)
          refine wp_bind (wp_mono (s_qmod_fix_spec (n := decide (x < 0)) h3 (upd_self _ _ _) (by omega) fun m4 h4 => ?_)
            fun _ _ h => wp_bind h)
          · refine wp_bind (wp_pure ?_)
            rw [upd_upd, hmd] at h4
            refine wp_require (mp_int_copy_spec hE h4 (upd_self _ _ _) (upd_self _ _ _) ho fun m5 h5 => ⟨rfl, wp_pure ?_⟩)
            rw [upd_upd] at h5
            refine fin m5 _ h5 ⟨0, by rw [upd_ne _ _ (nt1 _ _ hw).symm]; exact h21⟩
              ⟨0, by rw [upd_ne _ _ (nt0 _ _ hw).symm]; exact h20⟩ fun z z0 z1 => ?_
            simp only [updO, upd]
            split
            · rfl
            · exact hσ2z z z0 z1
      | some qz =>
        obtain ⟨⟨wq, hwq⟩, hoq⟩ := hq qz rfl
        refine wp_require (mp_int_copy_spec hE h2 ha2 (old _ _ hwq) hoq fun m3 h3 => ⟨rfl, ?_⟩)
        cases r with
        | none =>
          refine wp_bind (s_qdiv_spec h3 (upd_self _ _ _) fun m4 h4 => ?_)
          refine wp_bind (wp_pure ?_)
          rw [upd_upd] at h4
          refine wp_bind (wp_pure ?_)
          refine wp_bind (fixSign_spec h4 (upd_self _ _ _) fun m5 h5 => ?_)
          rw [upd_upd, hqv, hdv] at h5
          refine wp_require (mp_int_copy_spec hE h5 (upd_self _ _ _) (upd_self _ _ _) hoq fun m6 h6 => ⟨rfl, wp_pure ?_⟩)
          rw [upd_upd] at h6
          refine fin m6 _ h6 ⟨0, by rw [upd_ne _ _ (nt1 _ _ hwq).symm]; exact h21⟩
            ⟨0, by rw [upd_ne _ _ (nt0 _ _ hwq).symm]; exact h20⟩ fun z z0 z1 => ?_
          simp only [updO, upd]
          split
          · rfl
          · exact hσ2z z z0 z1
        | some rz =>
          obtain ⟨⟨w, hw⟩, ho⟩ := hr rz rfl
          have hne : qz ≠ rz := by rintro rfl; exact hqr rfl
          have ha3 : upd σ2 qz (some x) a = some x := by
            by_cases hc : a = qz
            · rw [hc]; exact upd_self _ _ _
            · rw [upd_ne _ _ hc]; exact ha2
          have hr3 : upd σ2 qz (some x) rz = some w := by rw [upd_ne _ _ hne.symm]; exact old _ _ hw
          refine wp_require (mp_int_copy_spec hE h3 ha3 hr3 ho fun m4 h4 => ⟨rfl, ?_⟩)
          refine wp_bind (s_qdiv_spec h4 (by rw [upd_ne _ _ hne]; exact upd_self _ _ _) fun m5 h5 => ?_)
          have e1 : ∀ v w, upd (upd (upd σ2 qz (some x)) rz (some v)) qz (some w) = upd (upd σ2 qz (some w)) rz (some v) :=
            fun v w => by rw [upd_comm _ _ _ hne.symm, upd_upd]
          rw [e1] at h5
          refine wp_bind (wp_mono (s_qmod_fix_spec (n := decide (x < 0)) h5 (upd_self _ _ _) (by omega) fun m6 h6 => ?_)
            fun _ _ h => wp_bind h)
          · rw [upd_upd, hmd] at h6
            refine wp_bind (fixSign_spec h6 (by rw [upd_ne _ _ hne]; exact upd_self _ _ _) fun m7 h7 => ?_)
            rw [upd_comm _ _ _ hne.symm, upd_upd, hqv, hdv] at h7
            have hqz : upd (upd σ2 qz (some (x.tdiv y))) rz (some (x.tmod y)) qz = some (x.tdiv y) := by
              rw [upd_ne _ _ hne]; exact upd_self _ _ _
            refine wp_require (mp_int_copy_spec hE h7 hqz hqz hoq fun m8 h8 => ⟨rfl, ?_⟩)
            rw [upd_comm _ _ _ hne.symm, upd_upd] at h8
            refine wp_require (mp_int_copy_spec hE h8 (upd_self _ _ _) (upd_self _ _ _) ho fun m9 h9 => ⟨rfl, wp_pure ?_⟩)
            rw [upd_upd] at h9
            refine fin m9 _ h9 ⟨0, by rw [upd_ne _ _ (nt1 _ _ hw).symm, upd_ne _ _ (nt1 _ _ hwq).symm]; exact h21⟩
              ⟨0, by rw [upd_ne _ _ (nt0 _ _ hw).symm, upd_ne _ _ (nt0 _ _ hwq).symm]; exact h20⟩ fun z z0 z1 => ?_
            simp only [updO, upd]
            split
            · rfl
            · split
              · rfl
              · exact hσ2z z z0 z1
    · refine wp_if_pos (by omega) ?_
      -- the two working integers
      obtain ⟨qo, hqo⟩ : ∃ qo, qo = divOut q b t0 := ⟨_, rfl⟩
      obtain ⟨ro, hro⟩ : ∃ ro, ro = divOut r a t1 := ⟨_, rfl⟩
      simp only
      rw [← hqo, ← hro]
      unfold divOut at hqo hro
      have fq : (qo = t0 ∨ q = some qo) ∧ qo ≠ b := by
        cases q with
        | none => simp only at hqo; subst hqo; exact ⟨.inl rfl, (nt0 _ _ hb).symm⟩
        | some z =>
          simp only at hqo
          split at hqo
          · subst hqo; exact ⟨.inr rfl, by rename_i hh; exact fun e => hh e.symm⟩
          · subst hqo; exact ⟨.inl rfl, (nt0 _ _ hb).symm⟩
      have fr : (ro = t1 ∨ r = some ro) ∧ ro ≠ a := by
        cases r with
        | none => simp only at hro; subst hro; exact ⟨.inl rfl, (nt1 _ _ ha).symm⟩
        | some z =>
          simp only at hro
          split at hro
          · subst hro; exact ⟨.inr rfl, by rename_i hh; exact fun e => hh e.symm⟩
          · subst hro; exact ⟨.inl rfl, (nt1 _ _ ha).symm⟩
      have eq2 : (∃ w, σ2 qo = some w) ∧ qo.own = true := by
        rcases fq.1 with e | e
        · rw [e]; exact ⟨⟨0, h20⟩, o0⟩
        · obtain ⟨⟨w, hw⟩, ho⟩ := hq _ e; exact ⟨⟨w, old _ _ hw⟩, ho⟩
      have er2 : (∃ w, σ2 ro = some w) ∧ ro.own = true := by
        rcases fr.1 with e | e
        · rw [e]; exact ⟨⟨0, h21⟩, o1⟩
        · obtain ⟨⟨w, hw⟩, ho⟩ := hr _ e; exact ⟨⟨w, old _ _ hw⟩, ho⟩
      have hqoro : qo ≠ ro := by
        intro e
        rcases fq.1 with e1 | e1 <;> rcases fr.1 with e2 | e2
        · exact h10 (by rw [← e2, ← e, e1])
        · obtain ⟨⟨w, hw⟩, _⟩ := hr _ e2
          exact nt0 _ _ hw (by rw [← e, e1])
        · obtain ⟨⟨w, hw⟩, _⟩ := hq _ e1
          exact nt1 _ _ hw (by rw [e, e2])
        · exact hqr (by rw [e1, e2, e])
      have hqro : q ≠ some ro := by
        intro e
        rcases fr.1 with e2 | e2
        · obtain ⟨⟨w, hw⟩, _⟩ := hq _ e
          exact nt1 _ _ hw e2
        · exact hqr (by rw [e, e2])
      obtain ⟨⟨wq, hwq⟩, hoq⟩ := eq2
      obtain ⟨⟨wr', hwr⟩, hor⟩ := er2
      refine wp_require (mp_int_copy_spec hE h2 ha2 hwq hoq fun m3 h3 => ⟨rfl, ?_⟩)
      refine wp_require (mp_int_copy_spec hE h3 (x := y) (by rw [upd_ne _ _ fq.2.symm]; exact hb2)
        (by rw [upd_ne _ _ hqoro.symm]; exact hwr) hor fun m4 h4 => ⟨rfl, ?_⟩)
      refine wp_require (s_udiv_knuth_spec hE h4 (x := x) (by rw [upd_ne _ _ hqoro]; exact upd_self _ _ _)
        (upd_self _ _ _) hqoro hoq hor hy hgt fun m5 h5 => ⟨rfl, ?_⟩)
      have e1 : ∀ v w v' w', upd (upd (upd (upd σ2 qo v) ro w) qo v') ro w' = upd (upd σ2 qo v') ro w' :=
        fun v w v' w' => by rw [upd_comm _ _ _ hqoro.symm, upd_upd, upd_upd]
      rw [e1] at h5
      unfold divFinish
      refine wp_bind (fixSign_spec h5 (upd_self _ _ _) fun m6 h6 => ?_)
      rw [upd_upd, Int.natAbs_natCast, hmd] at h6
      refine wp_bind (fixSign_spec h6 (by rw [upd_ne _ _ hqoro]; exact upd_self _ _ _) fun m7 h7 => ?_)
      rw [upd_comm _ _ _ hqoro.symm, upd_upd, Int.natAbs_natCast, hdv] at h7
      have ex : ∀ z w, σ z = some w → ∃ w, upd (upd σ2 qo (some (x.tdiv y))) ro (some (x.tmod y)) z = some w := by
        intro z w hz
        simp only [upd]
        split
        · exact ⟨_, rfl⟩
        · split
          · exact ⟨_, rfl⟩
          · exact ⟨w, old _ _ hz⟩
      refine divCopies_spec hE h7 (by rw [upd_ne _ _ hqoro]; exact upd_self _ _ _) (upd_self _ _ _)
        (fun z hz => ?_) (fun z hz => ?_) hqro fun m8 h8 => ?_
      · obtain ⟨⟨w, hw⟩, ho⟩ := hq _ hz; exact ⟨ex _ _ hw, ho⟩
      · obtain ⟨⟨w, hw⟩, ho⟩ := hr _ hz; exact ⟨ex _ _ hw, ho⟩
      have nq : ∀ t, σ t = none → q ≠ some t := fun t ht hc => by
        obtain ⟨⟨w, hw⟩, _⟩ := hq t hc; rw [ht] at hw; simp at hw
      have nr : ∀ t, σ t = none → r ≠ some t := fun t ht hc => by
        obtain ⟨⟨w, hw⟩, _⟩ := hr t hc; rw [ht] at hw; simp at hw
      refine fin m8 _ h8 ?_ ?_ fun z z0 z1 => ?_
      · rw [updO_ne _ _ (nr _ ht1), updO_ne _ _ (nq _ ht1)]
        simp only [upd]
        split
        · exact ⟨_, rfl⟩
        · split
          · exact ⟨_, rfl⟩
          · exact ⟨_, h21⟩
      · rw [updO_ne _ _ (nr _ ht0), updO_ne _ _ (nq _ ht0)]
        simp only [upd]
        split
        · exact ⟨_, rfl⟩
        · split
          · exact ⟨_, rfl⟩
          · exact ⟨_, h20⟩
      · by_cases c1 : r = some z
        · rw [c1]; simp [updO]
        · rw [updO_ne _ _ c1, updO_ne _ _ c1]
          by_cases c2 : q = some z
          · rw [c2]; simp [updO]
          · rw [updO_ne _ _ c2, updO_ne _ _ c2, upd_ne, upd_ne]
            · exact hσ2z z z0 z1
            · rintro rfl; rcases fq.1 with e | e
              · exact z0 e
              · exact c2 e
            · rintro rfl; rcases fr.1 with e | e
              · exact z1 e
              · exact c1 e

end Imath
