import Verif.Proof.Div

/-! # Functions built on division, conversion to machine integers, exponentiation -/

namespace Imath

variable {env : Env} {E : Fault → Prop} {m : Mem} {s : Id → Option Cell} {σ : Id → Option Int}
  {z a b c : Id} {A B C : Cell} {x y w v : Int}

/-- Leaving the scope of a temporary. -/
theorem tmp_done {α : Type} {Q : α → Mem → Prop} {σ' σF : Id → Option Int} {t : Id} {r : α} (h : R2 m σ') (ht : σ' t = some v)
    (e : upd σ' t none = σF) (hQ : ∀ m3, R2 m3 σF → Q r m3) :
    ∃ σ'' v, R2 m σ'' ∧ σ'' t = some v ∧ ∀ m3, R2 m3 (upd σ'' t none) → Q r m3 :=
  ⟨σ', v, h, ht, fun m3 h3 => hQ m3 (by rw [← e]; exact h3)⟩

/-! ### `mp_int_mod` -/

/-- The result of `mp_int_mod`: the truncated remainder, moved up once by the modulus if negative. -/
def modOf (x y : Int) : Int := if x.tmod y < 0 then x.tmod y + y else x.tmod y

theorem modOf_pos (x : Int) {y : Int} (hy : 0 < y) : modOf x y = x % y := by
  unfold modOf
  have h1 := Int.emod_nonneg x (show y ≠ 0 by omega)
  have h2 := Int.emod_lt_of_pos x hy
  have h3 := Int.mul_ediv_add_emod x y
  have h4 := Int.mul_tdiv_add_tmod x y
  rcases Int.lt_or_le x 0 with hx | hx
  · have h5 : x.tmod y ≤ 0 := by
      have := Int.tmod_nonneg (a := -x) y (by omega)
      rw [Int.neg_tmod] at this; omega
    have h6 : -y < x.tmod y := by
      have := Int.tmod_lt_of_pos (-x) hy
      rw [Int.neg_tmod] at this; omega
    have h7 : x.tmod y % y = x % y := by
      conv_rhs => rw [← h4]
      rw [Int.mul_add_emod_self_left]
    rw [← h7]
    split
    · have h8 : (x.tmod y + y) % y = x.tmod y % y := by simp
      rw [← h8]
      exact (Int.emod_eq_of_lt (by omega) (by omega)).symm
    · exact (Int.emod_eq_of_lt (by omega) (by omega)).symm
  · rw [Int.tmod_eq_emod_of_nonneg hx, if_neg (by omega)]

theorem mp_int_mod_spec {Q : Int → Mem → Prop} (hE : Ref env E) (h : R2 m σ)
    (ha : σ a = some x) (hb : σ b = some y) (hc : σ c = some w) (ho : c.own = true)
    (hQ0 : y = 0 → ∀ m', R2 m' σ → Q MP_UNDEF m')
    (hQ : y ≠ 0 → ∀ m', R2 m' (upd σ c (some (modOf x y))) → Q MP_OK m') :
    wp env E (mp_int_mod a b c) Q m := by
  unfold mp_int_mod
  refine withTemp_spec h fun t m1 ht ot h1 => ?_
  have hta := ne_of_none ht ha
  have htb := ne_of_none ht hb
  have htc := ne_of_none ht hc
  have keep : ∀ {z : Id} {v : Int}, t ≠ z → σ z = some v → upd σ t (some 0) z = some v := fun hz hv => by
    rw [upd_ne _ _ hz.symm]; exact hv
  obtain ⟨o, hoe⟩ : ∃ o, o = (if b = c then t else c) := ⟨_, rfl⟩
  simp only
  rw [← hoe]
  have ho1 : o.own = true := by rw [hoe]; split <;> assumption
  have hoex : ∃ v, upd σ t (some 0) o = some v := by
    rw [hoe]; split
    · exact ⟨0, upd_self _ _ _⟩
    · exact ⟨w, keep htc hc⟩
  have hob : b ≠ o := by
    rw [hoe]; split
    · exact htb.symm
    · assumption
  have hoo : o = t ∨ o = c := by rw [hoe]; split <;> simp
  clear hoe
  unfold REQUIRE
  refine wp_bind (mp_int_div_spec hE h1 (keep hta ha) (keep htb hb) (by simp) (by simp)
    (fun z hz => ?_) (fun hy => ?_) (fun hy m2 h2 => ?_))
  · cases hz; exact ⟨hoex, ho1⟩
  · refine wp_if_pos (by decide) (wp_pure ?_)
    exact tmp_done h1 (upd_self _ _ _) (upd_tmp0 _ ht) (hQ0 hy)
  · refine wp_if_neg (by simp) ?_
    simp only [updO] at h2
    obtain ⟨ov, hov⟩ := hoex
    have hexc : ∃ v, upd (upd σ t (some 0)) o (some (x.tmod y)) c = some v := by
      by_cases e : c = o
      · rw [e]; exact ⟨_, upd_self _ _ _⟩
      · exact ⟨w, by rw [upd_ne _ _ e]; exact keep htc hc⟩
    obtain ⟨cv, hcv⟩ := hexc
    have hb2 : upd (upd σ t (some 0)) o (some (x.tmod y)) b = some y := by rw [upd_ne _ _ hob]; exact keep htb hb
    have fin : ∀ v, upd (upd (upd (upd σ t (some 0)) o (some (x.tmod y))) c (some v)) t none = upd σ c (some v) := by
      intro v
      funext k
      simp only [upd]
      split
      · next e => rw [e, if_neg htc, ht]
      · split
        · rfl
        · split
          · next e1 e2 e3 => rcases hoo with e | e
                             · exact absurd (e3.trans e) e1
                             · exact absurd (e3.trans e) e2
          · rfl
    have tt : ∀ v, ∃ u, upd (upd (upd σ t (some 0)) o (some (x.tmod y))) c (some v) t = some u := by
      intro v
      rw [upd_ne _ _ htc]
      simp only [upd]; split
      · exact ⟨_, rfl⟩
      · exact ⟨0, by simp⟩
    refine wp_bind (CMPZ_spec h2 (upd_self _ _ _) ?_)
    refine wp_ite (fun hs => ?_) (fun hs => ?_)
    · have hs' : x.tmod y < 0 := Int.sign_neg_iff.1 hs
      refine wp_bind (mp_int_add_spec hE h2 (upd_self _ _ _) hb2 hcv ho fun m3 h3 => wp_if_neg (by simp) (wp_pure ?_))
      obtain ⟨u, hu⟩ := tt (x.tmod y + y)
      refine tmp_done h3 hu (fin _) fun m4 h4 => hQ hy m4 ?_
      rw [modOf, if_pos hs']; exact h4
    · have hs' : ¬ x.tmod y < 0 := fun hc => hs (Int.sign_neg_iff.2 hc)
      refine wp_bind (mp_int_copy_spec hE h2 (upd_self _ _ _) hcv ho fun m3 h3 => wp_if_neg (by simp) (wp_pure ?_))
      obtain ⟨u, hu⟩ := tt (x.tmod y)
      refine tmp_done h3 hu (fin _) fun m4 h4 => hQ hy m4 ?_
      rw [modOf, if_neg hs']; exact h4

/-! ### Multiplication and division by powers of two -/

theorem sval_mul_nat (v : Int) (k : Nat) : sval (decide (v < 0)) (v.natAbs * k) = v * k := by
  rcases Int.lt_or_le v 0 with hv | hv
  · have : (v.natAbs : Int) = -v := by omega
    simp [sval, hv, Nat.cast_mul, abs_of_neg hv]
  · simp [sval, not_lt.2 hv, Nat.cast_mul, abs_of_nonneg hv]

theorem s_qmul_spec {Q : Bool → Mem → Prop} {p2 : Nat} (hE : Ref env E) (h : R2 m σ) (hz : σ z = some v)
    (ho : z.own = true) (hp : p2 < 4294967296)
    (hQ : ∀ m', R2 m' (upd σ z (some (v * 2 ^ p2))) → Q true m') :
    wp env E (s_qmul z p2) Q m := by
  obtain ⟨s, r, g⟩ := h
  obtain ⟨C, hC, gC⟩ := g.get hz
  refine s_qmul_rep hE r hC ho gC.norm hp fun m' C' h' n' s' _ g' => hQ m' ⟨_, h', g.upd ?_⟩
  refine n'.goodOf ?_ ?_
  · rw [s', gC.neg_eq, g', ← gC.natAbs, sval_mul_nat]; push_cast; rfl
  · intro hn h0
    rw [s'] at hn
    rw [g'] at h0
    have := Nat.pow_pos (n := p2) (show 0 < 2 by decide)
    rcases Nat.mul_eq_zero.1 h0 with h1 | h1
    · exact gC.sign hn h1
    · omega

theorem mp_int_mul_pow2_spec {Q : Int → Mem → Prop} {p2 : Nat} (hE : Ref env E) (h : R2 m σ)
    (ha : σ a = some x) (hc : σ c = some w) (ho : c.own = true) (hp : p2 < 4294967296)
    (hQ : ∀ m', R2 m' (upd σ c (some (x * 2 ^ p2))) → Q MP_OK m') :
    wp env E (mp_int_mul_pow2 a p2 c) Q m := by
  unfold mp_int_mul_pow2
  refine wp_bind (wp_cassert (by simp) ?_)
  refine wp_bind (mp_int_copy_spec hE h ha hc ho fun m1 h1 => ?_)
  refine wp_if_neg (by simp) ?_
  rw [intU32_of_nat hp]
  refine wp_bind (s_qmul_spec hE h1 (upd_self _ _ _) ho hp fun m2 h2 => ?_)
  rw [upd_upd] at h2
  exact wp_if_pos rfl (wp_pure (hQ m2 h2))

theorem sval_tdiv_pow (x : Int) (k : Nat) : sval (decide (x < 0)) (x.natAbs / 2 ^ k) = x.tdiv (2 ^ k) := by
  have hp : (0 : Int) < 2 ^ k := by positivity
  have := sval_tdiv x (2 ^ k) (by omega)
  have e : ((2 : Int) ^ k).natAbs = 2 ^ k := by rw [Int.natAbs_pow]; rfl
  rw [e] at this
  rw [← this]
  congr 1
  have : decide ((2 : Int) ^ k < 0) = false := by simp
  rw [this]
  cases decide (x < 0) <;> rfl

theorem sval_tmod_pow (x : Int) (k : Nat) : sval (decide (x < 0)) (x.natAbs % 2 ^ k) = x.tmod (2 ^ k) := by
  have e : ((2 : Int) ^ k).natAbs = 2 ^ k := by rw [Int.natAbs_pow]; rfl
  have := sval_tmod x (2 ^ k)
  rwa [e] at this

/-- `s_qmod` on a value for which no negative zero arises. -/
theorem s_qmod_spec {Q : Unit → Mem → Prop} {p2 : Nat} (h : R2 m σ) (hz : σ z = some v) (hp : p2 < 4294967296)
    (hnz : v < 0 → v.tmod (2 ^ p2) ≠ 0)
    (hQ : ∀ m', R2 m' (upd σ z (some (v.tmod (2 ^ p2)))) → Q () m') :
    wp env E (s_qmod z p2) Q m := by
  obtain ⟨s, r, g⟩ := h
  obtain ⟨C, hC, gC⟩ := g.get hz
  refine s_qmod_rep r hC gC.norm hp fun m1 C1 h1 n1 s1 _ g1 _ => hQ m1 ⟨_, h1, g.upd ?_⟩
  have e : v.tmod (2 ^ p2) = sval C1.neg C1.mag := by
    rw [s1, g1, gC.neg_eq, ← gC.natAbs, sval_tmod_pow]
  refine n1.goodOf e fun hn h0 => ?_
  rw [s1] at hn
  rw [h0] at e
  exact hnz (gC.neg_iff.1 hn) (by rw [e]; cases C1.neg <;> rfl)

theorem mp_int_div_pow2_spec {Q : Int → Mem → Prop} {q r : Option Id} {p2 : Nat} (hE : Ref env E) (h : R2 m σ)
    (ha : σ a = some x) (hqr : q ≠ r) (hp : p2 < 4294967296)
    (hq : ∀ z, q = some z → (∃ w, σ z = some w) ∧ z.own = true)
    (hr : ∀ z, r = some z → (∃ w, σ z = some w) ∧ z.own = true)
    (hal : q = some a → r = none)
    (hnz : r ≠ none → x < 0 → x.tmod (2 ^ p2) ≠ 0)
    (hQ : ∀ m', R2 m' (updO (updO σ q (x.tdiv (2 ^ p2))) r (x.tmod (2 ^ p2))) → Q MP_OK m') :
    wp env E (mp_int_div_pow2 a p2 q r) Q m := by
  unfold mp_int_div_pow2
  refine wp_bind (wp_cassert (by simp) ?_)
  refine wp_bind (wp_cassert (by simpa using hqr) ?_)
  rw [intU32_of_nat hp]
  have second : ∀ (σ' : Id → Option Int) (m' : Mem), R2 m' σ' → (r ≠ none → σ' a = some x) →
      (∀ z, r = some z → ∃ w, σ' z = some w) → (∀ m'', R2 m'' (updO σ' r (x.tmod (2 ^ p2))) → Q MP_OK m'') →
      wp env E (optRes r fun r => do
        let res ← mp_int_copy a r
        cwhen (res = MP_OK) (s_qmod r p2)
        pure res) Q m' := by
    intro σ' m' h' ha' hr' hQ'
    cases r with
    | none => exact wp_pure (hQ' m' h')
    | some rz =>
      obtain ⟨wr', hwr⟩ := hr' rz rfl
      obtain ⟨_, hor⟩ := hr rz rfl
      refine wp_bind (mp_int_copy_spec hE h' (ha' (by simp)) hwr hor fun m1 h1 => ?_)
      refine wp_bind (wp_cwhen (fun _ => ?_) (fun hne => absurd rfl hne))
      refine s_qmod_spec h1 (upd_self _ _ _) hp (hnz (by simp)) fun m2 h2 => ?_
      rw [upd_upd] at h2
      exact wp_pure (hQ' m2 h2)
  cases q with
  | none =>
    refine wp_bind (wp_pure (wp_if_pos rfl ?_))
    exact second σ m h (fun _ => ha) (fun z hz => (hr z hz).1) hQ
  | some qz =>
    obtain ⟨⟨wq, hwq⟩, hoq⟩ := hq qz rfl
    refine wp_bind (wp_bind (mp_int_copy_spec hE h ha hwq hoq fun m1 h1 => ?_))
    refine wp_bind (wp_cwhen (fun _ => ?_) (fun hne => absurd rfl hne))
    refine s_qdiv_spec h1 (upd_self _ _ _) fun m2 h2 => ?_
    rw [upd_upd, sval_tdiv_pow] at h2
    refine wp_pure (wp_if_pos rfl ?_)
    refine second _ m2 h2 (fun hrn => ?_) (fun z hz => ?_) hQ
    · rw [upd_ne]; exact ha
      rintro rfl; exact hrn (hal rfl)
    · by_cases e : z = qz
      · rw [e]; exact ⟨_, upd_self _ _ _⟩
      · obtain ⟨⟨w', hw'⟩, _⟩ := hr z hz
        exact ⟨w', by rw [upd_ne _ _ e]; exact hw'⟩

/-! ### Conversion to machine integers -/

theorem shl16S_spec {Q : Nat → Mem → Prop} {u : Nat} (h : u * 65536 < 9223372036854775808) (hQ : Q (u * 65536) m) :
    wp env E (shl16S u) Q m := by
  unfold shl16S; rw [if_pos h]; exact wp_pure hQ

theorem or_of_mul {hi lo : Nat} (h2 : lo < 𝔹) : (hi * 𝔹) ||| lo = hi * 𝔹 + lo := by
  have := Nat.two_pow_add_eq_or_of_lt (i := 32) (b := lo) h2 hi
  rw [show hi * 𝔹 = 2 ^ 32 * hi by ring, ← this]

theorem toIntLoop_spec {Q : Nat → Mem → Prop} {n uv : Nat} {p : Ptr} {xs : List Nat} (hx : At m p xs)
    (hl : n ≤ xs.length) (hd : Dig xs) (hlt : val (xs.take n) + 𝔹 ^ n * uv < 9223372036854775808)
    (hQ : Q (val (xs.take n) + 𝔹 ^ n * uv) m) : wp env E (toIntLoop p n uv) Q m := by
  induction n generalizing uv with
  | zero => simpa [toIntLoop] using hQ
  | succ n ih =>
    unfold toIntLoop
    have hn : n < xs.length := by omega
    have hdn : xs[n] < 𝔹 := hd _ (List.getElem_mem hn)
    have e : val (xs.take (n + 1)) + 𝔹 ^ (n + 1) * uv = val (xs.take n) + 𝔹 ^ n * (uv * 𝔹 + xs[n]) := by
      rw [val_take_succ xs n hn, Nat.pow_succ, Nat.mul_add, Nat.mul_assoc, Nat.mul_comm 𝔹 uv]; omega
    rw [e] at hlt hQ
    have hb : uv * 𝔹 < 9223372036854775808 := by
      have : 1 * (uv * 𝔹 + xs[n]) ≤ 𝔹 ^ n * (uv * 𝔹 + xs[n]) := Nat.mul_le_mul_right _ (pow_pos' n)
      omega
    have hb' : uv * 65536 * 65536 < 9223372036854775808 := by rw [Nat.mul_assoc]; exact hb
    have hb'' : uv * 65536 < 9223372036854775808 := lt_of_le_of_lt (Nat.le_mul_of_pos_right _ (by decide)) hb'
    refine wp_bind (shl16S_spec hb'' ?_)
    refine wp_bind (shl16S_spec hb' ?_)
    refine wp_bind (wp_rd (hx.get hn) ?_)
    rw [Nat.mul_assoc, show 65536 * 65536 = 𝔹 from rfl, or_of_mul hdn]
    exact ih (by omega) hlt hQ

theorem toUintLoop_spec {Q : Nat → Mem → Prop} {n uv : Nat} {p : Ptr} {xs : List Nat} (hx : At m p xs)
    (hl : n ≤ xs.length) (hd : Dig xs) (hlt : val (xs.take n) + 𝔹 ^ n * uv < 18446744073709551616)
    (hQ : Q (val (xs.take n) + 𝔹 ^ n * uv) m) : wp env E (toUintLoop p n uv) Q m := by
  induction n generalizing uv with
  | zero => simpa [toUintLoop] using hQ
  | succ n ih =>
    unfold toUintLoop
    have hn : n < xs.length := by omega
    have hdn : xs[n] < 𝔹 := hd _ (List.getElem_mem hn)
    have e : val (xs.take (n + 1)) + 𝔹 ^ (n + 1) * uv = val (xs.take n) + 𝔹 ^ n * (uv * 𝔹 + xs[n]) := by
      rw [val_take_succ xs n hn, Nat.pow_succ, Nat.mul_add, Nat.mul_assoc, Nat.mul_comm 𝔹 uv]; omega
    rw [e] at hlt hQ
    have hb : uv * 𝔹 < 18446744073709551616 := by
      have : 1 * (uv * 𝔹 + xs[n]) ≤ 𝔹 ^ n * (uv * 𝔹 + xs[n]) := Nat.mul_le_mul_right _ (pow_pos' n)
      omega
    refine wp_bind (wp_rd (hx.get hn) ?_)
    rw [shl16_or (by omega) hdn, Nat.mul_comm 𝔹 uv]
    exact ih (by omega) hlt hQ

theorem cmpZ_pos {x y : Int} : cmpZ x y > 0 ↔ y < x := by
  unfold cmpZ; split
  · simp; omega
  · split
    · simp; omega
    · simp; omega

theorem cmpZ_neg {x y : Int} : cmpZ x y < 0 ↔ x < y := by
  unfold cmpZ; split
  · simp; omega
  · split
    · simp; omega
    · simp; omega

theorem mp_int_to_int_spec {Q : Int × Option Int → Mem → Prop} (h : R2 m σ) (hz : σ z = some v) (hv : v ≠ SMALL_MIN)
    (hQ0 : v < SMALL_MIN ∨ SMALL_MAX < v → ∀ m', R2 m' σ → Q (MP_RANGE, none) m')
    (hQ1 : SMALL_MIN < v → v ≤ SMALL_MAX → ∀ m', R2 m' σ → Q (MP_OK, some v) m') :
    wp env E (mp_int_to_int z) Q m := by
  unfold mp_int_to_int
  refine wp_bind (MP_SIGN_spec h hz ?_)
  refine wp_bind (wp_mono (Q := fun r m' => R2 m' σ ∧ (r > 0 ↔ SMALL_MAX < v)) ?_ ?_)
  · refine wp_cif (fun hs => ?_) (fun hs => ?_)
    · exact mp_int_compare_value_spec (by norm_num) (by norm_num) h hz fun m' h' => ⟨h', cmpZ_pos⟩
    · refine wp_pure ⟨h, ?_⟩
      have : v < 0 := by simpa using hs
      constructor <;> intro hh <;> omega
  · rintro r m1 ⟨h1, hr⟩
    refine wp_ite (fun hc => wp_pure (hQ0 (.inr (hr.1 hc)) m1 h1)) (fun hc => ?_)
    have hle : v ≤ SMALL_MAX := by by_contra hcc; exact hc (hr.2 (by omega))
    refine wp_bind (mp_int_compare_value_spec (by norm_num) (by norm_num) h1 hz fun m2 h2 => ?_)
    refine wp_ite (fun hc => wp_pure (hQ0 (.inl (cmpZ_neg.1 hc)) m2 h2)) (fun hc => ?_)
    rw [cmpZ_neg] at hc
    have h2' := h2
    obtain ⟨s, r, g⟩ := h2'
    obtain ⟨C, hC, gC⟩ := g.get hz
    have hm := gC.natAbs
    refine wp_bind (wp_USED r hC ?_)
    refine wp_bind (wp_DIGITS r hC ?_)
    have e : val (C.buf.take C.used) + 𝔹 ^ C.used * 0 = C.mag := by simp [Cell.mag]
    refine wp_bind (toIntLoop_spec (r.at hC) gC.norm.le (r.okd hC) (by rw [e]; omega) ?_)
    rw [e, ← hm]
    refine wp_pure ?_
    have e2 : (if decide (v < 0) = true then -((v.natAbs : Nat) : Int) else ((v.natAbs : Nat) : Int)) = v := by
      split
      · next hh => simp at hh; omega
      · next hh => simp at hh; omega
    rw [e2]
    exact hQ1 (by omega) hle m2 h2

theorem mp_int_to_uint_spec {Q : Int × Option Nat → Mem → Prop} (h : R2 m σ) (hz : σ z = some v)
    (hQ0 : v < 0 ∨ (USMALL_MAX : Int) < v → ∀ m', R2 m' σ → Q (MP_RANGE, none) m')
    (hQ1 : 0 ≤ v → v ≤ (USMALL_MAX : Int) → ∀ m', R2 m' σ → Q (MP_OK, some v.natAbs) m') :
    wp env E (mp_int_to_uint z) Q m := by
  unfold mp_int_to_uint
  refine wp_bind (MP_SIGN_spec h hz ?_)
  refine wp_ite (fun hs => wp_pure (hQ0 (.inl (by simpa using hs)) m h)) (fun hs => ?_)
  refine wp_bind (mp_int_compare_uvalue_spec (by norm_num) h hz fun m2 h2 => ?_)
  refine wp_ite (fun hc => wp_pure (hQ0 (.inr (cmpZ_pos.1 hc)) m2 h2)) (fun hc => ?_)
  rw [cmpZ_pos] at hc
  have hs' : 0 ≤ v := by simpa using hs
  have h2' := h2
  obtain ⟨s, r, g⟩ := h2'
  obtain ⟨C, hC, gC⟩ := g.get hz
  have hm := gC.natAbs
  refine wp_bind (wp_USED r hC ?_)
  refine wp_bind (wp_DIGITS r hC ?_)
  have e : val (C.buf.take C.used) + 𝔹 ^ C.used * 0 = C.mag := by simp [Cell.mag]
  refine wp_bind (toUintLoop_spec (r.at hC) gC.norm.le (r.okd hC) (by rw [e]; omega) ?_)
  rw [e, ← hm]
  exact wp_pure (hQ1 hs' (by omega) m2 h2)

/-! ### Division by a machine integer -/

theorem mp_int_div_value_spec {Q : Int × Option Int → Mem → Prop} {q : Option Id} (hE : Ref env E)
    (hv1 : SMALL_MIN < v) (hv2 : v ≤ SMALL_MAX) (h : R2 m σ) (ha : σ a = some x)
    (hq : ∀ z, q = some z → (∃ w, σ z = some w) ∧ z.own = true)
    (hQ0 : v = 0 → ∀ m', R2 m' σ → Q (MP_UNDEF, none) m')
    (hQ : v ≠ 0 → ∀ m', R2 m' (updO σ q (x.tdiv v)) → Q (MP_OK, some (x.tmod v)) m') :
    wp env E (mp_int_div_value a v q) Q m := by
  unfold mp_int_div_value
  refine withFake_spec hv1 hv2 h fun f m1 hf of h1 => ?_
  refine withTemp_spec h1 fun t m2 ht ot h2 => ?_
  have hft : t ≠ f := by rintro rfl; rw [upd_self] at ht; simp at ht
  rw [upd_ne _ _ hft] at ht
  have keep : ∀ {z : Id} {w : Int}, σ z = some w → upd (upd σ f (some v)) t (some 0) z = some w := fun hz => by
    rw [upd_ne _ _ (ne_of_none ht hz).symm, upd_ne _ _ (ne_of_none hf hz).symm]; exact hz
  have hqf : q ≠ some f := by
    intro e; obtain ⟨_, ho⟩ := hq f e; rw [of] at ho; simp at ho
  have hqt : q ≠ some t := by
    intro e; obtain ⟨⟨w, hw⟩, _⟩ := hq t e; rw [ht] at hw; simp at hw
  have hf2 : upd (upd σ f (some v)) t (some 0) f = some v := by rw [upd_ne _ _ hft.symm]; exact upd_self _ _ _
  refine wp_bind (mp_int_div_spec hE h2 (keep ha) hf2 hqt (fun z hz => ?_) (fun z hz => ?_) (fun hy => ?_) (fun hy m3 h3 => ?_))
  · obtain ⟨⟨w, hw⟩, ho⟩ := hq z hz; exact ⟨⟨w, keep hw⟩, ho⟩
  · cases hz; exact ⟨⟨0, upd_self _ _ _⟩, ot⟩
  · refine wp_if_pos (by simp [show ¬ MP_UNDEF = MP_OK by decide]) (wp_pure ?_)
    refine tmp_done (r := (MP_UNDEF, none)) (Q := fun r m3 => ∃ σ'' v, R2 m3 σ'' ∧ σ'' f = some v ∧ ∀ m4, R2 m4 (upd σ'' f none) → Q r m4) h2 (upd_self _ _ _) (by rw [upd_upd, upd_same]; rw [upd_ne _ _ hft]; exact ht) fun m4 h4 => ?_
    exact tmp_done h4 (upd_self _ _ _) (upd_tmp0 _ hf) (hQ0 hy)
  · refine wp_if_neg (by simp) ?_
    have hb : (x.tmod v).natAbs < v.natAbs := by
      rw [Int.natAbs_tmod]; exact Nat.mod_lt _ (by omega)
    refine wp_bind (mp_int_to_int_spec (v := x.tmod v) h3 (upd_self _ _ _) (by omega) (fun hh => ?_) (fun _ _ m4 h4 => ?_))
    · omega
    · refine wp_pure (tmp_done (r := (MP_OK, some (x.tmod v))) (Q := fun r m3 => ∃ σ'' v, R2 m3 σ'' ∧ σ'' f = some v ∧ ∀ m4, R2 m4 (upd σ'' f none) → Q r m4)
        h4 (v := x.tmod v) (σF := updO (upd σ f (some v)) q (x.tdiv v)) (upd_self _ _ _) ?_ fun m5 h5 => ?_)
      · funext k
        simp only [updO, upd_upd]
        by_cases e : k = t
        · rw [e, upd_self]
          cases q with
          | none => simp [upd, hft, ht]
          | some qz =>
            have : t ≠ qz := by rintro rfl; exact hqt rfl
            simp [upd, hft, ht, this]
        · cases q with
          | none => simp [upd, e]
          | some qz => simp [upd, e]
      · refine tmp_done h5 (v := v) (σF := updO σ q (x.tdiv v)) (by rw [updO_ne _ _ hqf]; exact upd_self _ _ _) ?_ (hQ hy)
        funext k
        by_cases e : k = f
        · rw [e, upd_self, updO_ne _ _ hqf, hf]
        · cases q with
          | none => simp [upd, updO, e]
          | some qz => simp [upd, updO, e]

theorem mp_int_divisible_value_spec {Q : Bool → Mem → Prop} (hE : Ref env E)
    (hv1 : SMALL_MIN < v) (hv2 : v ≤ SMALL_MAX) (h : R2 m σ) (ha : σ a = some x)
    (hQ : ∀ m', R2 m' σ → Q (decide (v ≠ 0 ∧ v ∣ x)) m') :
    wp env E (mp_int_divisible_value a v) Q m := by
  unfold mp_int_divisible_value
  refine wp_bind (mp_int_div_value_spec hE hv1 hv2 h ha (by simp) (fun hv m' h' => ?_) (fun hv m' h' => ?_))
  · refine wp_if_pos (by simp [show ¬ MP_UNDEF = MP_OK by decide]) (wp_pure ?_)
    have := hQ m' h'
    simpa [hv] using this
  · refine wp_if_neg (by simp) (wp_pure ?_)
    have := hQ m' h'
    have e : (v ∣ x) ↔ x.tmod v = 0 := Int.dvd_iff_tmod_eq_zero
    simpa [hv, e] using this

end Imath
