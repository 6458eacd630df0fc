import Verif.Proof.Div2
import Mathlib.Data.Nat.Log
import Mathlib.Data.Nat.Size

/-! # Exponentiation, parity, reading digits -/

namespace Imath

variable {env : Env} {E : Fault → Prop} {m : Mem} {s : Id → Option Cell} {σ : Id → Option Int}
  {z a b c : Id} {A B C : Cell} {x y w v : Int}

theorem exptLoop_spec {Q : Int → Mem → Prop} {t : Id} {X R : Int} (hE : Ref env E) (htc : t ≠ c) (ot : t.own = true) (oc : c.own = true)
    (f v : Nat) (hv : v < 2 ^ f) (h : R2 m σ) (ht : σ t = some X) (hc : σ c = some R)
    (hQ : ∀ m' T, R2 m' (upd (upd σ t (some T)) c (some (R * X ^ v))) → Q MP_OK m') :
    wp env E (exptLoop t c (f + 1) v) Q m := by
  induction f generalizing v σ m X R with
  | zero =>
    unfold exptLoop
    have : v = 0 := by omega
    subst this
    refine wp_if_neg (by simp) (wp_pure (hQ m X ?_))
    rw [upd_same _ ht, pow_zero, mul_one, upd_same _ hc]; exact h
  | succ f ih =>
    unfold exptLoop
    refine wp_ite (fun hv0 => ?_) (fun hv0 => ?_)
    · simp only [Nat.shiftRight_one, Nat.and_one_is_mod]
      have tail : ∀ (σ' : Id → Option Int) (m' : Mem) (R' : Int), R2 m' σ' → σ' t = some X → σ' c = some R' →
          (∀ m'' T, R2 m'' (upd (upd σ' t (some T)) c (some (R' * (X * X) ^ (v / 2)))) → Q MP_OK m'') →
          wp env E (if v / 2 = 0 then pure MP_OK else REQUIRE (mp_int_sqr t t) (exptLoop t c (f + 1) (v / 2))) Q m' := by
        intro σ' m' R' h' ht' hc' hQ'
        refine wp_ite (fun h0 => ?_) (fun h0 => ?_)
        · refine wp_pure (hQ' m' X ?_)
          rw [upd_same _ ht', h0, pow_zero, mul_one, upd_same _ hc']; exact h'
        · refine wp_require (mp_int_sqr_spec hE h' ht' ht' ot fun m1 h1 => ⟨rfl, ?_⟩)
          refine ih (v / 2) (by rw [Nat.pow_succ] at hv; omega) h1 (upd_self _ _ _) (by rw [upd_ne _ _ htc.symm]; exact hc')
            fun m2 T h2 => hQ' m2 T ?_
          rw [upd_upd] at h2; exact h2
      refine wp_ite (fun h1 => ?_) (fun h1 => ?_)
      · refine wp_require (mp_int_mul_spec hE h hc ht hc oc fun m1 h1' => ⟨rfl, ?_⟩)
        refine tail _ m1 (R * X) h1' (by rw [upd_ne _ _ htc]; exact ht) (upd_self _ _ _) fun m2 T h2 => hQ m2 T ?_
        have e : R * X * (X * X) ^ (v / 2) = R * X ^ v := by
          conv_rhs => rw [show v = 2 * (v / 2) + 1 by omega]
          rw [pow_succ, pow_mul]; ring
        rw [e, upd_comm _ _ _ htc, upd_upd] at h2
        rw [upd_comm _ _ _ htc]
        exact h2
      · refine tail σ m R h ht hc fun m2 T h2 => hQ m2 T ?_
        have e : R * (X * X) ^ (v / 2) = R * X ^ v := by
          conv_rhs => rw [show v = 2 * (v / 2) by omega]
          rw [pow_mul]; ring
        rw [e] at h2; exact h2
    · have : v = 0 := by omega
      subst this
      refine wp_pure (hQ m X ?_)
      rw [upd_same _ ht, pow_zero, mul_one, upd_same _ hc]; exact h

theorem mp_int_expt_spec {Q : Int → Mem → Prop} {k : Int} (hE : Ref env E) (h : R2 m σ)
    (ha : σ a = some x) (hc : σ c = some w) (ho : c.own = true)
    (hQ0 : k < 0 → Q MP_RANGE m)
    (hQ : 0 ≤ k → ∀ m', R2 m' (upd σ c (some (x ^ (k % 2 ^ 32).toNat))) → Q MP_OK m') :
    wp env E (mp_int_expt a k c) Q m := by
  unfold mp_int_expt
  refine wp_ite (fun hn => wp_pure (hQ0 hn)) (fun hn => ?_)
  refine withTemp_spec h fun t m1 ht ot h1 => ?_
  have hta := ne_of_none ht ha
  have htc := ne_of_none ht hc
  refine wp_require (mp_int_copy_spec hE h1 (by rw [upd_ne _ _ hta.symm]; exact ha) (upd_self _ _ _) ot fun m2 h2 => ⟨rfl, ?_⟩)
  rw [upd_upd] at h2
  refine wp_bind (mp_int_set_value_spec hE (by norm_num) (by norm_num) h2 (by rw [upd_ne _ _ htc.symm]; exact hc) ho fun m3 h3 => ?_)
  have e : intU32 k = (k % 2 ^ 32).toNat := rfl
  rw [e]
  refine exptLoop_spec hE htc ot ho 32 _ (by norm_num; omega) h3 (by rw [upd_ne _ _ htc]; exact upd_self _ _ _) (upd_self _ _ _)
    fun m4 T h4 => ?_
  refine tmp_done h4 (v := T) (by rw [upd_ne _ _ htc]; exact upd_self _ _ _) ?_ (hQ (by omega))
  rw [one_mul]
  upd_tac

theorem mp_int_expt_value_spec {Q : Int → Mem → Prop} {k : Int} (hE : Ref env E) (h : R2 m σ)
    (hx1 : SMALL_MIN < x) (hx2 : x ≤ SMALL_MAX) (hc : σ c = some w) (ho : c.own = true)
    (hQ0 : k < 0 → Q MP_RANGE m)
    (hQ : 0 ≤ k → ∀ m', R2 m' (upd σ c (some (x ^ (k % 2 ^ 32).toNat))) → Q MP_OK m') :
    wp env E (mp_int_expt_value x k c) Q m := by
  unfold mp_int_expt_value
  refine wp_ite (fun hn => wp_pure (hQ0 hn)) (fun hn => ?_)
  refine withTemp_spec h fun t m1 ht ot h1 => ?_
  have htc := ne_of_none ht hc
  refine wp_require (mp_int_set_value_spec hE hx1 hx2 h1 (upd_self _ _ _) ot fun m2 h2 => ⟨rfl, ?_⟩)
  rw [upd_upd] at h2
  refine wp_bind (mp_int_set_value_spec hE (by norm_num) (by norm_num) h2 (by rw [upd_ne _ _ htc.symm]; exact hc) ho fun m3 h3 => ?_)
  have e : intU32 k = (k % 2 ^ 32).toNat := rfl
  rw [e]
  refine exptLoop_spec hE htc ot ho 32 _ (by norm_num; omega) h3 (by rw [upd_ne _ _ htc]; exact upd_self _ _ _) (upd_self _ _ _)
    fun m4 T h4 => ?_
  refine tmp_done h4 (v := T) (by rw [upd_ne _ _ htc]; exact upd_self _ _ _) ?_ (hQ (by omega))
  rw [one_mul]
  upd_tac

/-! ### Reading single digits -/

/-- The number of digits of a value. -/
def ndig (v : Int) : Nat := Nat.log 𝔹 v.natAbs + 1

theorem ndig_of {u n : Nat} (h1 : 1 ≤ u) (h2 : n < 𝔹 ^ u) (h3 : 1 < u → 𝔹 ^ (u - 1) ≤ n) : Nat.log 𝔹 n + 1 = u := by
  rcases Nat.lt_or_ge 1 u with hu | hu
  · have := (Nat.log_eq_iff (b := 𝔹) (m := u - 1) (n := n) (.inl (by omega))).2 ⟨h3 hu, by rw [Nat.sub_add_cancel h1]; exact h2⟩
    omega
  · have : u = 1 := by omega
    subst this
    rw [Nat.log_of_lt (by simpa using h2)]

theorem MP_USED_val {Q : Nat → Mem → Prop} (h : R2 m σ) (hz : σ z = some v) (hQ : ndig v ≤ MAXD → Q (ndig v) m) :
    wp env E (MP_USED z) Q m :=
  MP_USED_spec h hz fun u h1 h2 h3 h4 => by
    have := ndig_of h1 h3 h4
    rw [← this] at h2 ⊢; exact hQ h2

theorem lt_pow_ndig (v : Int) : v.natAbs < 𝔹 ^ ndig v :=
  Nat.lt_pow_succ_log_self (by norm_num) _

theorem val_digit {l : List Nat} {i : Nat} (hd : Dig l) (hi : i < l.length) : val l / 𝔹 ^ i % 𝔹 = l[i] := by
  induction l generalizing i with
  | nil => simp at hi
  | cons x l ih =>
    rw [Dig_cons] at hd
    cases i with
    | zero => simp [val_cons]; exact hd.1
    | succ i =>
      rw [val_cons, Nat.pow_succ', ← Nat.div_div_eq_div_mul, Nat.add_mul_div_left _ _ (by norm_num), Nat.div_eq_of_lt hd.1, Nat.zero_add]
      simpa using ih hd.2 (by simpa using hi)

/-- Reading the digits pointer and then digit number `i`. -/
theorem digit_spec {Q : Nat → Mem → Prop} {i : Nat} (h : R2 m σ) (hz : σ z = some v) (hi : i < ndig v)
    (hQ : Q (v.natAbs / 𝔹 ^ i % 𝔹) m) : wp env E (MP_DIGITS z) (fun p m' => wp env E (rd (p.add i)) Q m') m := by
  obtain ⟨s, r, g⟩ := h
  obtain ⟨C, hC, gC⟩ := g.get hz
  have hu : ndig v = C.used := by
    unfold ndig
    rw [gC.natAbs]
    exact ndig_of gC.norm.pos (mag_lt (r.okd hC) gC.norm.le) fun hu => gC.norm.mag_ge hu
  rw [hu] at hi
  have hle := gC.norm.le
  have hil : i < C.buf.length := by omega
  refine wp_DIGITS r hC (wp_rdz r hC (List.getElem?_eq_getElem hil) ?_)
  have : C.buf[i] = v.natAbs / 𝔹 ^ i % 𝔹 := by
    have hit : i < (C.buf.take C.used).length := by rw [List.length_take]; omega
    rw [gC.natAbs, Cell.mag, val_digit ((r.okd hC).take _) hit, List.getElem_take]
  rw [this]; exact hQ

theorem digit0_spec {Q : Nat → Mem → Prop} (h : R2 m σ) (hz : σ z = some v)
    (hQ : Q (v.natAbs % 𝔹) m) : wp env E (MP_DIGITS z) (fun p m' => wp env E (rd p) Q m') m := by
  have := digit_spec (env := env) (E := E) (i := 0) (Q := Q) h hz (by unfold ndig; omega) (by simpa using hQ)
  simpa [Ptr.add] using this

theorem odd_iff (v : Int) : (v.natAbs % 𝔹) % 2 = 0 ↔ v % 2 = 0 := by omega

theorem mp_int_is_odd_spec {Q : Bool → Mem → Prop} (h : R2 m σ) (hz : σ z = some v)
    (hQ : Q (decide (v % 2 ≠ 0)) m) : wp env E (mp_int_is_odd z) Q m := by
  unfold mp_int_is_odd
  refine wp_bind (wp_mono (digit0_spec (Q := fun d m' => Q (decide (d &&& 1 ≠ 0)) m') h hz ?_) fun p m1 hh => wp_bind (wp_mono hh fun d m2 h2 => wp_pure h2))
  rw [Nat.and_one_is_mod]
  simpa only [ne_eq, odd_iff v] using hQ

theorem mp_int_is_even_spec {Q : Bool → Mem → Prop} (h : R2 m σ) (hz : σ z = some v)
    (hQ : Q (decide (v % 2 = 0)) m) : wp env E (mp_int_is_even z) Q m := by
  unfold mp_int_is_even
  refine wp_bind (wp_mono (digit0_spec (Q := fun d m' => Q (decide (d &&& 1 = 0)) m') h hz ?_) fun p m1 hh => wp_bind (wp_mono hh fun d m2 h2 => wp_pure h2))
  rw [Nat.and_one_is_mod]
  simpa only [ne_eq, odd_iff v] using hQ

/-! ### `mp_int_expt_full` -/

/-- One bit of a binary exponentiation. -/
theorem expt_bit (R X : Int) (d r n : Nat) :
    R * X ^ (d + 2 ^ (n + 1) * r) = (if d % 2 ≠ 0 then R * X else R) * (X * X) ^ (d / 2 + 2 ^ n * r) := by
  have h2 : (X * X) ^ (d / 2 + 2 ^ n * r) = X ^ (2 * (d / 2) + 2 ^ (n + 1) * r) := by
    rw [← pow_two, ← pow_mul]; congr 1; rw [Nat.pow_succ]; ring
  rw [h2]
  split
  · next h =>
    conv_lhs => rw [show d = 1 + 2 * (d / 2) by omega, Nat.add_assoc, pow_add, pow_one]
    ring
  · next h => 
    conv_lhs => rw [show d = 2 * (d / 2) by omega]

theorem exptFullInner_spec {Q : Int → Mem → Prop} {t : Id} {k : M Int} {ix r : Nat} {G : Int} (hE : Ref env E)
    (htc : t ≠ c) (htb : t ≠ b) (hcb : c ≠ b) (ot : t.own = true) (oc : c.own = true) (hb : σ b = some y)
    (hlast : ix + 1 = ndig y → r = 0)
    (hk : ∀ m' X R, R2 m' (upd (upd σ t (some X)) c (some R)) → R * X ^ r = G → wp env E k Q m')
    (hk0 : ∀ m' X R, r = 0 → R2 m' (upd (upd σ t (some X)) c (some R)) → R = G → wp env E k Q m')
    (n d : Nat) (hd : d < 2 ^ n) {X R : Int} (h : R2 m (upd (upd σ t (some X)) c (some R)))
    (hG : R * X ^ (d + 2 ^ n * r) = G) :
    wp env E (exptFullInner b t c ix k n d) Q m := by
  induction n generalizing d m X R with
  | zero =>
    have : d = 0 := by omega
    subst this
    unfold exptFullInner
    exact hk m X R h (by simpa using hG)
  | succ n ih =>
    unfold exptFullInner
    have gt : ∀ X R, upd (upd σ t (some X)) c (some R) t = some X := fun X R => by
      rw [upd_ne _ _ htc]; exact upd_self _ _ _
    have gc : ∀ X R, upd (upd σ t (some X)) c (some R) c = some R := fun X R => upd_self _ _ _
    have gb : ∀ X R, upd (upd σ t (some X)) c (some R) b = some y := fun X R => by
      rw [upd_ne _ _ hcb.symm, upd_ne _ _ htb.symm]; exact hb
    simp only [Nat.shiftRight_one, Nat.and_one_is_mod]
    rw [expt_bit] at hG
    have tail : ∀ m' R', R2 m' (upd (upd σ t (some X)) c (some R')) → R' * (X * X) ^ (d / 2 + 2 ^ n * r) = G →
        wp env E (do
          if d / 2 = 0 ∧ ix + 1 = (← MP_USED b) then k
          else REQUIRE (mp_int_sqr t t) (exptFullInner b t c ix k n (d / 2))) Q m' := by
      intro m' R' h' hG'
      refine wp_bind (MP_USED_val h' (gb _ _) fun _ => ?_)
      refine wp_ite (fun hl => ?_) (fun hl => ?_)
      · have hr := hlast hl.2
        refine hk0 m' X R' hr h' ?_
        rw [hl.1, hr] at hG'
        simpa using hG'
      · refine wp_require (mp_int_sqr_spec hE h' (gt _ _) (gt _ _) ot fun m1 h1 => ⟨rfl, ?_⟩)
        refine ih (d / 2) (by rw [Nat.pow_succ] at hd; omega) (X := X * X) (R := R') ?_ hG'
        rw [upd_comm _ _ _ htc.symm, upd_upd] at h1; exact h1
    refine wp_ite (fun hd1 => ?_) (fun hd1 => ?_)
    · refine wp_require (mp_int_mul_spec hE h (gc _ _) (gt _ _) (gc _ _) oc fun m1 h1 => ⟨rfl, ?_⟩)
      rw [upd_upd] at h1
      rw [if_pos hd1] at hG
      exact tail m1 _ h1 hG
    · rw [if_neg hd1] at hG
      exact tail m R h hG

theorem exptFullOuter_spec {Q : Int → Mem → Prop} {t : Id} (hE : Ref env E)
    (htc : t ≠ c) (htb : t ≠ b) (hcb : c ≠ b) (ot : t.own = true) (oc : c.own = true) (hb : σ b = some y) {G : Int}
    (f ix : Nat) (hf : ndig y < f + ix + 1) {X R : Int} (h : R2 m (upd (upd σ t (some X)) c (some R)))
    (hG : R * X ^ (y.natAbs / 𝔹 ^ ix) = G)
    (hQ : ∀ m' X, R2 m' (upd (upd σ t (some X)) c (some G)) → Q MP_OK m') :
    wp env E (exptFullOuter b t c (f + 1) ix) Q m := by
  induction f generalizing ix m X R with
  | zero =>
    unfold exptFullOuter
    have gb : upd (upd σ t (some X)) c (some R) b = some y := by
      rw [upd_ne _ _ hcb.symm, upd_ne _ _ htb.symm]; exact hb
    refine wp_bind (MP_USED_val h gb fun _ => ?_)
    refine wp_if_neg (by omega) (wp_pure (hQ m X ?_))
    have : y.natAbs / 𝔹 ^ ix = 0 := Nat.div_eq_of_lt (lt_of_lt_of_le (lt_pow_ndig y) (pow_le' (by omega)))
    rw [this, pow_zero, mul_one] at hG
    rw [← hG]; exact h
  | succ f ih =>
    unfold exptFullOuter
    have gb : upd (upd σ t (some X)) c (some R) b = some y := by
      rw [upd_ne _ _ hcb.symm, upd_ne _ _ htb.symm]; exact hb
    refine wp_bind (MP_USED_val h gb fun _ => ?_)
    have stop : ∀ {m' X' R'} {ix : Nat}, ndig y ≤ ix → R2 m' (upd (upd σ t (some X')) c (some R')) → R' * X' ^ (y.natAbs / 𝔹 ^ ix) = G → Q MP_OK m' := by
      intro m' X' R' ix hix h' hG'
      have : y.natAbs / 𝔹 ^ ix = 0 := Nat.div_eq_of_lt (lt_of_lt_of_le (lt_pow_ndig y) (pow_le' hix))
      rw [this, pow_zero, mul_one] at hG'
      refine hQ m' X' ?_
      rw [← hG']; exact h'
    refine wp_ite (fun hlt => ?_) (fun hge => wp_pure (stop (by omega) h hG))
    refine wp_bind (wp_mono (digit_spec (i := ix) (Q := fun d m' => d = y.natAbs / 𝔹 ^ ix % 𝔹 ∧ m' = m) h gb hlt ⟨rfl, rfl⟩) fun p m1 hp => ?_)
    refine wp_bind (wp_mono hp ?_)
    rintro d m2 ⟨rfl, rfl⟩
    have hz : ndig y ≤ ix + 1 → y.natAbs / 𝔹 ^ (ix + 1) = 0 := fun hh =>
      Nat.div_eq_of_lt (lt_of_lt_of_le (lt_pow_ndig y) (pow_le' hh))
    refine exptFullInner_spec (r := y.natAbs / 𝔹 ^ (ix + 1)) (G := G) hE htc htb hcb ot oc hb (fun hl => hz (by omega))
      (fun m' X' R' h' hG' => ih (ix + 1) (by omega) h' hG') (fun m' X' R' hr h' hG' => ih (ix + 1) (by omega) h' ?_)
      32 _ (Nat.mod_lt _ (by norm_num)) h ?_
    · rw [hr, pow_zero, mul_one]; exact hG'
    · rw [← hG]; congr 2
      rw [Nat.pow_succ 𝔹 ix, ← Nat.div_div_eq_div_mul]
      exact Nat.mod_add_div _ 𝔹

theorem mp_int_expt_full_spec {Q : Int → Mem → Prop} (hE : Ref env E) (h : R2 m σ)
    (ha : σ a = some x) (hb : σ b = some y) (hc : σ c = some w) (ho : c.own = true) (hcb : c ≠ b)
    (hQ0 : y < 0 → Q MP_RANGE m)
    (hQ : 0 ≤ y → ∀ m', R2 m' (upd σ c (some (x ^ y.toNat))) → Q MP_OK m') :
    wp env E (mp_int_expt_full a b c) Q m := by
  unfold mp_int_expt_full
  refine wp_bind (MP_SIGN_spec h hb ?_)
  refine wp_ite (fun hn => wp_pure (hQ0 (by simpa using hn))) (fun hn => ?_)
  have hy : 0 ≤ y := by simpa using hn
  refine withTemp_spec h fun t m1 ht ot h1 => ?_
  have hta := ne_of_none ht ha
  have htb := ne_of_none ht hb
  have htc := ne_of_none ht hc
  refine wp_require (mp_int_copy_spec hE h1 (by rw [upd_ne _ _ hta.symm]; exact ha) (upd_self _ _ _) ot fun m2 h2 => ⟨rfl, ?_⟩)
  rw [upd_upd] at h2
  refine wp_bind (mp_int_set_value_spec hE (by norm_num) (by norm_num) h2 (by rw [upd_ne _ _ htc.symm]; exact hc) ho fun m3 h3 => ?_)
  refine wp_bind (MP_USED_val h3 (by rw [upd_ne _ _ hcb.symm, upd_ne _ _ htb.symm]; exact hb) fun _ => ?_)
  refine exptFullOuter_spec (G := x ^ y.toNat) hE htc htb hcb ot ho hb _ 0 (by omega) h3 ?_ fun m4 T h4 => ?_
  · rw [one_mul, pow_zero, Nat.div_one]; congr 1; omega
  · refine tmp_done h4 (v := T) (by rw [upd_ne _ _ htc]; exact upd_self _ _ _) ?_ (hQ hy)
    upd_tac

/-! ### Powers of two and bit length -/

theorem mp_int_is_pow2_spec {Q : Int → Mem → Prop} (h : R2 m σ) (hz : σ z = some v) (h0 : v ≠ 0)
    (hQ0 : ∀ k : Nat, v.natAbs = 2 ^ k → Q k m) (hQ1 : (∀ k, v.natAbs ≠ 2 ^ k) → Q (-1) m) :
    wp env E (mp_int_is_pow2 z) Q m := by
  unfold mp_int_is_pow2
  obtain ⟨s, r, g⟩ := h
  obtain ⟨C, hC, gC⟩ := g.get hz
  have hm := gC.natAbs
  refine s_isp2_rep r hC gC.norm (by omega) (fun k hk _ => hQ0 k (by omega)) (fun hh => hQ1 fun k => ?_)
  rw [hm]; exact hh k

theorem countBitsLoop_spec {Q : Nat → Mem → Prop} {f d k : Nat} (hd : d < 2 ^ f) (hk : k + f < 4294967296)
    (hQ : Q (k + Nat.size d) m) : wp env E (countBitsLoop (f + 1) d k) Q m := by
  induction f generalizing d k with
  | zero =>
    have : d = 0 := by omega
    subst this
    unfold countBitsLoop
    exact wp_if_neg (by simp) (wp_pure (by simpa using hQ))
  | succ f ih =>
    unfold countBitsLoop
    refine wp_ite (fun h0 => ?_) (fun h0 => ?_)
    · rw [Nat.shiftRight_one, show u32 (k + 1) = k + 1 by unfold u32; omega]
      refine ih (by rw [Nat.pow_succ] at hd; omega) (by omega) ?_
      have : Nat.size d = Nat.size (d / 2) + 1 := by
        have h1 := Nat.size_bit (b := d.bodd) (n := d.div2) (by rw [Nat.bit_bodd_div2]; exact h0)
        rw [Nat.bit_bodd_div2, Nat.div2_val] at h1
        exact h1
      rw [show k + 1 + Nat.size (d / 2) = k + Nat.size d by omega]; exact hQ
    · have : d = 0 := by omega
      subst this
      exact wp_pure (by simpa using hQ)

theorem mp_int_count_bits_spec {Q : Int → Mem → Prop} (h : R2 m σ) (hz : σ z = some v)
    (hQ0 : v = 0 → Q 1 m) (hQ1 : v ≠ 0 → Q (Nat.size v.natAbs) m) :
    wp env E (mp_int_count_bits z) Q m := by
  unfold mp_int_count_bits
  have h' := h
  obtain ⟨s, r, g⟩ := h'
  obtain ⟨C, hC, gC⟩ := g.get hz
  have hm := gC.natAbs
  have hn := gC.norm
  have hlen := (r.okl hC).2
  have hle := hn.le
  have hpos := hn.pos
  refine wp_bind (wp_USED r hC ?_)
  refine wp_bind (wp_DIGITS r hC ?_)
  have h0l : 0 < C.buf.length := by omega
  refine wp_bind (wp_rdz (i := 0) r hC (List.getElem?_eq_getElem h0l) ?_)
  have hzero : C.used = 1 ∧ C.buf[0] = 0 ↔ v = 0 := by
    rw [← Int.natAbs_eq_zero, hm]
    constructor
    · rintro ⟨h1, h2⟩
      rw [Cell.mag, h1]
      obtain ⟨x, l, e⟩ : ∃ x l, C.buf = x :: l := List.exists_cons_of_length_pos h0l
      rw [List.getElem_of_eq e] at h2
      simp only [List.getElem_cons_zero] at h2
      simp [e, h2, val_cons]
    · intro hz0
      have hu : C.used = 1 := by
        by_contra hne
        have := hn.mag_ge (by omega)
        have h3 := pow_pos' (C.used - 1)
        omega
      refine ⟨hu, ?_⟩
      rw [Cell.mag, hu] at hz0
      obtain ⟨x, l, e⟩ : ∃ x l, C.buf = x :: l := List.exists_cons_of_length_pos h0l
      rw [e] at hz0
      simp [val_cons] at hz0
      rw [List.getElem_of_eq e]; simpa using hz0
  refine wp_ite (fun hc => wp_pure (hQ0 (hzero.1 hc))) (fun hc => ?_)
  have hv : v ≠ 0 := fun hv => hc (hzero.2 hv)
  have hul : C.used - 1 < C.buf.length := by omega
  have hdt := (r.okd hC) _ (List.getElem_mem hul)
  rw [sub32_of_le hpos (by omega)]
  refine wp_bind (wp_rdz r hC (List.getElem?_eq_getElem hul) ?_)
  have e : u32 ((C.used - 1) * 32) = (C.used - 1) * 32 := by unfold u32; omega
  have hs : (C.used - 1) * 32 + Nat.size C.buf[C.used - 1] = Nat.size C.mag := by
    have h1 := val_take_succ C.buf (C.used - 1) hul
    rw [Nat.sub_add_cancel hpos] at h1
    have h2 : C.mag = val (C.buf.take (C.used - 1)) + 𝔹 ^ (C.used - 1) * C.buf[C.used - 1] := h1
    have h3 : val (C.buf.take (C.used - 1)) < 𝔹 ^ (C.used - 1) := by
      have := val_lt ((r.okd hC).take (C.used - 1))
      rwa [List.length_take, Nat.min_eq_left (by omega)] at this
    have h4 : C.buf[C.used - 1] ≠ 0 := by
      intro h4
      rw [h4, Nat.mul_zero, Nat.add_zero] at h2
      by_cases hu : C.used = 1
      · rw [hu] at h3 h2; simp at h3 h2; omega
      · exact hn.top (by omega) (by rw [List.getElem?_eq_getElem hul, h4])
    have h5 : 𝔹 ^ (C.used - 1) = 2 ^ ((C.used - 1) * 32) := by
      rw [show 𝔹 = 2 ^ 32 by norm_num, ← Nat.pow_mul, Nat.mul_comm]
    rw [h5] at h2 h3
    have h6 := Nat.lt_size_self C.buf[C.used - 1]
    have h7 : 1 ≤ Nat.size C.buf[C.used - 1] := Nat.size_pos.2 (by omega)
    have h8 : 2 ^ (Nat.size C.buf[C.used - 1] - 1) ≤ C.buf[C.used - 1] := Nat.lt_size.1 (by omega)
    generalize C.buf[C.used - 1] = d at *
    generalize val (C.buf.take (C.used - 1)) = lo at *
    generalize (C.used - 1) * 32 = p at *
    refine Nat.le_antisymm ?_ ?_
    · have : p + Nat.size d - 1 < Nat.size C.mag := by
        refine Nat.lt_size.2 ?_
        rw [h2, show p + d.size - 1 = p + (d.size - 1) by omega, Nat.pow_add]
        exact Nat.le_trans (Nat.mul_le_mul_left _ h8) (Nat.le_add_left _ _)
      omega
    · refine Nat.size_le.2 ?_
      rw [h2, Nat.pow_add]
      calc lo + 2 ^ p * d < 2 ^ p + 2 ^ p * d := by omega
        _ = 2 ^ p * (d + 1) := by ring
        _ ≤ _ := Nat.mul_le_mul_left _ h6
  refine wp_bind (countBitsLoop_spec (f := 32) hdt (by rw [e]; omega) (wp_pure ?_))
  have hb : Nat.size C.buf[C.used - 1] ≤ 32 := Nat.size_le.2 hdt
  rw [e, hs]
  have := hQ1 hv
  rw [hm] at this
  have hsm : toInt32 (Nat.size C.mag) = (Nat.size C.mag : Int) := by
    unfold toInt32 u32
    rw [if_pos (by omega)]; omega
  rw [hsm]; exact this

end Imath
