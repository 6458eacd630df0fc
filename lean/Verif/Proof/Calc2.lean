import Verif.Proof.Calc
import Verif.Proof.ConvLen
import Mathlib.Tactic.LinearCombination
import Mathlib.RingTheory.Coprime.Lemmas

/-! # The commands of the calculator: operands of type `long`, the extended algorithm and the stack -/

namespace Imath

variable {env : Env} {E : Fault → Prop} {m : Mem} {s : Id → Option Cell} {σ σ0 σ' : Id → Option Int} {a b c : Id} {x y w v : Int}
  {S K : List (Id × Int)} {V : List (Bytes × Id × Int)} {sp sp' : Calc} {Q : Int × Calc → Mem → Prop}
  {L : Lib}

/-! ### Conversion to `long` -/

theorem shl_aux {u d : Nat} (h : u * 4294967296 < 9223372036854775808) (hd : d < 4294967296) :
    u * 4294967296 + d < 9223372036854775808 := by
  have h1 : u < 2147483648 := Nat.lt_of_mul_lt_mul_right (a := 4294967296) (lt_of_lt_of_eq h (by norm_num))
  calc u * 4294967296 + d < u * 4294967296 + 4294967296 := Nat.add_lt_add_left hd _
    _ = (u + 1) * 4294967296 := by ring
    _ ≤ 2147483648 * 4294967296 := Nat.mul_le_mul_right _ h1
    _ = 9223372036854775808 := by norm_num

theorem toIntLoop_fault {Q : Nat → Mem → Prop} {n uv : Nat} {p : Ptr} {xs : List Nat} (hE : E .ub) (hx : At m p xs)
    (hl : n ≤ xs.length) (hd : Dig xs) (hu : uv < 9223372036854775808)
    (hge : 9223372036854775808 ≤ val (xs.take n) + 𝔹 ^ n * uv) : wp env E (toIntLoop p n uv) Q m := by
  induction n generalizing uv with
  | zero => simp at hge; omega
  | succ n ih =>
    unfold toIntLoop
    have hn : n < xs.length := by omega
    have hdn : xs[n] < 𝔹 := hd _ (List.getElem_mem hn)
    have e : val (xs.take (n + 1)) + 𝔹 ^ (n + 1) * uv = val (xs.take n) + 𝔹 ^ n * (uv * 𝔹 + xs[n]) := by
      rw [val_take_succ xs n hn, Nat.pow_succ, Nat.mul_add, Nat.mul_assoc, Nat.mul_comm 𝔹 uv]; omega
    rw [e] at hge
    by_cases hb1 : uv * 65536 < 9223372036854775808
    · refine wp_bind (shl16S_spec hb1 ?_)
      by_cases hb2 : uv * 65536 * 65536 < 9223372036854775808
      · refine wp_bind (shl16S_spec hb2 ?_)
        refine wp_bind (wp_rd (hx.get hn) ?_)
        have hb3 : uv * 𝔹 < 9223372036854775808 := by rw [Nat.mul_assoc] at hb2; exact hb2
        rw [Nat.mul_assoc, show 65536 * 65536 = 𝔹 from rfl, or_of_mul hdn]
        exact ih (by omega) (shl_aux hb3 hdn) hge
      · exact wp_bind (wp_fault (f := .ub) (by unfold shl16S; rw [if_neg hb2]; rfl) hE)
    · exact wp_bind (wp_fault (f := .ub) (by unfold shl16S; rw [if_neg hb1]; rfl) hE)

/-- The most negative value cannot be converted: the shift overflows. -/
theorem mp_int_to_int_fault {Q : Int × Option Int → Mem → Prop} (hE : E .ub) (h : R2 m σ) (hz : σ a = some SMALL_MIN) :
    wp env E (mp_int_to_int a) Q m := by
  unfold mp_int_to_int
  refine wp_bind (MP_SIGN_spec h hz ?_)
  refine wp_bind (wp_cif (fun hs => absurd hs (by decide)) fun hs => wp_pure ?_)
  refine wp_ite (fun hc => absurd hc (by decide)) fun hc => ?_
  refine wp_bind (mp_int_compare_value_spec (by norm_num) (by norm_num) h hz fun m2 h2 => ?_)
  refine wp_ite (fun hc => absurd (cmpZ_neg.1 hc) (lt_irrefl _)) fun hc => ?_
  obtain ⟨s, r, g⟩ := h2
  obtain ⟨C, hC, gC⟩ := g.get hz
  have hm := gC.natAbs
  refine wp_bind (wp_USED r hC ?_)
  refine wp_bind (wp_DIGITS r hC ?_)
  have e : val (C.buf.take C.used) + 𝔹 ^ C.used * 0 = C.mag := by simp [Cell.mag]
  refine wp_bind (toIntLoop_fault hE (r.at hC) gC.norm.le (r.okd hC) (by norm_num) ?_)
  rw [e, ← hm]
  decide

theorem small_spec {k : Int × Option Int → M (Int × Calc)} {K : Act} (h : R2 m σ) (g : CR σ0 S V sp σ) (hv : σ a = some v)
    (hk : k (MP_RANGE, none) = pure (MP_RANGE, sp))
    (hQ : ActOK E σ0 sp Q (small (absA S V sp) v K))
    (hK : SMALL_MIN < v → v ≤ SMALL_MAX → ActOK E σ0 sp Q K → ∀ m', R2 m' σ → wp env E (k (MP_OK, some v)) Q m') :
    wp env E (mp_int_to_int a >>= k) Q m := by
  unfold small at hQ
  by_cases h1 : v = -2 ^ 63
  · rw [if_pos h1] at hQ
    exact wp_bind (mp_int_to_int_fault hQ h (by rw [hv, h1]; rfl))
  · rw [if_neg h1] at hQ
    norm_num at h1 hQ
    refine wp_bind (mp_int_to_int_spec h hv (by simpa using h1) (fun h2 m1 r1 => ?_) fun h2 h3 m1 r1 => ?_)
    · rw [hk]
      rw [if_pos (by omega)] at hQ
      exact wp_pure (hQ.fin r1 g rfl (by simp) rfl)
    · rw [if_neg (by omega)] at hQ
      exact hK h2 h3 hQ m1 r1

/-- An act that yields another code with the calculator as it is. -/
theorem ActOK.same {code : Int} (hQ : ActOK E σ0 sp Q (.ok code (absA S V sp) [])) (h : R2 m σ) (g : CR σ0 S V sp σ) : Q (code, sp) m :=
  hQ.fin h g rfl (by simp) rfl

theorem cf_expt_spec (hE : Ref env E) (h : R2 m σ) (g : CR σ0 ((b, y) :: (a, x) :: S) V sp σ)
    (hQ : ActOK E σ0 sp Q (Cmd.act L .expt (absA ((b, y) :: (a, x) :: S) V sp))) : wp env E (cf_expt sp) Q m := by
  unfold cf_expt
  refine wp_bind (elt_spec g rfl (wp_bind (elt_spec g rfl (small_spec h g g.get0 rfl hQ fun h1 h2 hQ m1 r1 => ?_))))
  refine wp_if_neg (by decide) (wp_bind (popped_spec r1 g fun m2 r2 => ?_))
  have g2 := g.pop
  refine wp_bind (mp_int_expt_spec hE r2 g2.get0 g2.get0 g2.ow0 (fun hk => wp_pure ?_) fun hk m3 r3 => wp_pure ?_)
  · rw [Option.getD_some] at hk
    rw [if_pos hk] at hQ
    exact hQ.fin r2 g2 rfl (by simp) rfl
  · rw [Option.getD_some] at hk r3
    rw [if_neg (by omega)] at hQ
    exact hQ.fin r3 (g2.set0 _) rfl (by simp) rfl

theorem cf_root_spec (hE : Ref env E) (h : R2 m σ) (g : CR σ0 ((b, y) :: (a, x) :: S) V sp σ)
    (hQ : ActOK E σ0 sp Q (Cmd.act L .root (absA ((b, y) :: (a, x) :: S) V sp))) : wp env E (cf_root sp) Q m := by
  unfold cf_root
  refine wp_bind (elt_spec g rfl (wp_bind (elt_spec g rfl (small_spec h g g.get0 rfl hQ fun h1 h2 hQ m1 r1 => ?_))))
  refine wp_if_neg (by decide) (wp_bind (popped_spec r1 g fun m2 r2 => ?_))
  have g2 := g.pop
  rw [Option.getD_some]
  by_cases hy : y ≤ 0
  · rw [if_pos hy] at hQ
    refine wp_bind ?_
    unfold mp_int_root
    refine wp_bind (wp_fault (f := .assert) ?_ hQ)
    unfold cassert
    simp [not_lt.2 hy]
    rfl
  · rw [if_neg hy] at hQ
    obtain ⟨D, rfl⟩ : ∃ D : Nat, y = D := ⟨y.toNat, by omega⟩
    obtain ⟨B, hB⟩ : ∃ B : Nat, D % 2 ^ 32 = B := ⟨_, rfl⟩
    have hB' : (D : Int) % 2 ^ 32 = B := by omega
    rw [hB', Int.toNat_natCast] at hQ
    · refine wp_bind (mp_int_root_gen (D := D) (B := B) hE r2 g2.get0 g2.get0 g2.ow0 (by omega) (by omega) hB ?_ ?_ ?_ ?_)
      · intro hx hB
        rw [if_pos ⟨hx, by omega⟩] at hQ
        exact wp_pure (hQ.fin r2 g2 rfl (by simp) rfl)
      · intro e0 hx m3 r3
        rw [if_neg (by omega), if_pos (by omega), if_pos hx] at hQ
        exact wp_pure (hQ.fin r3 g2 rfl (by simp) rfl)
      · intro e0 hx m3 r3
        rw [if_neg (by omega), if_pos (by omega), if_neg (by omega)] at hQ
        exact wp_pure (hQ.fin r3 (g2.set0 _) rfl (by simp) rfl)
      · intro hx hB0 r k1 k2 m3 r3
        rw [if_neg (fun e => hx ⟨e.1, by omega⟩), if_neg (by omega), floorRoot_eq (by omega) k1 k2] at hQ
        have e : x.sign * (r : Int) = if x < 0 then -(r : Int) else r := by
          rcases lt_trichotomy x 0 with k | k | k
          · rw [if_pos k, Int.sign_eq_neg_one_of_neg k]; ring
          · subst k
            have : r = 0 := by
              by_contra h0
              have : 1 ≤ r ^ B := Nat.one_le_pow _ _ (by omega)
              simp at k1; omega
            simp [this]
          · rw [if_neg (by omega), Int.sign_eq_one_of_pos k]; ring
        rw [e] at hQ
        exact wp_pure (hQ.fin r3 (g2.set0 _) rfl (by simp) rfl)

theorem cf_exptmod_spec {d : Int} {md : Id} (hE : Ref env E) (h : R2 m σ) (g : CR σ0 ((md, d) :: (b, y) :: (a, x) :: S) V sp σ)
    (hQ : ActOK E σ0 sp Q (Cmd.act L .emod (absA ((md, d) :: (b, y) :: (a, x) :: S) V sp))) : wp env E (cf_exptmod sp) Q m := by
  unfold cf_exptmod
  refine wp_bind (elt_spec g rfl (wp_bind (elt_spec g rfl (wp_bind (elt_spec g rfl (wp_bind ?_))))))
  by_cases hd : d = 0
  · have e : Cmd.act L .emod (absA ((md, d) :: (b, y) :: (a, x) :: S) V sp) = .ok MP_UNDEF (absA ((md, d) :: (b, y) :: (a, x) :: S) V sp) [] := by
      simp [Cmd.act, absA, hd]
    rw [e] at hQ
    unfold mp_int_exptmod
    refine wp_bind (CMPZ_spec h g.get0 (wp_if_pos (by rw [hd]; rfl) (wp_pure ?_)))
    exact wp_bind (wp_cif (fun e => absurd e (by decide)) fun _ => wp_pure (wp_pure (hQ.same h g)))
  by_cases hy : y < 0
  · have e : Cmd.act L .emod (absA ((md, d) :: (b, y) :: (a, x) :: S) V sp) = .ok MP_RANGE (absA ((md, d) :: (b, y) :: (a, x) :: S) V sp) [] := by
      simp [Cmd.act, absA, hd, hy]
    rw [e] at hQ
    unfold mp_int_exptmod
    refine wp_bind (CMPZ_spec h g.get0 (wp_if_neg (by rwa [Int.sign_eq_zero_iff_zero]) ?_))
    refine wp_bind (CMPZ_spec h g.get1 (wp_if_pos (Int.sign_neg_iff.2 hy) (wp_pure ?_)))
    exact wp_bind (wp_cif (fun e => absurd e (by decide)) fun _ => wp_pure (wp_pure (hQ.same h g)))
  by_cases hd2 : d < 0
  · have e : Cmd.act L .emod (absA ((md, d) :: (b, y) :: (a, x) :: S) V sp) =
        .ok MP_OK { absA ((md, d) :: (b, y) :: (a, x) :: S) V sp with stack := (negResult x y.toNat d : Int) :: S.map Prod.snd } [] := by
      simp [Cmd.act, absA, hd, hy, hd2]
    rw [e] at hQ
    refine mp_int_exptmod_neg hE h g.get2 g.get1 g.get0 g.get2 g.ow2 hd2 (by omega) fun m1 h1 => ?_
    refine wp_bind (wp_cif (fun _ => wp_bind (popped_spec h1 (g.set2 _) fun m2 h2 => popped_spec h2 (g.set2 _).pop fun m3 h3 => ?_)) fun e => absurd rfl e)
    exact wp_pure (hQ.fin h3 (g.set2 _).pop.pop rfl (by simp) rfl)
  have e : Cmd.act L .emod (absA ((md, d) :: (b, y) :: (a, x) :: S) V sp) =
      .ok MP_OK { absA ((md, d) :: (b, y) :: (a, x) :: S) V sp with
        stack := (if y = 0 ∧ d = 1 then 1 else x ^ y.toNat % d) :: S.map Prod.snd } [] := by
    simp only [Cmd.act, absA, List.map_cons, if_neg hd, if_neg hy, if_neg hd2]
    split <;> rfl
  rw [e] at hQ
  refine mp_int_exptmod_spec hE h g.get2 g.get1 g.get0 g.get2 g.ow2 (by omega) (fun k => absurd k hy) fun _ m1 h1 => ?_
  refine wp_bind (wp_cif (fun _ => wp_bind (popped_spec h1 (g.set2 _) fun m2 h2 => popped_spec h2 (g.set2 _).pop fun m3 h3 => ?_)) fun e => absurd rfl e)
  exact wp_pure (hQ.fin h3 (g.set2 _).pop.pop rfl (by simp) rfl)

theorem invOf_eq {P R : Int} (hx : x ≠ 0) (hy : 0 < y) (hg : Int.gcd x y = 1) (h : P * |x| + R * y = 1) :
    (if x < 0 then y - P % y else P % y) = invOf x y := by
  have hb := Int.gcd_eq_gcd_ab x y
  rw [hg] at hb
  have key : ∀ u : Int, y ∣ (u * x - 1) → u % y = Int.gcdA x y % y := by
    intro u hu
    have h1 : y ∣ (u - Int.gcdA x y) * x := by
      have : (u - Int.gcdA x y) * x = (u * x - 1) + y * Int.gcdB x y := by push_cast at hb; linear_combination hb
      rw [this]; exact dvd_add hu (dvd_mul_right _ _)
    have h2 : IsCoprime y x := by rw [isCoprime_comm]; exact Int.isCoprime_iff_gcd_eq_one.2 hg
    exact Int.emod_eq_emod_iff_emod_sub_eq_zero.2 (Int.emod_eq_zero_of_dvd (h2.dvd_of_dvd_mul_right h1))
  unfold invOf
  by_cases hneg : x < 0
  · rw [if_pos hneg]
    rw [abs_of_neg hneg] at h
    by_cases h1 : y = 1
    · subst h1; simp [hneg, Int.emod_one]
    · rw [if_neg (fun e => h1 e.1), ← key (-P) ⟨-R, by linear_combination h⟩]
      have h0 : P % y ≠ 0 := by
        intro e
        obtain ⟨q, hq⟩ := Int.dvd_of_emod_eq_zero e
        have : y ∣ 1 := ⟨-(q * x) + R, by rw [← h, hq]; ring⟩
        have := Int.eq_one_of_dvd_one hy.le this
        exact h1 this
      have h2 := Int.emod_lt_of_pos P hy
      have h3 := Int.emod_nonneg P hy.ne'
      have : (-P) % y = (y - P % y) % y := by
        rw [Int.emod_eq_emod_iff_emod_sub_eq_zero]
        refine Int.emod_eq_zero_of_dvd ⟨-(P / y) - 1, ?_⟩
        have := Int.mul_ediv_add_emod P y
        linear_combination this
      rw [this, Int.emod_eq_of_lt (a := y - P % y) (by omega) (by omega)]
  · rw [if_neg hneg, if_neg (fun e => hneg e.2)]
    rw [abs_of_nonneg (by omega)] at h
    exact key P ⟨-R, by linear_combination h⟩

theorem cf_invmod_spec (hE : Ref env E) (h : R2 m σ) (g : CR σ0 ((b, y) :: (a, x) :: S) V sp σ)
    (hQ : ActOK E σ0 sp Q (Cmd.act L .inv (absA ((b, y) :: (a, x) :: S) V sp))) : wp env E (cf_invmod sp) Q m := by
  unfold cf_invmod
  refine wp_bind (elt_spec g rfl (wp_bind (elt_spec g rfl (wp_bind (mp_int_invmod_spec hE h g.get1 g.get0 g.get1 g.ow1 ?_ ?_ ?_)))))
  · intro hxy
    have e : Cmd.act L .inv (absA ((b, y) :: (a, x) :: S) V sp) = .ok MP_RANGE { absA ((b, y) :: (a, x) :: S) V sp with stack := x :: S.map Prod.snd } [] := by
      simp only [Cmd.act, absA, List.map_cons, if_pos hxy]
    rw [e] at hQ
    exact wp_bind (popped_spec h g fun m2 h2 => wp_pure (hQ.fin h2 g.pop rfl (by simp) rfl))
  · intro hx hy hg m1 h1
    have e : Cmd.act L .inv (absA ((b, y) :: (a, x) :: S) V sp) = .ok MP_UNDEF { absA ((b, y) :: (a, x) :: S) V sp with stack := x :: S.map Prod.snd } [] := by
      simp only [Cmd.act, absA, List.map_cons]
      rw [if_neg (by omega), if_pos hg]
    rw [e] at hQ
    exact wp_bind (popped_spec h1 g fun m2 h2 => wp_pure (hQ.fin h2 g.pop rfl (by simp) rfl))
  · intro P R hx hy hg hPR m1 h1
    have e : Cmd.act L .inv (absA ((b, y) :: (a, x) :: S) V sp) = .ok MP_OK { absA ((b, y) :: (a, x) :: S) V sp with stack := invOf x y :: S.map Prod.snd } [] := by
      simp only [Cmd.act, absA, List.map_cons]
      rw [if_neg (by omega), if_neg (by simp [hg])]
    rw [e] at hQ
    rw [invOf_eq hx hy hg hPR] at h1
    exact wp_bind (popped_spec h1 (g.set1 _) fun m2 h2 => wp_pure (hQ.fin h2 (g.set1 _).pop rfl (by simp) rfl))

/-! ### The extended algorithm -/

open Classical in
/-- The coefficients that `mp_int_egcd` finds. -/
noncomputable def bezOf (x y : Int) : Int × Int :=
  if h : ∃ p : Int × Int, EgcdOut x y p.1 p.2 ∧ (Int.gcd x y : Int) = p.1 * |x| + p.2 * |y| then Classical.choose h
  else (x.sign * Int.gcdA x y, y.sign * Int.gcdB x y)

theorem bezOf_bezout : ∀ x y : Int, x ≠ 0 → y ≠ 0 → (Int.gcd x y : Int) = (bezOf x y).1 * |x| + (bezOf x y).2 * |y| := by
  intro x y hx hy
  unfold bezOf
  split
  · next h => exact (Classical.choose_spec h).2
  · dsimp only
    have h1 : x.sign * |x| = x := Int.sign_mul_abs x
    have h2 : y.sign * |y| = y := Int.sign_mul_abs y
    rw [Int.gcd_eq_gcd_ab]
    linear_combination (-(Int.gcdA x y)) * h1 - (Int.gcdB x y) * h2

theorem bezOf_eq {P R : Int} (h : EgcdOut x y P R) (hg : (Int.gcd x y : Int) = P * |x| + R * |y|) : bezOf x y = (P, R) := by
  have hex : ∃ p : Int × Int, EgcdOut x y p.1 p.2 ∧ (Int.gcd x y : Int) = p.1 * |x| + p.2 * |y| := ⟨(P, R), h, hg⟩
  unfold bezOf
  rw [dif_pos hex]
  have := (Classical.choose_spec hex).1.det h
  exact Prod.ext this.1 this.2

/-- What the library computes. -/
noncomputable def libOf (env : Env) : Lib := ⟨bezOf, fun r v => outLen env.fl r v + 1 + if v < 0 then 1 else 0⟩

theorem cf_xgcd_spec (hE : Ref env E) (h : R2 m σ) (g : CR σ0 ((b, y) :: (a, x) :: S) V sp σ)
    (hQ : ActOK E σ0 sp Q (Cmd.act (libOf env) .xgcd (absA ((b, y) :: (a, x) :: S) V sp))) : wp env E (cf_xgcd sp) Q m := by
  unfold cf_xgcd
  refine wp_bind (elt_spec g rfl (wp_bind (elt_spec g rfl (wp_bind (mp_int_alloc_spec hE h fun t m1 ht hto htv h1 => wp_bind ?_)))))
  have g1 : ∀ al, sp.elts.length < al → CR σ0 ((t, 0) :: (b, y) :: (a, x) :: S) V { sp with elts := t :: sp.elts, alloc := al } (upd σ t (some 0)) :=
    fun al hal => g.push ht hto htv 0 hal
  have gg := g1 _ (Nat.lt_succ_self _)
  have ab := g.ne01
  have bt : b ≠ t := by rintro rfl; rw [g.get0] at ht; simp at ht
  have at' : a ≠ t := by rintro rfl; rw [g.get1] at ht; simp at ht
  have fin : ∀ P R G : Int, Cmd.act (libOf env) .xgcd (absA ((b, y) :: (a, x) :: S) V sp) =
      .ok MP_OK { absA ((b, y) :: (a, x) :: S) V sp with stack := R :: P :: G :: S.map Prod.snd } [] →
      ∀ m', R2 m' (egcdPut (upd σ t (some 0)) (some b) (some t) a P R G) →
      wp env E (if MP_OK ≠ MP_OK then do mp_int_free t; pure (MP_OK, sp) else stack_push sp t) Q m' := by
    intro P R G e m2 h2
    rw [e] at hQ
    refine wp_if_neg (by decide) (stack_push_spec hE h2 g t fun al m3 hal h3 => ?_)
    exact hQ.fin h3 ((((g1 al hal).set1 P).set0 R).set2 G) rfl (by simp) rfl
  by_cases hx : x = 0
  · by_cases hy : y = 0
    · have e : Cmd.act (libOf env) .xgcd (absA ((b, y) :: (a, x) :: S) V sp) = .ok MP_UNDEF (absA ((b, y) :: (a, x) :: S) V sp) [] := by
        simp [Cmd.act, absA, hx, hy]
      rw [e] at hQ
      refine mp_int_egcd_00 h1 (by rw [gg.get2, hx]) (by rw [gg.get1, hy]) (.inl (by simp)) ?_
      refine wp_if_pos (by decide) (wp_bind (mp_int_free_spec h1 gg.get0 hto htv fun m2 h2 _ => wp_pure ?_))
      rw [upd_upd, upd_same _ ht] at h2
      exact hQ.same h2 g
    · refine mp_int_egcd_left0 hE h1 (by rw [gg.get2, hx]) gg.get1 hy gg.get1 gg.get0 hto gg.get2 gg.ow2 ab at' bt fun m2 h2 => ?_
      exact fin _ _ _ (by simp [Cmd.act, absA, hx, hy]) m2 h2
  · by_cases hy : y = 0
    · refine mp_int_egcd_right0 hE h1 gg.get2 (by rw [gg.get1, hy]) hx gg.get1 gg.get0 gg.ow1 gg.get2 gg.ow2 ab at' bt fun m2 h2 => ?_
      exact fin _ _ _ (by simp [Cmd.act, absA, hx, hy]) m2 h2
    · refine mp_int_egcd_nz hE h1 gg.get2 gg.get1 hx hy (.inl (by simp)) (by rintro z ⟨⟩; exact ⟨⟨_, gg.get1⟩, gg.ow1⟩)
        (by rintro z ⟨⟩; exact ⟨⟨_, gg.get0⟩, hto⟩) gg.get2 gg.ow2 fun P R hg ho m2 h2 => ?_
      exact fin _ _ _ (by simp [Cmd.act, absA, hx, hy, libOf, bezOf_eq ho hg]) m2 h2

/-! ### The stack -/

theorem cf_pop_spec (h : R2 m σ) (g : CR σ0 ((a, x) :: S) V sp σ)
    (hQ : ActOK E σ0 sp Q (Cmd.act L .drop (absA ((a, x) :: S) V sp))) : wp env E (cf_pop sp) Q m := by
  unfold cf_pop stack_pop
  rw [g.elts]
  simp only [List.map_cons]
  exact wp_bind (mp_int_clear_tmp h g.get0 g.ow0 g.tm0 fun m1 h1 => wp_pure (hQ.fin h1 g.pop rfl (by simp) rfl))

theorem cf_clstk_spec (h : R2 m σ) (g : CR σ0 S V sp σ)
    (hQ : ActOK E σ0 sp Q (Cmd.act L .cls (absA S V sp))) : wp env E (cf_clstk sp) Q m := by
  unfold cf_clstk stack_flush
  rw [g.elts, ← List.map_reverse]
  have g1 : Own σ0 (S.reverse ++ V.map Prod.snd) σ := g.own.perm ((List.reverse_perm S).symm.append_right _)
  refine wp_bind (wp_bind (clearAll_spec h g1 fun m1 σ1 h1 g2 => wp_pure (wp_pure ?_)))
  have hQ : ActOK E σ0 sp Q (.ok MP_OK { absA S V sp with stack := [] } []) := by
    simpa only [Cmd.act] using hQ
  exact hQ.fin h1 (g.of_own (K := []) (Nat.zero_le _) g2) rfl (by simp) rfl

theorem cf_cmem_spec (h : R2 m σ) (g : CR σ0 S V sp σ)
    (hQ : ActOK E σ0 sp Q (Cmd.act L .clm (absA S V sp))) : wp env E (cf_cmem sp) Q m := by
  unfold cf_cmem mem_clear
  have e : sp.mem.map Prod.snd = (V.map Prod.snd).map Prod.fst := by rw [g.mem]; simp
  rw [e]
  have g1 : Own σ0 (V.map Prod.snd ++ S) σ := g.own.perm List.perm_append_comm
  refine wp_bind (freeAll_spec h g1 fun m1 σ1 h1 g2 => wp_pure ?_)
  have hQ : ActOK E σ0 sp Q (.ok MP_OK { absA S V sp with vars := [] } []) := by
    simpa only [Cmd.act] using hQ
  exact hQ.fin (V := []) h1 ⟨g.elts, rfl, g.radix, g.buf, ⟨g.len.1, g.len.2.1, Nat.zero_le _, g.len.2.2.2⟩, by simpa using g2⟩ rfl (by simp) rfl

/-- A copy of an element is pushed. -/
theorem push_copy_spec {k : Int × Calc → M (Int × Calc)} (hE : Ref env E) (h : R2 m σ) (g : CR σ0 S V sp σ) (ha : (a, x) ∈ S)
    (hk : ∀ t al m' σ', R2 m' σ' → CR σ0 ((t, x) :: S) V { sp with elts := t :: sp.elts, alloc := al } σ' →
      wp env E (k (MP_OK, { sp with elts := t :: sp.elts, alloc := al })) Q m') :
    wp env E (do
      let cp ← mp_int_alloc
      let res ← mp_int_copy a cp
      if res ≠ MP_OK then do
        mp_int_free cp
        pure (res, sp)
      else stack_push sp cp >>= k) Q m := by
  refine wp_bind (mp_int_alloc_spec hE h fun t m1 ht hto htv h1 => ?_)
  have hs : σ a = some x := g.own.get (by simp [ha])
  have at' : a ≠ t := by rintro rfl; rw [hs] at ht; simp at ht
  refine wp_bind (mp_int_copy_spec hE h1 (x := x) (by rw [upd_ne _ _ at']; exact hs) (upd_self _ _ _) hto fun m2 h2 => ?_)
  refine wp_if_neg (by decide) (wp_bind (stack_push_spec hE h2 g t fun al m3 hal h3 => ?_))
  rw [upd_upd] at h3
  exact hk t al m3 _ h3 (g.push ht hto htv x hal)

theorem cf_dup_spec (hE : Ref env E) (h : R2 m σ) (g : CR σ0 ((a, x) :: S) V sp σ)
    (hQ : ActOK E σ0 sp Q (Cmd.act L .dup (absA ((a, x) :: S) V sp))) : wp env E (cf_dup sp) Q m := by
  unfold cf_dup
  refine wp_bind (mp_int_alloc_spec hE h fun t m1 ht hto htv h1 => ?_)
  have at' : a ≠ t := by rintro rfl; rw [g.get0] at ht; simp at ht
  refine wp_bind (elt_spec g rfl (wp_bind (mp_int_copy_spec hE h1 (x := x) (by rw [upd_ne _ _ at']; exact g.get0) (upd_self _ _ _) hto fun m2 h2 => ?_)))
  refine wp_if_neg (by decide) (stack_push_spec hE h2 g t fun al m3 hal h3 => ?_)
  rw [upd_upd] at h3
  exact hQ.fin h3 (g.push ht hto htv x hal) rfl (by simp) rfl

theorem cf_swap_spec (h : R2 m σ) (g : CR σ0 ((b, y) :: (a, x) :: S) V sp σ)
    (hQ : ActOK E σ0 sp Q (Cmd.act L .swap (absA ((b, y) :: (a, x) :: S) V sp))) : wp env E (cf_swap sp) Q m := by
  unfold cf_swap
  refine wp_bind (elt_spec g rfl (wp_bind (elt_spec g rfl (wp_pure ?_))))
  have := g.swap
  rw [g.elts]
  exact hQ.fin h this rfl (by simp) rfl

theorem cf_rot_spec (h : R2 m σ) {p q r : Id × Int} (g : CR σ0 (p :: q :: r :: S) V sp σ)
    (hQ : ActOK E σ0 sp Q (Cmd.act L .rot (absA (p :: q :: r :: S) V sp))) : wp env E (cf_rot sp) Q m := by
  unfold cf_rot
  refine wp_bind (elt_spec g rfl (wp_bind (elt_spec g rfl (wp_bind (elt_spec g rfl (wp_pure ?_))))))
  have := g.perm (S' := r :: p :: q :: S) (((List.Perm.swap r q S).cons p).trans (List.Perm.swap r p _))
  rw [g.elts]
  exact hQ.fin h this rfl (by simp) rfl

theorem cf_pick_spec (hE : Ref env E) (h : R2 m σ) (g : CR σ0 ((a, x) :: S) V sp σ)
    (hQ : ActOK E σ0 sp Q (Cmd.act L .pick (absA ((a, x) :: S) V sp))) : wp env E (cf_pick sp) Q m := by
  unfold cf_pick
  refine wp_bind (elt_spec g rfl (small_spec h g g.get0 rfl hQ fun h1 h2 hQ m1 r1 => ?_))
  have hl : (sp.elts.length : Int) - 1 = S.length := by rw [g.elts]; simp
  dsimp only
  rw [Option.getD_some, hl]
  rw [List.length_map] at hQ
  refine wp_if_neg (by decide) (wp_ite (fun hc => ?_) fun hc => ?_)
  · rw [if_pos hc] at hQ
    exact wp_pure (hQ.same r1 g)
  · rw [if_neg hc] at hQ
    have hn : x.toNat < S.length := by omega
    have e : ((a, x) :: S)[1 + x.toNat]? = some S[x.toNat] := by
      rw [Nat.add_comm, List.getElem?_cons_succ, List.getElem?_eq_getElem hn]
    refine wp_bind (elt_spec g e (wp_bind (mp_int_copy_spec hE r1 (g.own.get (z := S[x.toNat].1) (x := S[x.toNat].2) ?_) g.get0 g.ow0 fun m2 h2 => wp_pure ?_)))
    · simp
    · refine hQ.fin h2 (g.set0 _) ?_ (by simp) rfl
      simp [absA, hn]

theorem cf_setr_spec (h : R2 m σ) (g : CR σ0 ((a, x) :: S) V sp σ)
    (hQ : ActOK E σ0 sp Q (Cmd.act L .out (absA ((a, x) :: S) V sp))) : wp env E (cf_setr sp) Q m := by
  unfold cf_setr
  refine wp_bind (elt_spec g rfl (small_spec h g g.get0 rfl hQ fun h1 h2 hQ m1 r1 => ?_))
  dsimp only
  rw [Option.getD_some]
  refine wp_if_neg (by decide) (wp_ite (fun hc => ?_) fun hc => ?_)
  · rw [if_pos (by omega)] at hQ
    exact wp_pure (hQ.same r1 g)
  · rw [if_neg (by omega)] at hQ
    have g1 : CR σ0 ((a, x) :: S) V { sp with radix := x.toNat } σ := ⟨g.elts, g.mem, .inr ⟨by dsimp; omega, by dsimp; omega⟩, g.buf, g.len, g.own⟩
    refine wp_bind (popped_spec r1 g1 fun m2 r2 => wp_pure ?_)
    exact hQ.fin r2 g1.pop rfl (by simp) rfl

theorem cf_setbin_spec (h : R2 m σ) (g : CR σ0 S V sp σ)
    (hQ : ActOK E σ0 sp Q (Cmd.act L .bin (absA S V sp))) : wp env E (cf_setbin sp) Q m := by
  have hQ : ActOK E σ0 sp Q (.ok MP_OK { absA S V sp with radix := 0 } []) := by simpa only [Cmd.act] using hQ
  exact wp_pure (hQ.fin h ⟨g.elts, g.mem, .inl rfl, g.buf, g.len, g.own⟩ rfl (by simp) rfl)

theorem cf_help_spec (h : R2 m σ) (g : CR σ0 S V sp σ)
    (hQ : ActOK E σ0 sp Q (Cmd.act L .help (absA S V sp))) : wp env E (cf_help sp) Q m := by
  have hQ : ActOK E σ0 sp Q (.ok MP_OK (absA S V sp) []) := by simpa only [Cmd.act] using hQ
  exact wp_pure (hQ.same h g)

/-- The elements `S[n-1]`, …, `S[n-k]` are pushed; the stack is `T ++ S` with `k` elements of `T` still to come. -/
theorem dupLoop_spec {n : Nat} {T : List (Id × Int)} (hE : Ref env E) (k : Nat) (hk : k ≤ n) (hn : n ≤ S.length) (h : R2 m σ)
    (g : CR σ0 (T ++ S) V sp σ) (hT : T.map Prod.snd = ((S.map Prod.snd).take n).drop k)
    (hQ : ∀ T' sp' m' σ', R2 m' σ' → CR σ0 (T' ++ S) V sp' σ' → T'.map Prod.snd = (S.map Prod.snd).take n → sp'.out = sp.out →
      sp'.inp = sp.inp → sp'.radix = sp.radix → Q (MP_OK, sp') m') :
    wp env E (dupLoop n k sp) Q m := by
  induction k generalizing T sp m σ with
  | zero => exact wp_pure (hQ T sp m σ h g (by simpa using hT) rfl rfl rfl)
  | succ k ih =>
    unfold dupLoop
    have hTl : T.length = n - (k + 1) := by
      have := congrArg List.length hT
      simp at this; omega
    have hk' : k < S.length := by omega
    have e : (T ++ S)[n - 1]? = some S[k] := by
      rw [List.getElem?_append_right (by omega), hTl, show n - 1 - (n - (k + 1)) = k by omega, List.getElem?_eq_getElem hk']
    refine wp_bind (elt_spec g e ?_)
    refine push_copy_spec (k := fun r => if r.1 ≠ MP_OK then pure r else dupLoop n k r.2) (a := S[k].1) (x := S[k].2) hE h g (by simp) ?_
    intro t al m1 σ1 h1 g1
    refine wp_if_neg (by simp) (ih (T := (t, S[k].2) :: T) (by omega) h1 g1 ?_ hQ)
    rw [List.map_cons, hT]
    symm
    rw [List.drop_eq_getElem_cons (by simp; omega)]
    simp

theorem cf_copy_spec (hE : Ref env E) (h : R2 m σ) (g : CR σ0 ((a, x) :: S) V sp σ)
    (hQ : ActOK E σ0 sp Q (Cmd.act L .copy (absA ((a, x) :: S) V sp))) : wp env E (cf_copy sp) Q m := by
  unfold cf_copy
  refine wp_bind (elt_spec g rfl (small_spec h g g.get0 rfl hQ fun h1 h2 hQ m1 r1 => ?_))
  have hl : (sp.elts.length : Int) = S.length + 1 := by rw [g.elts]; simp
  dsimp only
  rw [Option.getD_some, hl]
  rw [List.length_map] at hQ
  refine wp_if_neg (by decide) (wp_ite (fun hc => ?_) fun hc => ?_)
  · rw [if_pos (by omega)] at hQ
    exact wp_pure (hQ.same r1 g)
  · rw [if_neg (by omega)] at hQ
    refine wp_bind (popped_spec r1 g fun m2 r2 => ?_)
    refine dupLoop_spec (T := []) hE x.toNat le_rfl (by omega) r2 g.pop (by simp) fun T sp' m' σ' h' g' e1 e2 e3 e4 => ?_
    refine hQ.fin h' g' ?_ (by rw [e2]; simp) e3
    simp only [absA, List.map_append, e1, e4]

end Imath
