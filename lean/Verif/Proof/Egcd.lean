import Verif.Proof.Gcd

/-! # Extended greatest common divisors and modular inverses -/

namespace Imath

variable {env : Env} {E : Fault → Prop} {m : Mem} {s : Id → Option Cell} {σ σ' : Id → Option Int}
  {z a b c : Id} {x y w v : Int} {T : Nat → Id} {V : Nat → Int}

/-- `σ` with three variables set. -/
def upd3 (σ : Id → Option Int) (u x y : Id) (n A B : Int) : Id → Option Int :=
  upd (upd (upd σ u (some n)) x (some A)) y (some B)

theorem upd3_self {u x y : Id} {n A B : Int} (hu : σ u = some n) (hx : σ x = some A) (hy : σ y = some B) :
    upd3 σ u x y n A B = σ := by
  funext z; simp only [upd3, upd]; (repeat' split) <;> simp_all

/-- The parity argument of the halving loops. -/
theorem egcd_even {A B U W n : Int} (h : A * U + B * W = 2 * n) (hUW : ¬ (U % 2 = 0 ∧ W % 2 = 0))
    (hAB : A % 2 ≠ 0 ∨ B % 2 ≠ 0) : (A + W) % 2 = 0 ∧ (B - U) % 2 = 0 := by
  have h1 : (A * U + B * W) % 2 = 0 := by omega
  rw [Int.add_emod, Int.mul_emod A, Int.mul_emod B] at h1
  rcases Int.emod_two_eq_zero_or_one A with hA | hA <;> rcases Int.emod_two_eq_zero_or_one B with hB | hB <;>
    rcases Int.emod_two_eq_zero_or_one U with hU | hU <;> rcases Int.emod_two_eq_zero_or_one W with hW | hW <;>
    rw [hA, hB, hU, hW] at h1 <;> omega

theorem s_qdiv_one {Q : Unit → Mem → Prop} (h : R2 m σ) (hz : σ z = some v) (hv : v % 2 = 0)
    (hQ : ∀ m', R2 m' (upd σ z (some (v / 2))) → Q () m') : wp env E (s_qdiv z 1) Q m := by
  refine s_qdiv_spec h hz fun m' h' => hQ m' ?_
  rw [sval_tdiv_pow, pow_one, Int.tdiv_eq_ediv_of_dvd (by omega)] at h'
  exact h'

/-- The course of one of the halving loops. -/
inductive Halve (U W : Int) : Int → Int → Int → Int → Int → Int → Prop
  | stop {n A B : Int} : n % 2 = 1 → Halve U W n A B n A B
  | plain {n A B n' A' B' : Int} : n % 2 = 0 → A % 2 = 0 → B % 2 = 0 → Halve U W (n / 2) (A / 2) (B / 2) n' A' B' →
      Halve U W n A B n' A' B'
  | shift {n A B n' A' B' : Int} : n % 2 = 0 → ¬ (A % 2 = 0 ∧ B % 2 = 0) →
      Halve U W (n / 2) ((A + W) / 2) ((B - U) / 2) n' A' B' → Halve U W n A B n' A' B'

theorem Halve.det {U W n A B n1 A1 B1 n2 A2 B2 : Int} (h : Halve U W n A B n1 A1 B1) (h' : Halve U W n A B n2 A2 B2) :
    n1 = n2 ∧ A1 = A2 ∧ B1 = B2 := by
  induction h with
  | stop h0 =>
    cases h' with
    | stop => exact ⟨rfl, rfl, rfl⟩
    | plain => omega
    | shift => omega
  | plain h0 hA hB _ ih =>
    cases h' with
    | stop => omega
    | plain _ _ _ h => exact ih h
    | shift _ hn => exact absurd ⟨hA, hB⟩ hn
  | shift h0 hn _ ih =>
    cases h' with
    | stop => omega
    | plain _ hA hB => exact absurd ⟨hA, hB⟩ hn
    | shift _ _ h => exact ih h

/-- The course of the main loop of `mp_int_egcd`. -/
inductive EgcdRel (U W : Int) : Int → Int → Int → Int → Int → Int → Int → Int → Prop
  | last {A B C D u v n A1 B1 C1 D1 : Int} : Halve U W u A B n A1 B1 → Halve U W v C D n C1 D1 → EgcdRel U W A B C D u v C1 D1
  | left {A B C D u v n k A1 B1 C1 D1 P R : Int} : Halve U W u A B n A1 B1 → Halve U W v C D k C1 D1 → k < n →
      EgcdRel U W (A1 - C1) (B1 - D1) C1 D1 (n - k) k P R → EgcdRel U W A B C D u v P R
  | right {A B C D u v n k A1 B1 C1 D1 P R : Int} : Halve U W u A B n A1 B1 → Halve U W v C D k C1 D1 → n < k →
      EgcdRel U W A1 B1 (C1 - A1) (D1 - B1) n (k - n) P R → EgcdRel U W A B C D u v P R

theorem EgcdRel.det {U W A B C D u v P R P' R' : Int} (h : EgcdRel U W A B C D u v P R) (h' : EgcdRel U W A B C D u v P' R') :
    P = P' ∧ R = R' := by
  induction h with
  | last h1 h2 =>
    cases h' with
    | last g1 g2 =>
      obtain ⟨rfl, rfl, rfl⟩ := h1.det g1
      obtain ⟨-, rfl, rfl⟩ := h2.det g2
      exact ⟨rfl, rfl⟩
    | left g1 g2 hlt =>
      obtain ⟨rfl, rfl, rfl⟩ := h1.det g1
      obtain ⟨rfl, rfl, rfl⟩ := h2.det g2
      omega
    | right g1 g2 hlt =>
      obtain ⟨rfl, rfl, rfl⟩ := h1.det g1
      obtain ⟨rfl, rfl, rfl⟩ := h2.det g2
      omega
  | left h1 h2 hlt _ ih =>
    cases h' with
    | last g1 g2 =>
      obtain ⟨rfl, rfl, rfl⟩ := h1.det g1
      obtain ⟨rfl, rfl, rfl⟩ := h2.det g2
      omega
    | left g1 g2 hlt g =>
      obtain ⟨rfl, rfl, rfl⟩ := h1.det g1
      obtain ⟨rfl, rfl, rfl⟩ := h2.det g2
      exact ih g
    | right g1 g2 hlt =>
      obtain ⟨rfl, rfl, rfl⟩ := h1.det g1
      obtain ⟨rfl, rfl, rfl⟩ := h2.det g2
      omega
  | right h1 h2 hlt _ ih =>
    cases h' with
    | last g1 g2 =>
      obtain ⟨rfl, rfl, rfl⟩ := h1.det g1
      obtain ⟨rfl, rfl, rfl⟩ := h2.det g2
      omega
    | left g1 g2 hlt =>
      obtain ⟨rfl, rfl, rfl⟩ := h1.det g1
      obtain ⟨rfl, rfl, rfl⟩ := h2.det g2
      omega
    | right g1 g2 hlt g =>
      obtain ⟨rfl, rfl, rfl⟩ := h1.det g1
      obtain ⟨rfl, rfl, rfl⟩ := h2.det g2
      exact ih g

/-- The coefficients computed by `mp_int_egcd` for non-zero `x` and `y`. -/
def EgcdOut (x y P R : Int) : Prop :=
  ∃ (k : Nat) (U W : Int), |x| = 2 ^ k * U ∧ |y| = 2 ^ k * W ∧ ¬ (U % 2 = 0 ∧ W % 2 = 0) ∧ EgcdRel U W 1 0 0 1 U W P R

theorem EgcdOut.det {P R P' R' : Int} (h : EgcdOut x y P R) (h' : EgcdOut x y P' R') : P = P' ∧ R = R' := by
  obtain ⟨k, U, W, hx, hy, ho, hr⟩ := h
  obtain ⟨k', U', W', hx', hy', ho', hr'⟩ := h'
  have key : ∀ {k k' : Nat} {U W U' W' : Int}, k ≤ k' → |x| = 2 ^ k * U → |y| = 2 ^ k * W → |x| = 2 ^ k' * U' → |y| = 2 ^ k' * W' →
      ¬ (U % 2 = 0 ∧ W % 2 = 0) → U = U' ∧ W = W' := by
    intro k k' U W U' W' hk hx hy hx' hy' ho
    obtain ⟨j, rfl⟩ : ∃ j, k' = k + j := ⟨k' - k, by omega⟩
    have hp : (2 : Int) ^ k ≠ 0 := by positivity
    have eU : U = 2 ^ j * U' := by
      rw [hx, pow_add, Int.mul_assoc] at hx'
      exact Int.eq_of_mul_eq_mul_left hp hx'
    have eW : W = 2 ^ j * W' := by
      rw [hy, pow_add, Int.mul_assoc] at hy'
      exact Int.eq_of_mul_eq_mul_left hp hy'
    cases j with
    | zero => simp at eU eW; exact ⟨eU, eW⟩
    | succ j =>
      exfalso; refine ho ⟨?_, ?_⟩
      · rw [eU, pow_succ, Int.mul_comm _ 2, Int.mul_assoc]; omega
      · rw [eW, pow_succ, Int.mul_comm _ 2, Int.mul_assoc]; omega
  have e : U = U' ∧ W = W' := by
    rcases Nat.le_total k k' with hk | hk
    · exact key hk hx hy hx' hy' ho
    · obtain ⟨e1, e2⟩ := key hk hx' hy' hx hy ho'
      exact ⟨e1.symm, e2.symm⟩
  obtain ⟨rfl, rfl⟩ := e
  exact hr.det hr'

theorem egcdHalve_spec {Q : Int → Mem → Prop} {u x y ou ov : Id} {k : M Int} {f : Nat} {n A B U W : Int} (hE : Ref env E)
    (hou : σ ou = some U) (hov : σ ov = some W) (ox : x.own = true) (oy : y.own = true)
    (ux : u ≠ x) (uy : u ≠ y) (xy : x ≠ y) (o1 : ou ≠ u) (o2 : ou ≠ x) (o3 : ou ≠ y) (o4 : ov ≠ u) (o5 : ov ≠ x) (o6 : ov ≠ y)
    (h : R2 m (upd3 σ u x y n A B)) (hn : 0 < n) (hf : n < 2 ^ f) (hA : A * U + B * W = n) (hUW : ¬ (U % 2 = 0 ∧ W % 2 = 0))
    (hQ : ∀ m' (i : Nat) n' A' B', n = 2 ^ i * n' → 0 < n' → n' % 2 = 1 → A' * U + B' * W = n' → R2 m' (upd3 σ u x y n' A' B') →
      Halve U W n A B n' A' B' →
      wp env E k Q m') :
    wp env E (egcdHalve u x y ou ov k (f + 1)) Q m := by
  induction f generalizing m n A B with
  | zero => rw [pow_zero] at hf; omega
  | succ f ih =>
    have gu : ∀ n A B, upd3 σ u x y n A B u = some n := fun n A B => by simp [upd3, upd, ux, uy]
    have gx : ∀ n A B, upd3 σ u x y n A B x = some A := fun n A B => by simp [upd3, upd, xy]
    have gy : ∀ n A B, upd3 σ u x y n A B y = some B := fun n A B => by simp [upd3, upd]
    have gou : ∀ n A B, upd3 σ u x y n A B ou = some U := fun n A B => by simp [upd3, upd, o1, o2, o3, hou]
    have gov : ∀ n A B, upd3 σ u x y n A B ov = some W := fun n A B => by simp [upd3, upd, o4, o5, o6, hov]
    have su : ∀ n A B n', upd (upd3 σ u x y n A B) u (some n') = upd3 σ u x y n' A B := by
      intro n A B n'; unfold upd3; upd_tac
    have sx : ∀ n A B n', upd (upd3 σ u x y n A B) x (some n') = upd3 σ u x y n n' B := by
      intro n A B n'; unfold upd3; upd_tac
    have sy : ∀ n A B n', upd (upd3 σ u x y n A B) y (some n') = upd3 σ u x y n A n' := by
      intro n A B n'; unfold upd3; upd_tac
    rw [egcdHalve]
    refine wp_bind (mp_int_is_even_spec h (gu _ _ _) ?_)
    refine wp_ite (fun he => ?_) (fun he => ?_)
    · replace he : n % 2 = 0 := of_decide_eq_true he
      refine wp_bind (s_qdiv_one h (gu _ _ _) he fun m1 h1 => ?_)
      rw [su] at h1
      have hA2 : A * U + B * W = 2 * (n / 2) := by omega
      have tail : ∀ m A' B', R2 m (upd3 σ u x y (n / 2) A' B') → A' % 2 = 0 → B' % 2 = 0 → A' * U + B' * W = 2 * (n / 2) →
          (∀ n' A'' B'', Halve U W (n / 2) (A' / 2) (B' / 2) n' A'' B'' → Halve U W n A B n' A'' B'') →
          wp env E (do s_qdiv x 1; s_qdiv y 1; egcdHalve u x y ou ov k (f + 1)) Q m := by
        intro m A' B' h eA eB hAB hrel
        refine wp_bind (s_qdiv_one h (gx _ _ _) eA fun m2 h2 => ?_)
        rw [sx] at h2
        refine wp_bind (s_qdiv_one h2 (gy _ _ _) eB fun m3 h3 => ?_)
        rw [sy] at h3
        have e1 : A' = 2 * (A' / 2) := by omega
        have e2 : B' = 2 * (B' / 2) := by omega
        refine ih h3 (by omega) (by rw [pow_succ] at hf; omega) ?_ fun m' i n' A'' B'' h0 h1 h2 h3 h4 h5 => ?_
        · clear hrel
          generalize A' / 2 = P at *
          generalize B' / 2 = R at *
          subst e1 e2
          have : 2 * (P * U + R * W) = 2 * (n / 2) := by rw [← hAB]; ring
          omega
        · refine hQ m' (i + 1) n' A'' B'' ?_ h1 h2 h3 h4 (hrel _ _ _ h5)
          rw [pow_succ, Int.mul_comm _ 2, Int.mul_assoc, ← h0]; omega
      refine wp_bind (mp_int_is_odd_spec h1 (gx _ _ _) ?_)
      refine wp_bind (wp_cif (fun hox => wp_pure ?_) (fun hox => mp_int_is_odd_spec h1 (gy _ _ _) ?_))
      · refine wp_if_pos rfl ?_
        obtain ⟨h2, h3⟩ := egcd_even hA2 hUW (.inl (of_decide_eq_true hox))
        refine wp_require (mp_int_add_spec hE h1 (gx _ _ _) (gov _ _ _) (gx _ _ _) ox fun m2 r2 => ⟨rfl, ?_⟩)
        rw [sx] at r2
        refine wp_require (mp_int_sub_spec hE r2 (gy _ _ _) (gou _ _ _) (gy _ _ _) oy fun m3 r3 => ⟨rfl, ?_⟩)
        rw [sy] at r3
        exact tail m3 _ _ r3 h2 h3 (by rw [← hA2]; ring) fun _ _ _ hh => .shift he (by have := of_decide_eq_true hox; omega) hh
      · refine wp_ite (fun hoy => ?_) (fun hoy => ?_)
        · obtain ⟨h2, h3⟩ := egcd_even hA2 hUW (.inr (of_decide_eq_true hoy))
          refine wp_require (mp_int_add_spec hE h1 (gx _ _ _) (gov _ _ _) (gx _ _ _) ox fun m2 r2 => ⟨rfl, ?_⟩)
          rw [sx] at r2
          refine wp_require (mp_int_sub_spec hE r2 (gy _ _ _) (gou _ _ _) (gy _ _ _) oy fun m3 r3 => ⟨rfl, ?_⟩)
          rw [sy] at r3
          exact tail m3 _ _ r3 h2 h3 (by rw [← hA2]; ring) fun _ _ _ hh => .shift he (by have := of_decide_eq_true hoy; omega) hh
        · rw [decide_eq_true_eq] at hox hoy
          exact tail m1 _ _ h1 (by omega) (by omega) hA2 fun _ _ _ hh => .plain he (by omega) (by omega) hh
    · rw [decide_eq_true_eq] at he
      exact hQ m 0 n A B (by rw [pow_zero, Int.one_mul]) hn (by omega) hA h (.stop (by omega))

/-- Invariant of the main loop of `mp_int_egcd`. -/
structure EgcdInv (A B C D u v U W : Int) (g f F : Nat) : Prop where
  hu : 0 < u
  hv : 0 < v
  hA : A * U + B * W = u
  hC : C * U + D * W = v
  hg : Int.gcd u v = g
  uF : u < 2 ^ F
  vF : v < 2 ^ F
  hf : u * v < 2 ^ f ∨ (u * v < 2 ^ (f + 1) ∧ (u % 2 = 0 ∨ v % 2 = 0))

theorem egcd_gcd {u v n k : Int} {i j : Nat} (hu : u = 2 ^ i * n) (hv : v = 2 ^ j * k)
    {g : Nat} (hg : Int.gcd u v = g) (ho : g % 2 = 1) : Int.gcd n k = g := by
  have eu : u.natAbs = 2 ^ i * n.natAbs := by rw [hu, Int.natAbs_mul, Int.natAbs_pow]; rfl
  have ev : v.natAbs = 2 ^ j * k.natAbs := by rw [hv, Int.natAbs_mul, Int.natAbs_pow]; rfl
  rw [Int.gcd_def] at hg ⊢
  have cg : ∀ i, Nat.Coprime g (2 ^ i) := fun i =>
    Nat.Coprime.pow_right i (Nat.coprime_comm.1 (Nat.coprime_two_left.2 (Nat.odd_iff.2 ho)))
  apply Nat.dvd_antisymm
  · rw [← hg, eu, ev]
    exact Nat.gcd_dvd_gcd_of_dvd_left _ (Nat.dvd_mul_left ..) |>.trans (Nat.gcd_dvd_gcd_of_dvd_right _ (Nat.dvd_mul_left ..))
  · refine Nat.dvd_gcd ((cg i).dvd_of_dvd_mul_left ?_) ((cg j).dvd_of_dvd_mul_left ?_)
    · rw [← eu, ← hg]; exact Nat.gcd_dvd_left ..
    · rw [← ev, ← hg]; exact Nat.gcd_dvd_right ..

/-- The product after both halving loops. -/
theorem egcd_prod {u v n k : Int} {i j f : Nat} (hu : u = 2 ^ i * n) (hv : v = 2 ^ j * k) (hn : n % 2 = 1) (hk : k % 2 = 1)
    (n0 : 0 < n) (k0 : 0 < k) (hf : u * v < 2 ^ f ∨ (u * v < 2 ^ (f + 1) ∧ (u % 2 = 0 ∨ v % 2 = 0))) : n * k < 2 ^ f := by
  have hp : 0 < n * k := Int.mul_pos n0 k0
  have e : u * v = 2 ^ (i + j) * (n * k) := by rw [hu, hv, pow_add]; ring
  rcases hf with hf | ⟨hf, he⟩
  · have : 1 * (n * k) ≤ 2 ^ (i + j) * (n * k) := Int.mul_le_mul_of_nonneg_right (one_le_pow₀ (by norm_num)) (by omega)
    omega
  · have hij : i + j ≠ 0 := by
      intro h0
      obtain ⟨rfl, rfl⟩ : i = 0 ∧ j = 0 := by omega
      simp only [pow_zero, Int.one_mul] at hu hv
      omega
    obtain ⟨t, ht⟩ : ∃ t, i + j = t + 1 := ⟨i + j - 1, by omega⟩
    rw [ht, pow_succ] at e
    rw [pow_succ] at hf
    have : 1 * (n * k) ≤ 2 ^ t * (n * k) := Int.mul_le_mul_of_nonneg_right (one_le_pow₀ (by norm_num)) (by omega)
    have e2 : u * v = 2 * (2 ^ t * (n * k)) := by rw [e]; ring
    omega

theorem le_pow_mul {u n : Int} {i : Nat} (hu : u = 2 ^ i * n) (h0 : 0 < n) : n ≤ u := by
  have : 1 * n ≤ 2 ^ i * n := Int.mul_le_mul_of_nonneg_right (one_le_pow₀ (by norm_num)) (by omega)
  omega

/-- One subtraction step. -/
theorem egcd_sub {n k : Int} {f : Nat} (hn : n % 2 = 1) (hk : k % 2 = 1) (k0 : 0 < k) (hf : n * k < 2 ^ (f + 1)) :
    (n - k) * k < 2 ^ (f + 1) ∧ (n - k) % 2 = 0 := by
  refine ⟨?_, by omega⟩
  have : 0 < k * k := Int.mul_pos k0 k0
  rw [Int.sub_mul]; omega

theorem gcd_sub_left (n k : Int) : Int.gcd (n - k) k = Int.gcd n k := by
  rw [show n - k = n + -1 * k by ring]
  exact Int.gcd_add_mul_right_left k n (-1)

theorem egcdLoop_spec {Q : Int → Mem → Prop} {k : M Int} {f F g : Nat} {A B C D u v U W : Int} (hE : Ref env E)
    (hUW : ¬ (U % 2 = 0 ∧ W % 2 = 0)) (hg : g % 2 = 1)
    (hk : ∀ m' σ' A' B' C' D' u' v', R2 m' σ' → Tmps σ 8 T (L [A', B', C', D', u', v', U, W]) σ' → v' = g → C' * U + D' * W = g →
      EgcdRel U W A B C D u v C' D' → wp env E k Q m')
    (hI : EgcdInv A B C D u v U W g f F) (h : R2 m σ') (gT : Tmps σ 8 T (L [A, B, C, D, u, v, U, W]) σ') :
    wp env E (egcdLoop (T 0) (T 1) (T 2) (T 3) (T 4) (T 5) (T 6) (T 7) k (F + 1) (f + 1)) Q m := by
  induction f generalizing A B C D u v σ' m with
  | zero =>
    exfalso
    obtain ⟨hu, hv, -, -, hgg, -, -, hf⟩ := hI
    have hp : 0 < u * v := Int.mul_pos hu hv
    rw [pow_zero, Nat.zero_add, pow_one] at hf
    rcases hf with hf | ⟨hf, he⟩
    · omega
    · have h1 : u * v = 1 := by omega
      have := Int.eq_one_or_neg_one_of_mul_eq_one h1
      have := Int.eq_one_or_neg_one_of_mul_eq_one' h1
      omega
  | succ f ih =>
    rw [egcdLoop]
    rw [← upd3_self (gT.get 4) (gT.get 0) (gT.get 1)] at h
    refine egcdHalve_spec hE (gT.get 6) (gT.get 7) (gT.ow 0) (gT.ow 1) (gT.neq 4 0) (gT.neq 4 1) (gT.neq 0 1)
      (gT.neq 6 4) (gT.neq 6 0) (gT.neq 6 1) (gT.neq 7 4) (gT.neq 7 0) (gT.neq 7 1) h hI.hu hI.uF hI.hA hUW
      fun m1 i n A1 B1 en n0 no eA h1 hl1 => ?_
    unfold upd3 at h1
    obtain ⟨σ1, r1, g1⟩ : ∃ σ'', R2 m1 σ'' ∧ Tmps σ 8 T (L [A1, B1, C, D, n, v, U, W]) σ'' :=
      ⟨_, h1, by have g := ((gT.lset 4 n).lset 0 A1).lset 1 B1; tsimp at g; exact g⟩
    rw [← upd3_self (g1.get 5) (g1.get 2) (g1.get 3)] at r1
    refine egcdHalve_spec hE (g1.get 6) (g1.get 7) (g1.ow 2) (g1.ow 3) (g1.neq 5 2) (g1.neq 5 3) (g1.neq 2 3)
      (g1.neq 6 5) (g1.neq 6 2) (g1.neq 6 3) (g1.neq 7 5) (g1.neq 7 2) (g1.neq 7 3) r1 hI.hv hI.vF hI.hC hUW
      fun m2 j k' C1 D1 ek k0 ko eC h2 hl2 => ?_
    unfold upd3 at h2
    obtain ⟨σ2, r2, g2⟩ : ∃ σ'', R2 m2 σ'' ∧ Tmps σ 8 T (L [A1, B1, C1, D1, n, k', U, W]) σ'' :=
      ⟨_, h2, by have g := ((g1.lset 5 k').lset 2 C1).lset 3 D1; tsimp at g; exact g⟩
    tsimp at eA eC
    have hgg := egcd_gcd en ek hI.hg hg
    have hp := egcd_prod en ek no ko n0 k0 hI.hf
    have hnF := lt_of_le_of_lt (le_pow_mul en n0) hI.uF
    have hkF := lt_of_le_of_lt (le_pow_mul ek k0) hI.vF
    refine wp_bind (mp_int_compare_spec r2 (g2.get 4) (g2.get 5) ?_)
    tsimp
    refine wp_ite (fun hc => ?_) (fun hc => ?_)
    · have hkn : k' ≤ n := by
        by_contra hlt
        have := cmpZ_neg.2 (not_le.1 hlt)
        omega
      refine wp_require (mp_int_sub_spec hE r2 (g2.get 4) (g2.get 5) (g2.get 4) (g2.ow 4) fun m3 r3 => ⟨rfl, ?_⟩)
      obtain ⟨σ3, r3, g3⟩ := g2.up 4 r3
      tsimp at g3
      refine wp_require (mp_int_sub_spec hE r3 (g3.get 0) (g3.get 2) (g3.get 0) (g3.ow 0) fun m4 r4 => ⟨rfl, ?_⟩)
      obtain ⟨σ4, r4, g4⟩ := g3.up 0 r4
      tsimp at g4
      refine wp_require (mp_int_sub_spec hE r4 (g4.get 1) (g4.get 3) (g4.get 1) (g4.ow 1) fun m5 r5 => ⟨rfl, ?_⟩)
      obtain ⟨σ5, r5, g5⟩ := g4.up 1 r5
      tsimp at g5
      refine wp_bind (CMPZ_spec r5 (g5.get 4) ?_)
      tsimp
      refine wp_ite (fun hz => ?_) (fun hz => ?_)
      · rw [Int.sign_eq_zero_iff_zero] at hz
        have : n = k' := by omega
        rw [this, Int.gcd_self] at hgg
        exact hk m5 σ5 _ _ _ _ _ _ r5 g5 (by omega) (by rw [eC]; omega) (.last hl1 (by rw [this]; exact hl2))
      · rw [Int.sign_eq_zero_iff_zero] at hz
        obtain ⟨p1, p2⟩ := egcd_sub no ko k0 hp
        refine ih (fun m' σ' A' B' C' D' u' v' a1 a2 a3 a4 a5 => hk m' σ' A' B' C' D' u' v' a1 a2 a3 a4 (.left hl1 hl2 (by omega) a5))
          ⟨by omega, k0, ?_, eC, by rw [gcd_sub_left]; exact hgg, by omega, hkF, .inr ⟨p1, .inl p2⟩⟩ r5 g5
        rw [← eA, ← eC]; ring
    · have hkn : n < k' := by
        by_contra hlt
        rw [← cmpZ_neg] at hlt
        omega
      refine wp_require (mp_int_sub_spec hE r2 (g2.get 5) (g2.get 4) (g2.get 5) (g2.ow 5) fun m3 r3 => ⟨rfl, ?_⟩)
      obtain ⟨σ3, r3, g3⟩ := g2.up 5 r3
      tsimp at g3
      refine wp_require (mp_int_sub_spec hE r3 (g3.get 2) (g3.get 0) (g3.get 2) (g3.ow 2) fun m4 r4 => ⟨rfl, ?_⟩)
      obtain ⟨σ4, r4, g4⟩ := g3.up 2 r4
      tsimp at g4
      refine wp_require (mp_int_sub_spec hE r4 (g4.get 3) (g4.get 1) (g4.get 3) (g4.ow 3) fun m5 r5 => ⟨rfl, ?_⟩)
      obtain ⟨σ5, r5, g5⟩ := g4.up 3 r5
      tsimp at g5
      refine wp_bind (CMPZ_spec r5 (g5.get 4) ?_)
      tsimp
      refine wp_if_neg (by rw [Int.sign_eq_zero_iff_zero]; omega) ?_
      obtain ⟨p1, p2⟩ := egcd_sub ko no n0 (by rw [Int.mul_comm]; exact hp)
      refine ih (fun m' σ' A' B' C' D' u' v' a1 a2 a3 a4 a5 => hk m' σ' A' B' C' D' u' v' a1 a2 a3 a4 (.right hl1 hl2 hkn a5))
        ⟨n0, by omega, eA, ?_, by rw [Int.gcd_comm, gcd_sub_left, Int.gcd_comm]; exact hgg, hnF, by omega,
        .inr ⟨by rw [Int.mul_comm]; exact p1, .inr p2⟩⟩ r5 g5
      rw [← eA, ← eC]; ring

/-- The updates at the end of `mp_int_egcd`. -/
def egcdPut (σ : Id → Option Int) (x y : Option Id) (c : Id) (X Y G : Int) : Id → Option Int :=
  upd (updO (updO σ x X) y Y) c (some G)

theorem egcd_tail {Q : Int → Mem → Prop} {X Y : Option Id} {k F f G : Nat} {A B C D u v : Int} {U W g : Nat} (hE : Ref env E)
    (hUW : ¬ ((U : Int) % 2 = 0 ∧ (W : Int) % 2 = 0)) (hg : g % 2 = 1)
    (hX : ∀ z, X = some z → (∃ w, σ z = some w) ∧ z.own = true) (hY : ∀ z, Y = some z → (∃ w, σ z = some w) ∧ z.own = true)
    (hc : σ c = some w) (ho : c.own = true) (hk : k < 4294967296) (hI : EgcdInv A B C D u v U W g f F)
    (h : R2 m σ') (gT : Tmps σ 8 T (L [A, B, C, D, u, v, (U : Int), W]) σ') (hG : G = 2 ^ k * g)
    (hQ : ∀ P R : Int, (G : Int) = P * ((2 ^ k * U : Nat) : Int) + R * ((2 ^ k * W : Nat) : Int) →
      EgcdRel U W A B C D u v P R → ∀ m', R2 m' (egcdPut σ X Y c P R G) → Q MP_OK m') :
    wp env E (egcdLoop (T 0) (T 1) (T 2) (T 3) (T 4) (T 5) (T 6) (T 7)
      (optRequire X (fun x => mp_int_copy (T 2) x) <|
        optRequire Y (fun y => mp_int_copy (T 3) y) do
          if (← s_qmul (T 5) k) then REQUIRE (mp_int_copy (T 5) c) (pure MP_OK)
          else pure MP_MEMORY) (F + 1) (f + 1)) (fun r m'' => TDone 8 T Q r m'') m := by
  refine egcdLoop_spec hE hUW hg (fun m1 σ1 A1 B1 C1 D1 u1 v1 r1 g1 hv1 hCD hrel => ?_) hI h gT
  have last : ∀ m2 σ2 σF, R2 m2 σ2 → Tmps σF 8 T (L [A1, B1, C1, D1, u1, v1, (U : Int), W]) σ2 → (∃ w, σF c = some w) →
      (upd σF c (some (G : Int)) = egcdPut σ X Y c C1 D1 G) →
      wp env E (do
          if (← s_qmul (T 5) k) then REQUIRE (mp_int_copy (T 5) c) (pure MP_OK)
          else pure MP_MEMORY) (fun r m'' => TDone 8 T Q r m'') m2 := by
    intro m2 σ2 σF r2 g2 hcF hF
    obtain ⟨wF, hcF⟩ := hcF
    refine wp_bind (s_qmul_spec hE r2 (g2.get 5) (g2.ow 5) hk fun m3 r3 => wp_if_pos rfl ?_)
    obtain ⟨σ3, r3, g3⟩ := g2.up 5 r3
    tsimp at g3
    refine wp_require (mp_int_copy_spec hE r3 (g3.get 5) (g3.out hcF) ho fun m4 r4 => ⟨rfl, wp_pure ?_⟩)
    obtain ⟨σ4, r4, g4⟩ := g3.up_out hcF r4
    tsimp at g4
    refine .mk g4 r4 fun m5 r5 => hQ C1 D1 ?_ hrel m5 ?_
    · rw [hG]; push_cast; rw [← hCD]; ring
    · rw [← hF, hG]
      rw [hv1, Int.mul_comm] at r5
      push_cast
      exact r5
  have some_upd : ∀ (σ : Id → Option Int) (z : Id) (v : Int), (∃ w, σ c = some w) → ∃ w, upd σ z (some v) c = some w := by
    intro σ z v hw
    by_cases e : c = z
    · subst e; exact ⟨v, upd_self _ _ _⟩
    · rw [upd_ne _ _ e]; exact hw
  cases X with
  | none =>
    cases Y with
    | none => exact last m1 σ1 σ r1 g1 ⟨w, hc⟩ rfl
    | some y =>
      obtain ⟨⟨wy, hy⟩, oy⟩ := hY y rfl
      refine wp_require (mp_int_copy_spec hE r1 (g1.get 3) (g1.out hy) oy fun m2 r2 => ⟨rfl, ?_⟩)
      obtain ⟨σ2, r2, g2⟩ := g1.up_out hy r2
      exact last m2 σ2 _ r2 g2 (some_upd _ _ _ ⟨w, hc⟩) rfl
  | some x =>
    obtain ⟨⟨wx, hx⟩, ox⟩ := hX x rfl
    refine wp_require (mp_int_copy_spec hE r1 (g1.get 2) (g1.out hx) ox fun m2 r2 => ⟨rfl, ?_⟩)
    obtain ⟨σ2, r2, g2⟩ := g1.up_out hx r2
    tsimp at g2
    cases Y with
    | none => exact last m2 σ2 _ r2 g2 (some_upd _ _ _ ⟨w, hc⟩) rfl
    | some y =>
      obtain ⟨⟨wy, hy⟩, oy⟩ := hY y rfl
      obtain ⟨wy', hy'⟩ : ∃ w, upd σ x (some C1) y = some w := by
        by_cases e : y = x
        · subst e; exact ⟨_, upd_self _ _ _⟩
        · rw [upd_ne _ _ e]; exact ⟨_, hy⟩
      refine wp_require (mp_int_copy_spec hE r2 (g2.get 3) (g2.out hy') oy fun m3 r3 => ⟨rfl, ?_⟩)
      obtain ⟨σ3, r3, g3⟩ := g2.up_out hy' r3
      exact last m3 σ3 _ r3 g3 (some_upd _ _ _ (some_upd _ _ _ ⟨w, hc⟩)) rfl

/-- `mp_int_egcd` of two non-zero integers. -/
theorem mp_int_egcd_nz {Q : Int → Mem → Prop} {X Y : Option Id} (hE : Ref env E) (h : R2 m σ)
    (ha : σ a = some x) (hb : σ b = some y) (hx0 : x ≠ 0) (hy0 : y ≠ 0) (hXY : X ≠ none ∨ Y ≠ none)
    (hX : ∀ z, X = some z → (∃ w, σ z = some w) ∧ z.own = true) (hY : ∀ z, Y = some z → (∃ w, σ z = some w) ∧ z.own = true)
    (hc : σ c = some w) (ho : c.own = true)
    (hQ : ∀ P R : Int, (Int.gcd x y : Int) = P * |x| + R * |y| → EgcdOut x y P R →
      ∀ m', R2 m' (egcdPut σ X Y c P R (Int.gcd x y)) → Q MP_OK m') :
    wp env E (mp_int_egcd a b c X Y) Q m := by
  unfold mp_int_egcd
  refine wp_bind (wp_cassert (decide_eq_true hXY) ?_)
  refine wp_bind (CMPZ_spec h ha ?_)
  refine wp_bind (CMPZ_spec h hb ?_)
  have sx : ¬ x.sign = 0 := by rw [Int.sign_eq_zero_iff_zero]; exact hx0
  have sy : ¬ y.sign = 0 := by rw [Int.sign_eq_zero_iff_zero]; exact hy0
  refine wp_if_neg (fun h0 => sx h0.1) (wp_if_neg sx (wp_if_neg sy ?_))
  refine wp_bind (MP_USED_val h ha fun _ => ?_)
  refine wp_bind (MP_USED_val h hb fun _ => ?_)
  refine withTemp8_spec h fun T V σ1 m1 g1 r1 hV => ?_
  replace g1 := g1.start [0, 0, 0, 0, 0, 0, 0, 0] hV
  refine wp_require (mp_int_set_value_spec hE (by decide) (by decide) r1 (g1.get 0) (g1.ow 0) fun m2 r2 => ⟨rfl, ?_⟩)
  obtain ⟨σ2, r2, g2⟩ := g1.up 0 r2
  tsimp at g2
  refine wp_require (mp_int_set_value_spec hE (by decide) (by decide) r2 (g2.get 3) (g2.ow 3) fun m3 r3 => ⟨rfl, ?_⟩)
  obtain ⟨σ3, r3, g3⟩ := g2.up 3 r3
  tsimp at g3
  refine wp_require (mp_int_copy_spec hE r3 (g3.out ha) (g3.get 4) (g3.ow 4) fun m4 r4 => ⟨rfl, ?_⟩)
  obtain ⟨σ4, r4, g4⟩ := g3.up 4 r4
  tsimp at g4
  refine wp_require (mp_int_copy_spec hE r4 (g4.out hb) (g4.get 5) (g4.ow 5) fun m5 r5 => ⟨rfl, ?_⟩)
  obtain ⟨σ5, r5, g5⟩ := g4.up 5 r5
  tsimp at g5
  refine wp_bind (setSign_spec r5 (g5.get 4) (by simp) fun m6 r6 => ?_)
  obtain ⟨σ6, r6, g6⟩ := g5.up 4 r6
  tsimp at g6
  refine wp_bind (setSign_spec r6 (g6.get 5) (by simp) fun m7 r7 => ?_)
  obtain ⟨σ7, r7, g7⟩ := g6.up 5 r7
  tsimp at g7
  simp only [sval, Bool.false_eq_true, if_false] at g7
  refine wp_bind (s_dp2k_spec r7 (g7.get 4) (by tsimp; omega) fun p o hp hpl => ?_)
  refine wp_bind (s_dp2k_spec r7 (g7.get 5) (by tsimp; omega) fun q o' hq hql => ?_)
  tsimp at hp hq
  rw [Int.natAbs_natCast] at hp hq
  simp only [MIN_nat]
  obtain ⟨k, hk⟩ : ∃ k, k = min p q := ⟨_, rfl⟩
  have hk32 : k < 4294967296 := by omega
  rw [← hk, intU32_of_nat hk32]
  obtain ⟨F, hF⟩ : ∃ F, F = 32 * (ndig x + ndig y) + 1 := ⟨_, rfl⟩
  rw [show 32 * (ndig x + ndig y) + 2 = F + 1 by omega]
  have hbx : x.natAbs < 2 ^ F :=
    lt_of_lt_of_le (lt_two_pow_ndig x) (Nat.pow_le_pow_right (by decide) (by omega))
  have hby : y.natAbs < 2 ^ F :=
    lt_of_lt_of_le (lt_two_pow_ndig y) (Nat.pow_le_pow_right (by decide) (by omega))
  have hf : x.natAbs * y.natAbs < 2 ^ F := by
    have h1 := Nat.mul_lt_mul'' (lt_two_pow_ndig x) (lt_two_pow_ndig y)
    rw [← Nat.pow_add] at h1
    exact lt_of_lt_of_le h1 (Nat.pow_le_pow_right (by decide) (by omega))
  obtain ⟨k1, k2, k3, k4, k5⟩ := gcd_start hp hq hk hf
  refine wp_bind (s_qdiv_nat (n := x.natAbs) r7 (g7.get 4) fun m8 r8 => ?_)
  obtain ⟨σ8, r8, g8⟩ := g7.up 4 r8
  tsimp at g8
  refine wp_bind (s_qdiv_nat (n := y.natAbs) r8 (g8.get 5) fun m9 r9 => ?_)
  obtain ⟨σ9, r9, g9⟩ := g8.up 5 r9
  tsimp at g9
  have dx : 2 ^ k * (x.natAbs / 2 ^ k) = x.natAbs := Nat.mul_div_cancel' (by
    rw [hp, show p = k + (p - k) by omega, Nat.pow_add, Nat.mul_assoc]; exact Nat.dvd_mul_right ..)
  have dy : 2 ^ k * (y.natAbs / 2 ^ k) = y.natAbs := Nat.mul_div_cancel' (by
    rw [hq, show q = k + (q - k) by omega, Nat.pow_add, Nat.mul_assoc]; exact Nat.dvd_mul_right ..)
  obtain ⟨U, hU⟩ : ∃ U : Nat, U = x.natAbs / 2 ^ k := ⟨_, rfl⟩
  obtain ⟨W, hW⟩ : ∃ W : Nat, W = y.natAbs / 2 ^ k := ⟨_, rfl⟩
  have lU : U ≤ x.natAbs := by rw [hU]; exact Nat.div_le_self ..
  have lW : W ≤ y.natAbs := by rw [hW]; exact Nat.div_le_self ..
  rw [← hU, ← hW] at k1 g9 k4 k5
  rw [← hU] at k2 dx
  rw [← hW] at k3 dy
  clear hU hW
  refine wp_require (mp_int_copy_spec hE r9 (g9.get 4) (g9.get 6) (g9.ow 6) fun m10 r10 => ⟨rfl, ?_⟩)
  obtain ⟨σ10, r10, g10⟩ := g9.up 6 r10
  tsimp at g10
  refine wp_require (mp_int_copy_spec hE r10 (g10.get 5) (g10.get 7) (g10.ow 7) fun m11 r11 => ⟨rfl, ?_⟩)
  obtain ⟨σ11, r11, g11⟩ := g10.up 7 r11
  tsimp at g11
  have hgo : Nat.gcd U W % 2 = 1 := by
    rcases Nat.mod_two_eq_zero_or_one (Nat.gcd U W) with e | e
    · have h2 : 2 ∣ Nat.gcd U W := Nat.dvd_of_mod_eq_zero e
      have hu := h2.trans (Nat.gcd_dvd_left U W)
      have hw := h2.trans (Nat.gcd_dvd_right U W)
      omega
    · exact e
  refine egcd_tail (G := Int.gcd x y) (g := Nat.gcd U W) (f := F) hE (by omega) hgo hX hY hc ho hk32
    ⟨by omega, by omega, by ring, by ring, rfl, ?_, ?_, .inl ?_⟩ r11 g11 (by rw [Int.gcd_def, k1]) fun P R hPR hrel m' r' => ?_
  · have := lt_of_le_of_lt lU hbx; exact_mod_cast this
  · have := lt_of_le_of_lt lW hby; exact_mod_cast this
  · exact_mod_cast k4
  · rw [dx, dy] at hPR
    refine hQ P R ?_ ⟨k, U, W, ?_, ?_, by omega, hrel⟩ m' r'
    · rw [hPR, Int.abs_eq_natAbs, Int.abs_eq_natAbs]
    · rw [Int.abs_eq_natAbs, ← dx]; push_cast; rfl
    · rw [Int.abs_eq_natAbs, ← dy]; push_cast; rfl

/-- `mp_int_egcd` of zero and a non-zero integer. -/
theorem mp_int_egcd_left0 {Q : Int → Mem → Prop} {X Y : Id} {wx wy : Int} (hE : Ref env E) (h : R2 m σ)
    (ha : σ a = some 0) (hb : σ b = some y) (hy0 : y ≠ 0) (hX : σ X = some wx)
    (hY : σ Y = some wy) (oY : Y.own = true) (hc : σ c = some w) (ho : c.own = true) (cX : c ≠ X) (cY : c ≠ Y) (XY : X ≠ Y)
    (hQ : ∀ m', R2 m' (egcdPut σ (some X) (some Y) c 0 1 |y|) → Q MP_OK m') :
    wp env E (mp_int_egcd a b c (some X) (some Y)) Q m := by
  unfold mp_int_egcd
  refine wp_bind (wp_cassert (by simp) ?_)
  refine wp_bind (CMPZ_spec h ha ?_)
  refine wp_bind (CMPZ_spec h hb ?_)
  have sy : ¬ y.sign = 0 := by rw [Int.sign_eq_zero_iff_zero]; exact hy0
  refine wp_if_neg (fun h0 => sy h0.2) (wp_if_pos rfl ?_)
  refine wp_bind (mp_int_abs_spec hE h hb hc ho fun m1 r1 => wp_if_neg (by simp) ?_)
  refine wp_bind (mp_int_zero_spec r1 (by rw [upd_ne _ _ cX.symm]; exact hX) fun m2 r2 => ?_)
  refine wp_bind (mp_int_set_value_spec hE (by decide) (by decide) r2
    (by rw [upd_ne _ _ XY.symm, upd_ne _ _ cY.symm]; exact hY) oY fun m3 r3 => wp_pure (hQ m3 ?_))
  convert r3 using 1
  unfold egcdPut updO; upd_tac

/-- `mp_int_egcd` of a non-zero integer and zero. -/
theorem mp_int_egcd_right0 {Q : Int → Mem → Prop} {X Y : Id} {wx wy : Int} (hE : Ref env E) (h : R2 m σ)
    (ha : σ a = some x) (hb : σ b = some 0) (hx0 : x ≠ 0) (hX : σ X = some wx)
    (hY : σ Y = some wy) (oX : X.own = true) (hc : σ c = some w) (ho : c.own = true) (cX : c ≠ X) (cY : c ≠ Y) (XY : X ≠ Y)
    (hQ : ∀ m', R2 m' (egcdPut σ (some X) (some Y) c 1 0 |x|) → Q MP_OK m') :
    wp env E (mp_int_egcd a b c (some X) (some Y)) Q m := by
  unfold mp_int_egcd
  refine wp_bind (wp_cassert (by simp) ?_)
  refine wp_bind (CMPZ_spec h ha ?_)
  refine wp_bind (CMPZ_spec h hb ?_)
  have sx : ¬ x.sign = 0 := by rw [Int.sign_eq_zero_iff_zero]; exact hx0
  refine wp_if_neg (fun h0 => sx h0.1) (wp_if_neg sx (wp_if_pos rfl ?_))
  refine wp_bind (mp_int_abs_spec hE h ha hc ho fun m1 r1 => wp_if_neg (by simp) ?_)
  refine wp_bind (mp_int_set_value_spec hE (by decide) (by decide) r1
    (by rw [upd_ne _ _ cX.symm]; exact hX) oX fun m2 r2 => ?_)
  refine wp_bind (mp_int_zero_spec r2 (by rw [upd_ne _ _ XY.symm, upd_ne _ _ cY.symm]; exact hY) fun m3 r3 => wp_pure (hQ m3 ?_))
  convert r3 using 1
  unfold egcdPut updO; upd_tac

theorem mp_int_egcd_00 {Q : Int → Mem → Prop} {X Y : Option Id} (h : R2 m σ) (ha : σ a = some 0) (hb : σ b = some 0)
    (hXY : X ≠ none ∨ Y ≠ none) (hQ : Q MP_UNDEF m) : wp env E (mp_int_egcd a b c X Y) Q m := by
  unfold mp_int_egcd
  refine wp_bind (wp_cassert (decide_eq_true hXY) ?_)
  refine wp_bind (CMPZ_spec h ha ?_)
  refine wp_bind (CMPZ_spec h hb ?_)
  exact wp_if_pos ⟨rfl, rfl⟩ (wp_pure hQ)

theorem mp_int_invmod_spec {Q : Int → Mem → Prop} {M : Id} (hE : Ref env E) (h : R2 m σ)
    (ha : σ a = some x) (hM : σ M = some y) (hc : σ c = some w) (ho : c.own = true)
    (hQ0 : x = 0 ∨ y ≤ 0 → Q MP_RANGE m)
    (hQ1 : x ≠ 0 → 0 < y → Int.gcd x y ≠ 1 → ∀ m', R2 m' σ → Q MP_UNDEF m')
    (hQ : ∀ P R : Int, x ≠ 0 → 0 < y → Int.gcd x y = 1 → P * |x| + R * y = 1 → ∀ m',
      R2 m' (upd σ c (some (if x < 0 then y - P % y else P % y))) → Q MP_OK m') :
    wp env E (mp_int_invmod a M c) Q m := by
  unfold mp_int_invmod
  refine wp_bind (CMPZ_spec h ha ?_)
  refine wp_bind (wp_cif (fun h0 => wp_pure ?_) (fun h0 => CMPZ_spec h hM ?_))
  · exact wp_if_pos (.inl h0) (wp_pure (hQ0 (.inl (Int.sign_eq_zero_iff_zero.1 h0))))
  have hx0 : x ≠ 0 := fun e => h0 (by rw [e]; rfl)
  have hs : y.sign ≤ 0 ↔ y ≤ 0 := by
    rcases lt_trichotomy y 0 with e | e | e
    · rw [Int.sign_eq_neg_one_of_neg e]; omega
    · rw [e]; simp
    · rw [Int.sign_eq_one_of_pos e]; omega
  refine wp_ite (fun h1 => ?_) (fun h1 => ?_)
  · rcases h1 with h1 | h1
    · exact absurd h1 h0
    · exact wp_pure (hQ0 (.inr (hs.1 h1)))
  have hy : 0 < y := by
    by_contra hy
    exact h1 (.inr (hs.2 (by omega)))
  refine withTemp2_spec h fun T V σ1 m1 g1 r1 hV => ?_
  replace g1 := g1.start [0, 0] hV
  refine wp_require (mp_int_egcd_nz hE r1 (g1.out ha) (g1.out hM) hx0 (by omega) (by simp) ?_ (by simp) (g1.get 0) (g1.ow 0)
    fun P R hPR _ m2 r2 => ⟨rfl, ?_⟩)
  · rintro z ⟨⟩; exact ⟨⟨_, g1.get 1⟩, g1.ow 1⟩
  rw [abs_of_pos hy] at hPR
  unfold egcdPut updO at r2
  obtain ⟨σ2, r2, g2⟩ := (show Tmps σ 2 T _ _ from by
    have g := g1.lset 1 P
    tsimp at g; exact g).up 0 r2
  tsimp at g2
  refine wp_bind (mp_int_compare_value_spec (by decide) (by decide) r2 (g2.get 0) fun m3 r3 => ?_)
  tsimp
  refine wp_ite (fun hcmp => ?_) (fun hcmp => ?_)
  · refine wp_pure (.mk g2 r3 (hQ1 hx0 hy fun e => hcmp ?_))
    rw [e]; rfl
  have hg : Int.gcd x y = 1 := by
    unfold cmpZ at hcmp
    by_contra hne
    revert hcmp
    split
    · simp
    · split
      · omega
      · simp
  refine wp_require (mp_int_mod_spec hE r3 (g2.get 1) (g2.out hM) (g2.get 1) (g2.ow 1) (fun e => by omega) fun _ m4 r4 => ⟨rfl, ?_⟩)
  obtain ⟨σ4, r4, g4⟩ := g2.up 1 r4
  tsimp at g4
  rw [modOf_pos _ hy] at g4
  rw [hg] at hPR
  refine wp_bind (MP_SIGN_spec r4 (g4.out ha) ?_)
  refine wp_ite (fun hs => ?_) (fun hs => ?_)
  · rw [decide_eq_true_eq] at hs
    refine wp_require (mp_int_sub_spec hE r4 (g4.out hM) (g4.get 1) (g4.out hc) ho fun m5 r5 => ⟨rfl, wp_pure ?_⟩)
    obtain ⟨σ5, r5, g5⟩ := g4.up_out hc r5
    refine .mk g5 r5 fun m6 r6 => hQ P R hx0 hy hg (by exact_mod_cast hPR.symm) m6 ?_
    rw [if_pos hs]; exact r6
  · rw [decide_eq_true_eq] at hs
    refine wp_require (mp_int_copy_spec hE r4 (g4.get 1) (g4.out hc) ho fun m5 r5 => ⟨rfl, wp_pure ?_⟩)
    obtain ⟨σ5, r5, g5⟩ := g4.up_out hc r5
    refine .mk g5 r5 fun m6 r6 => hQ P R hx0 hy hg (by exact_mod_cast hPR.symm) m6 ?_
    rw [if_neg hs]; exact r6

end Imath
