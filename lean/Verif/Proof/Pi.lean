import Verif.Model.Pi
import Verif.Proof.PiMath
import Verif.Proof.Gmp

/-!
# Proofs about `examples/pi.c`
-/

namespace Imath

variable {env : Env} {E : Fault → Prop} {m : Mem} {σ σ' : Id → Option Int} {sum : Id} {w : Int}

theorem wp_csmall {x : Int} {Q : Int → Mem → Prop} (h1 : SMALL_MIN ≤ x) (h2 : x ≤ SMALL_MAX) (hQ : Q x m) :
    wp env E (csmall x) Q m := wp_if_pos ⟨h1, h2⟩ (wp_pure hQ)

section
variable {α : Type} {Q : α → Mem → Prop} {k2 : Id → Id → M α}

theorem unchkInit2 (h : R2 m σ)
    (hk : ∀ T σ' m', Tmps σ 2 T (L [0, 0]) σ' → R2 m' σ' →
      wp env E (k2 (T 0) (T 1)) (fun r m'' => TDone 2 T Q r m'') m') :
    wp env E (withUnchk mp_int_init fun t0 => withUnchk mp_int_init fun t1 => k2 t0 t1) Q m := by
  refine wp_mono (withUnchk_spec (Q := Q) (v := 0) h (Tmps.nil σ (fun _ => .tmp 0) fun _ => 0)
    (fun t m1 P h1 hd' hn ho hP => mp_int_init_spec h1 hd' hn hP) fun t m1 g h1 => ?_) fun _ _ => TDone.elim
  refine withUnchk_spec (v := 0) h1 g (fun t m1 P h1 hd' hn ho hP => mp_int_init_spec h1 hd' hn hP) fun t' m2 g2 h2 => ?_
  refine hk (nset (nset (fun _ => .tmp 0) 0 t) 1 t') _ m2 (g2.congr (fun _ _ => rfl) fun i hi => ?_) h2
  rcases show i = 0 ∨ i = 1 by omega with rfl | rfl <;> rfl

end

theorem atan_step (M x i : Nat) (hx : 0 < x) : M * x / (x * x) ^ (i + 1) = M / x ^ (2 * i + 1) := by
  rw [← sq, ← pow_mul, show 2 * (i + 1) = 2 * i + 1 + 1 by ring, pow_succ x (2 * i + 1)]
  exact Nat.mul_div_mul_right _ _ hx

theorem atan_term (M x i : Nat) (hx : 0 < x) :
    (((M * x / (x * x) ^ (i + 1) : Nat) : Int)).tdiv (2 * (i : Int) + 1) = (atanTerm M x i : Int) := by
  rw [atan_step M x i hx, show (2 * (i : Int) + 1) = ((2 * i + 1 : Nat) : Int) by push_cast; rfl, ← Int.ofNat_tdiv,
    Nat.div_div_eq_div_mul, Nat.mul_comm, atanTerm]

theorem arctanLoop_step {Q : Int → Mem → Prop} {T : Nat → Id} (hE : Ref env E) {M x : Nat} (hx : 2 ≤ x)
    (hx2 : x * x ≤ SMALL_MAX) (ho : sum.own = true) (f i : Nat) {vv : Int} (hi : i < 2 ^ 60)
    (hs : σ sum = some (atanSum M x i))
    (g : Tmps σ 2 T (L [((M * x / (x * x) ^ i : Nat) : Int), vv]) σ') (h : R2 m σ')
    (hQ : ∀ m' σ'', Tmps (upd σ sum (some (atanSum M x (i + 1)))) 2 T
        (L [((M * x / (x * x) ^ (i + 1) : Nat) : Int), (atanTerm M x i : Int)]) σ'' → R2 m' σ'' →
      if M * x / (x * x) ^ (i + 1) = 0 then Q MP_OK m'
      else wp env E (arctanLoop (T 0) (T 1) sum ((x * x : Nat) : Int) f ((-1) ^ (i + 1)) (2 * ((i + 1 : Nat) : Int) + 1)) Q m') :
    wp env E (arctanLoop (T 0) (T 1) sum ((x * x : Nat) : Int) (f + 1) ((-1) ^ i) (2 * (i : Int) + 1)) Q m := by
  have hxx : 4 ≤ x * x := Nat.mul_le_mul hx hx
  unfold arctanLoop
  refine wp_bind (mp_int_div_value_spec hE (by omega) (by omega) h (g.get 0) ?_ (fun h0 => by omega) fun _ m1 h1 => ?_)
  · rintro z hz; cases hz; exact ⟨⟨_, g.get 0⟩, g.ow 0⟩
  obtain ⟨σ1, h1, g1⟩ := g.up 0 h1
  tsimp at g1
  rw [← Int.ofNat_tdiv, Nat.div_div_eq_div_mul, ← pow_succ] at g1
  refine wp_if_neg (by simp) ?_
  refine wp_bind (mp_int_div_value_spec hE (by omega) (by omega) h1 (g1.get 0) ?_ (fun h0 => by omega) fun _ m2 h2 => ?_)
  · rintro z hz; cases hz; exact ⟨⟨_, g1.get 1⟩, g1.ow 1⟩
  obtain ⟨σ2, h2, g2⟩ := g1.up 1 h2
  tsimp at g2
  rw [atan_term M x i (by omega)] at g2
  refine wp_if_neg (by simp) ?_
  have key : ∀ m3, R2 m3 (upd σ2 sum (some (atanSum M x (i + 1)))) → wp env E (do
      let sign ← csmall (-(-1) ^ i)
      let coeff ← csmall (2 * (i : Int) + 1 + 2)
      let c ← mp_int_compare_zero (T 0)
      if c ≠ 0 then arctanLoop (T 0) (T 1) sum ((x * x : Nat) : Int) f sign coeff else pure MP_OK) Q m3 := by
    intro m3 h3
    obtain ⟨σ3, h3, g3⟩ := g2.up_out hs h3
    refine wp_bind (wp_csmall ?_ ?_ ?_)
    · rcases neg_one_pow_eq_or Int i with e | e <;> rw [e] <;> decide
    · rcases neg_one_pow_eq_or Int i with e | e <;> rw [e] <;> decide
    generalize hcf : 2 * (i : Int) + 1 + 2 = cf
    refine wp_bind (wp_csmall (x := cf) (by omega) (by omega) ?_)
    subst hcf
    refine wp_bind (mp_int_compare_zero_spec h3 (g3.get 0) ?_)
    have := hQ m3 σ3 g3 h3
    tsimp
    by_cases h0 : M * x / (x * x) ^ (i + 1) = 0
    · rw [if_pos h0] at this
      rw [h0]
      exact wp_if_neg (by simp) (wp_pure this)
    · rw [if_neg h0] at this
      refine wp_if_pos ?_ ?_
      · intro hc
        exact h0 (by exact_mod_cast Int.sign_eq_zero_iff_zero.1 hc)
      · rw [pow_succ, show 2 * ((i + 1 : Nat) : Int) + 1 = 2 * (i : Int) + 1 + 2 by push_cast; ring] at this
        rw [show -(-1 : Int) ^ i = (-1) ^ i * -1 by ring]
        exact this
  refine wp_bind (wp_cif (fun hsg => ?_) fun hsg => ?_)
  · refine mp_int_add_spec hE h2 (g2.out hs) (g2.get 1) (g2.out hs) ho fun m3 h3 => ?_
    refine wp_if_neg (by simp) (key m3 ?_)
    have e : (-1 : Int) ^ i = 1 := by rcases neg_one_pow_eq_or Int i with e | e <;> rw [e] at hsg ⊢; omega
    rw [atanSum, e, one_mul]; exact h3
  · refine mp_int_sub_spec hE h2 (g2.out hs) (g2.get 1) (g2.out hs) ho fun m3 h3 => ?_
    refine wp_if_neg (by simp) (key m3 ?_)
    have e : (-1 : Int) ^ i = -1 := by
      rcases neg_one_pow_eq_or Int i with e | e <;> rw [e] at hsg ⊢
      exact absurd (by decide) hsg
    rw [atanSum, e, neg_one_mul, ← sub_eq_add_neg]; exact h3

theorem arctanLoop_spec {Q : Int → Mem → Prop} {T : Nat → Id} (hE : Ref env E) {M x F : Nat} (hx : 2 ≤ x)
    (hx2 : x * x ≤ SMALL_MAX) (hF : F < 2 ^ 60) (ho : sum.own = true) :
    ∀ (f i : Nat) {m : Mem} {σ σ' : Id → Option Int} {vv : Int}, i + f ≤ F → M * x / (x * x) ^ i < 2 ^ f →
    σ sum = some (atanSum M x i) →
    Tmps σ 2 T (L [((M * x / (x * x) ^ i : Nat) : Int), vv]) σ' → R2 m σ' →
    (∀ n v' m' σ'', M * x / (x * x) ^ (n + 1) = 0 →
      Tmps (upd σ sum (some (atanSum M x (n + 1)))) 2 T (L [0, v']) σ'' → R2 m' σ'' → Q MP_OK m') →
    wp env E (arctanLoop (T 0) (T 1) sum ((x * x : Nat) : Int) (f + 1) ((-1) ^ i) (2 * (i : Int) + 1)) Q m := by
  have hxx : 4 ≤ x * x := Nat.mul_le_mul hx hx
  intro f
  induction f with
  | zero =>
    intro i m σ σ' vv hiF ht hs g h hQ
    refine arctanLoop_step hE hx hx2 ho 0 i (by omega) hs g h fun m' σ'' g' h' => ?_
    have h0 : M * x / (x * x) ^ (i + 1) = 0 := by
      rw [pow_succ, ← Nat.div_div_eq_div_mul, show M * x / (x * x) ^ i = 0 from Nat.lt_one_iff.1 ht, Nat.zero_div]
    rw [if_pos h0]
    rw [h0] at g'
    exact hQ i _ m' σ'' h0 g' h'
  | succ f ih =>
    intro i m σ σ' vv hiF ht hs g h hQ
    refine arctanLoop_step hE hx hx2 ho (f + 1) i (by omega) hs g h fun m' σ'' g' h' => ?_
    split
    · rename_i h0
      rw [h0] at g'
      exact hQ i _ m' σ'' h0 g' h'
    · refine ih (i + 1) (by omega) ?_ (upd_self ..) g' h' fun n v' m' σ'' hn g'' h'' => ?_
      · rw [pow_succ, ← Nat.div_div_eq_div_mul]
        refine Nat.div_lt_of_lt_mul (lt_of_lt_of_le ht ?_)
        rw [pow_succ, Nat.mul_comm]
        exact Nat.mul_le_mul_right _ (by omega)
      · rw [upd_upd] at g''
        exact hQ n v' m' σ'' hn g'' h''

theorem atanSum_any {M x n K : Nat} (hx : 2 ≤ x) (hn : M * x / (x * x) ^ (n + 1) = 0) (hK : M < x ^ (2 * K + 1)) :
    atanSum M x (n + 1) = atanSum M x K := by
  rw [atan_step M x n (by omega)] at hn
  have hn : M < x ^ (2 * n + 1) := by
    have := Nat.div_eq_zero_iff.1 hn
    rcases this with h | h
    · exact absurd h (by positivity)
    · exact h
  have h1 := atanSum_stop hx hn (K + 1)
  have h2 := atanSum_stop hx hn 1
  have h3 := atanSum_stop hx hK (n + 1)
  rw [h2, ← h1, ← h3]
  congr 1; omega

theorem arctan_spec {Q : Int → Mem → Prop} (hE : Ref env E) {r mul x p : Nat} (hr0 : 0 < r) (hr : r ≤ SMALL_MAX) (hm : mul ≤ SMALL_MAX)
    (hx : 2 ≤ x) (hx2 : x * x ≤ SMALL_MAX) (hp : p + 1 < 2 ^ 32) (h : R2 m σ) (hs : σ sum = some w) (ho : sum.own = true)
    (hQ : ∀ v m', (∀ K, mul * r ^ (p + 1) < x ^ (2 * K + 1) → v = (atanSum (mul * r ^ (p + 1)) x K).tdiv r) →
      R2 m' (upd σ sum (some v)) → Q MP_OK m') :
    wp env E (arctan r mul x p sum) Q m := by
  have hx1 : x ≤ x * x := Nat.le_mul_self x
  unfold arctan
  refine unchkInit2 h fun T σ1 m1 g h1 => ?_
  generalize hpp : (p : Int) + 1 = pp
  refine wp_bind (wp_csmall (x := pp) (by omega) (by omega) ?_)
  subst hpp
  refine wp_bind (mp_int_expt_value_spec hE h1 (by omega) (by omega) (g.get 0) (g.ow 0) (fun h0 => by omega) fun _ m2 h2 => ?_)
  obtain ⟨σ2, h2, g2⟩ := g.up 0 h2
  tsimp at g2
  refine wp_if_neg (by simp) ?_
  refine wp_bind (mp_int_mul_value_spec hE (by omega) (by omega) h2 (g2.get 0) (g2.get 0) (g2.ow 0) fun m3 h3 => ?_)
  obtain ⟨σ3, h3, g3⟩ := g2.up 0 h3
  tsimp at g3
  refine wp_if_neg (by simp) ?_
  refine wp_bind (mp_int_mul_value_spec hE (by omega) (by omega) h3 (g3.get 0) (g3.get 0) (g3.ow 0) fun m4 h4 => ?_)
  obtain ⟨σ4, h4, g4⟩ := g3.up 0 h4
  tsimp at g4
  refine wp_if_neg (by simp) ?_
  have e : (r : Int) ^ (((p : Int) + 1) % 2 ^ 32).toNat * mul * x = ((mul * r ^ (p + 1) * x : Nat) : Int) := by
    have : (((p : Int) + 1) % 2 ^ 32).toNat = p + 1 := by omega
    rw [this]; push_cast; ring
  rw [e] at g4
  generalize hM : mul * r ^ (p + 1) = M at *
  refine wp_bind (wp_csmall ?_ ?_ ?_)
  · have : (0 : Int) ≤ (x : Int) * x := by positivity
    omega
  · exact_mod_cast hx2
  refine wp_bind (mp_int_zero_spec h4 (g4.out hs) fun m5 h5 => ?_)
  obtain ⟨σ5, h5, g5⟩ := g4.up_out hs h5
  refine wp_bind (MP_USED_spec h5 (g5.get 0) fun u hu1 hu2 hlt _ => ?_)
  tsimp at hlt
  have hlt : M * x / (x * x) ^ 0 < 2 ^ (32 * u + 1) := by
    rw [pow_zero, Nat.div_one]
    have : 𝔹 ^ u = 2 ^ (32 * u) := by rw [pow_mul, show (2 : Nat) ^ 32 = 4294967296 from rfl]
    rw [Int.natAbs_natCast, this] at hlt
    refine hlt.trans_le (Nat.pow_le_pow_right (by omega) (by omega))
  have hs5 : upd σ sum (some 0) sum = some (atanSum M x 0) := upd_self ..
  have g5' : Tmps (upd σ sum (some 0)) 2 T (L [((M * x / (x * x) ^ 0 : Nat) : Int), 0]) σ5 := by
    rw [pow_zero, Nat.div_one]; exact g5
  refine wp_bind (arctanLoop_spec hE hx hx2 (F := 32 * u + 1) (by omega) ho (32 * u + 1) 0 (by omega) hlt hs5 g5' h5
    fun n v' m6 σ6 hn g6 h6 => ?_)
  refine wp_if_neg (by simp) ?_
  rw [upd_upd] at g6
  refine wp_bind (mp_int_div_value_spec hE (by omega) (by omega) h6 (g6.out (upd_self ..)) ?_ (fun h0 => by omega) fun _ m7 h7 => ?_)
  · rintro z hz; cases hz; exact ⟨⟨_, g6.out (upd_self ..)⟩, ho⟩
  obtain ⟨σ7, h7, g7⟩ := g6.up_out (upd_self ..) h7
  rw [upd_upd] at g7
  refine wp_pure (.mk g7 h7 fun m8 h8 => hQ _ m8 (fun K hK => ?_) h8)
  rw [atanSum_any hx hn hK]

theorem piSum_spec {α : Type} {Q : α → Mem → Prop} {err : α} {k : Id → M α} (hE : Ref env E) {r n : Nat} (hr0 : 0 < r)
    (hr : r ≤ SMALL_MAX) (hn : n + 1 < 2 ^ 32) (h : R2 m σ)
    (hk : ∀ v T σ' w' m', (∀ K1 K2, 16 * r ^ (n + 1) < 5 ^ (2 * K1 + 1) → 4 * r ^ (n + 1) < 239 ^ (2 * K2 + 1) →
        v = (atanSum (16 * r ^ (n + 1)) 5 K1).tdiv r - (atanSum (4 * r ^ (n + 1)) 239 K2).tdiv r) →
      Tmps σ 2 T (L [v, w']) σ' → R2 m' σ' → wp env E (k (T 0)) (fun r m'' => TDone 2 T Q r m'') m') :
    wp env E (piSum r n err k) Q m := by
  unfold piSum
  refine unchkInit2 h fun T σ1 m1 g h1 => ?_
  refine wp_bind (arctan_spec hE (mul := 16) (x := 5) hr0 hr (by decide) (by decide) (by decide) hn h1 (g.get 0) (g.ow 0)
    fun v1 m2 hv1 h2 => ?_)
  obtain ⟨σ2, h2, g2⟩ := g.up 0 h2
  tsimp at g2
  refine wp_if_neg (by simp) ?_
  refine wp_bind (arctan_spec hE (mul := 4) (x := 239) hr0 hr (by decide) (by decide) (by decide) hn h2 (g2.get 1) (g2.ow 1)
    fun v2 m3 hv2 h3 => ?_)
  obtain ⟨σ3, h3, g3⟩ := g2.up 1 h3
  tsimp at g3
  refine wp_if_neg (by simp) ?_
  refine wp_bind (mp_int_sub_spec hE h3 (g3.get 0) (g3.get 1) (g3.get 0) (g3.ow 0) fun m4 h4 => ?_)
  obtain ⟨σ4, h4, g4⟩ := g3.up 0 h4
  tsimp at g4
  refine wp_if_neg (by simp) ?_
  exact hk _ T σ4 _ m4 (fun K1 K2 h1 h2 => by rw [hv1 K1 h1, hv2 K2 h2]) g4 h4

/-- The error of one of the sums. -/
theorem arctan_error {mul r x p K : Nat} (hr : 0 < r) (hx : 2 ≤ x) (hK : mul * r ^ (p + 1) < x ^ (2 * K + 1)) :
    |(((atanSum (mul * r ^ (p + 1)) x K).tdiv r : Int) : ℝ) - mul * r ^ p * Real.arctan (x : ℝ)⁻¹| < 1 + (K + 3) / (2 * r) := by
  have h1 := atanSum_error hx K hK
  have h2 := tdiv_error (atanSum (mul * r ^ (p + 1)) x K) hr
  generalize atanSum (mul * r ^ (p + 1)) x K = s at *
  have hr' : (0 : ℝ) < r := by exact_mod_cast hr
  push_cast at h1
  generalize Real.arctan (x : ℝ)⁻¹ = A at *
  have h3 : |(s : ℝ) / r - mul * r ^ p * A| ≤ (K + 3) / (2 * r) := by
    have e : (s : ℝ) / r - mul * r ^ p * A = (s - mul * r ^ (p + 1) * A) / r := by field_simp; ring
    rw [e, abs_div, abs_of_pos hr', div_le_div_iff₀ hr' (by positivity)]
    nlinarith
  have h4 := abs_sub_le (((s.tdiv r : Int) : ℝ)) (s / r) (mul * r ^ p * A)
  linarith

/-- The error of the difference. -/
theorem pi_error {r n K1 K2 : Nat} (hr : 0 < r) (h1 : 16 * r ^ (n + 1) < 5 ^ (2 * K1 + 1)) (h2 : 4 * r ^ (n + 1) < 239 ^ (2 * K2 + 1)) :
    |((((atanSum (16 * r ^ (n + 1)) 5 K1).tdiv r - (atanSum (4 * r ^ (n + 1)) 239 K2).tdiv r : Int)) : ℝ) - r ^ n * Real.pi| <
      2 + (K1 + K2 + 6) / (2 * r) := by
  have e1 := arctan_error (mul := 16) hr (by decide) h1
  have e2 := arctan_error (mul := 4) hr (by decide) h2
  have hpi := Real.four_mul_arctan_inv_5_sub_arctan_inv_239
  have hr' : (0 : ℝ) < r := by exact_mod_cast hr
  push_cast at *
  generalize Real.arctan (5 : ℝ)⁻¹ = A at *
  generalize Real.arctan (239 : ℝ)⁻¹ = B at *
  generalize (((atanSum (16 * r ^ (n + 1)) 5 K1).tdiv r : Int) : ℝ) = u at *
  generalize (((atanSum (4 * r ^ (n + 1)) 239 K2).tdiv r : Int) : ℝ) = v at *
  have e3 : (r : ℝ) ^ n * Real.pi = 16 * r ^ n * A - 4 * r ^ n * B := by
    have : Real.pi = 16 * A - 4 * B := by linarith
    rw [this]; ring
  have e4 : ((K1 : ℝ) + K2 + 6) / (2 * r) = (K1 + 3) / (2 * r) + (K2 + 3) / (2 * r) := by rw [← add_div]; ring
  rw [e3, e4, abs_lt]
  rw [abs_lt] at e1 e2
  constructor <;> linarith [e1.1, e1.2, e2.1, e2.2]

/-- Enough terms for the radices that are allowed. -/
theorem pi_terms {r n : Nat} (hr : r ≤ 36) :
    16 * r ^ (n + 1) < 5 ^ (2 * (2 * n + 2) + 1) ∧ 4 * r ^ (n + 1) < 239 ^ (2 * n + 1) := by
  have h1 : r ^ (n + 1) ≤ 36 ^ (n + 1) := Nat.pow_le_pow_left hr _
  constructor
  · have h2 : 5 ^ (2 * (2 * n + 2) + 1) = 5 * 625 ^ (n + 1) := by
      rw [show 2 * (2 * n + 2) + 1 = 4 * (n + 1) + 1 by ring, pow_succ, pow_mul]; norm_num; ring
    have h3 : 36 ^ (n + 1) * 17 ≤ 625 ^ (n + 1) := by
      rw [pow_succ 36, pow_succ 625]
      have : 36 ^ n ≤ 625 ^ n := Nat.pow_le_pow_left (by decide) _
      omega
    have h4 : 0 < 36 ^ (n + 1) := by positivity
    omega
  · have h2 : 239 ^ (2 * n + 1) = 239 * 57121 ^ n := by rw [pow_succ, pow_mul]; norm_num; ring
    have h3 : 36 ^ n ≤ 57121 ^ n := Nat.pow_le_pow_left (by decide) _
    have h4 : 36 ^ (n + 1) = 36 * 36 ^ n := by rw [pow_succ]; ring
    have h5 : 0 < 36 ^ n := by positivity
    omega

/-- With radix four or more the value has one digit before the point. -/
theorem pi_digits {r n : Nat} {v : Int} (hr4 : 4 ≤ r) (hn : 1 ≤ n)
    (h : |(v : ℝ) - r ^ n * Real.pi| < 2 + (3 * n + 8) / (2 * r)) : (r : Int) ^ n ≤ v ∧ v < (r : Int) ^ (n + 1) := by
  have hp1 := Real.pi_gt_d4
  have hp2 := Real.pi_lt_d4
  have hr' : (4 : ℝ) ≤ r := by exact_mod_cast hr4
  have hn' : (1 : ℝ) ≤ n := by exact_mod_cast hn
  have h4 : ∀ k : Nat, 12 * (k + 1) ≤ 4 ^ (k + 1) + 8 := by
    intro k
    induction k with
    | zero => decide
    | succ k ih => rw [pow_succ]; omega
  have h5 : (12 : ℝ) * n ≤ 4 ^ n + 8 := by
    have := h4 (n - 1)
    rw [show n - 1 + 1 = n by omega] at this
    exact_mod_cast this
  have h6 : (4 : ℝ) ^ n ≤ r ^ n := pow_le_pow_left₀ (by norm_num) hr' n
  have h7 : ((3 : ℝ) * n + 8) / (2 * r) ≤ (3 * n + 8) / 8 := div_le_div_of_nonneg_left (by positivity) (by norm_num) (by linarith)
  generalize hR : (r : ℝ) ^ n = R at *
  rw [abs_lt] at h
  constructor
  · have : (R : ℝ) ≤ v := by nlinarith
    rw [← hR] at this
    exact_mod_cast this
  · have : (v : ℝ) < R * r := by nlinarith
    rw [← hR, ← pow_succ] at this
    exact_mod_cast this

/-- With radix two or three the value has two digits before the point. -/
theorem pi_digits23 {r n : Nat} {v : Int} (hr : r = 2 ∨ r = 3)
    (hv : v = (atanSum (16 * r ^ (n + 1)) 5 (2 * n + 2)).tdiv r - (atanSum (4 * r ^ (n + 1)) 239 n).tdiv r)
    (h : |(v : ℝ) - r ^ n * Real.pi| < 2 + (3 * n + 8) / (2 * r)) : (r : Int) ^ (n + 1) ≤ v := by
  have hp1 := Real.pi_gt_d4
  by_cases hn : n < 4
  · have t : ∀ n < 4, ∀ r ∈ ([2, 3] : List Nat), (r : Int) ^ (n + 1) ≤
        (atanSum (16 * r ^ (n + 1)) 5 (2 * n + 2)).tdiv r - (atanSum (4 * r ^ (n + 1)) 239 n).tdiv r := by decide +kernel
    rw [hv]
    exact t n hn r (by simpa using hr)
  · obtain ⟨k, rfl⟩ : ∃ k, n = k + 4 := ⟨n - 4, by omega⟩
    have h4 : ∀ k : Nat, k + 1 ≤ 2 ^ k := fun k => Nat.lt_two_pow_self
    have h2 : (k : ℝ) + 1 ≤ 2 ^ k := by exact_mod_cast h4 k
    rw [abs_lt] at h
    have h1 := h.1
    rcases hr with rfl | rfl
    · have e : ((2 : Nat) : ℝ) ^ (k + 4) = 16 * 2 ^ k := by push_cast; ring
      rw [e] at h1
      push_cast at h1
      have : (2 : ℝ) ^ (k + 4 + 1) ≤ v := by
        rw [show (2 : ℝ) ^ (k + 4 + 1) = 32 * 2 ^ k by ring]
        nlinarith
      exact_mod_cast this
    · have h3 : (2 : ℝ) ^ k ≤ 3 ^ k := pow_le_pow_left₀ (by norm_num) (by norm_num) k
      have e : ((3 : Nat) : ℝ) ^ (k + 4) = 81 * 3 ^ k := by push_cast; ring
      rw [e] at h1
      push_cast at h1
      have : (3 : ℝ) ^ (k + 4 + 1) ≤ v := by
        rw [show (3 : ℝ) ^ (k + 4 + 1) = 243 * 3 ^ k by ring]
        nlinarith
      exact_mod_cast this

end Imath
