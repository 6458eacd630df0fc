import Verif.Proof.Conv
import Mathlib.Data.Nat.Digits.Lemmas

/-! # Lengths of numerals

`s_outlen` and `s_inlen` use a table of approximations of log_r 2.  A fraction p/q with 2^q ≤ r^p is an
upper bound of log_r 2, and one with r^q ≤ 2^p bounds its reciprocal; these inequalities between
integers are what the proofs use, so no logarithm occurs. -/

namespace Imath

variable {env : Env} {E : Fault → Prop} {m : Mem} {σ : Id → Option Int} {z : Id} {v : Int}

theorem lin_le {a b c d B x : Nat} (h0 : c ≤ d) (hB : B * a + c ≤ B * b + d) (hx : x ≤ B) :
    x * a + c ≤ x * b + d := by
  rcases Nat.le_total a b with h | h
  · have := Nat.mul_le_mul_left x h; omega
  · obtain ⟨e, rfl⟩ := Nat.exists_eq_add_of_le h
    have := Nat.mul_le_mul_right e hx
    rw [Nat.mul_add] at hB ⊢
    omega

theorem outlen_bounds (env : Env) {bits l : Nat} (hb : bits ≤ 2147483648) (hl : l ≤ 1000000000) :
    ((bits * l + 999998000 : Nat) : Rat) / 1000000000 ≤
      env.fl (env.fl (bits * env.fl (l / 1000000000)) + env.fl (999999 / 1000000)) ∧
    env.fl (env.fl (bits * env.fl (l / 1000000000)) + env.fl (999999 / 1000000)) <
      ((bits * l + 1000000000 : Nat) : Rat) / 1000000000 := by
  have hb' : (bits : Rat) ≤ 2147483648 := by exact_mod_cast hb
  have hb0 : (0 : Rat) ≤ bits := by positivity
  have hl' : (l : Rat) ≤ 1000000000 := by exact_mod_cast hl
  have hl0 : (0 : Rat) ≤ l := by positivity
  obtain ⟨S, hS⟩ : ∃ S : Rat, S = l / 1000000000 := ⟨_, rfl⟩
  have hS0 : 0 ≤ S := by rw [hS]; positivity
  have hS1 : S ≤ 1 := by rw [hS]; linarith
  obtain ⟨e1, e2⟩ := env.fl_err S hS0
  rw [← hS]
  generalize env.fl S = l' at *
  have p1 : bits * S - 2147483648 / 9007199254740992 ≤ bits * l' := by nlinarith
  have p2 : bits * l' ≤ bits * S + 2147483648 / 9007199254740992 := by nlinarith
  have hbS : bits * S ≤ 2147483648 := by nlinarith
  have hbS0 : 0 ≤ bits * S := mul_nonneg hb0 hS0
  have hl'0 : 0 ≤ l' := by linarith
  have hy0 : 0 ≤ bits * l' := mul_nonneg hb0 hl'0
  obtain ⟨e3, e4⟩ := env.fl_err _ hy0
  generalize (bits : Rat) * l' = y at *
  generalize env.fl y = raw at *
  obtain ⟨e5, e6⟩ := env.fl_err (999999 / 1000000) (by norm_num)
  generalize env.fl (999999 / 1000000) = c at *
  have hrc : 0 ≤ raw + c := by linarith
  obtain ⟨e7, e8⟩ := env.fl_err _ hrc
  generalize env.fl (raw + c) = X at *
  have hE : ((bits * l : Nat) : Rat) / 1000000000 = bits * S := by rw [hS]; push_cast; ring
  have h1 : ((bits * l + 999998000 : Nat) : Rat) / 1000000000 = bits * S + 999998 / 1000000 := by
    rw [← hE]; push_cast; ring
  have h2 : ((bits * l + 1000000000 : Nat) : Rat) / 1000000000 = bits * S + 1 := by
    rw [← hE]; push_cast; ring
  rw [h1, h2]
  constructor <;> linarith

theorem floor_between {X : Rat} {a b : Nat} (h1 : (a : Rat) / 1000000000 ≤ X) (h2 : X < (b : Rat) / 1000000000) :
    ((a / 1000000000 : Nat) : Int) ≤ X.floor ∧ X.floor * 1000000000 < b := by
  constructor
  · rw [Rat.le_floor_iff]
    refine le_trans ?_ h1
    rw [le_div_iff₀ (by norm_num)]
    have := Nat.div_mul_le_self a 1000000000
    exact_mod_cast this
  · have h3 : ((X.floor : Int) : Rat) ≤ X := Rat.floor_le X
    have h4 : ((X.floor : Int) : Rat) < (b : Rat) / 1000000000 := lt_of_le_of_lt h3 h2
    rw [lt_div_iff₀ (by norm_num)] at h4
    exact_mod_cast h4

/-- Digits in radix `r` of a number of `bits` bits. -/
theorem digits_len_cert {r n bits P Q : Nat} (hr : 2 ≤ r) (hn : n ≠ 0) (hb : n < 2 ^ bits) (hc : 2 ^ Q ≤ r ^ P) :
    ((Nat.digits r n).length - 1) * Q < P * bits ∨ Q = 0 := by
  rcases Nat.eq_zero_or_pos Q with h0 | h0
  · exact .inr h0
  left
  have hlen := digits_len_pos hr hn
  have h1 : r ^ ((Nat.digits r n).length - 1) ≤ n := by
    have := Nat.base_pow_length_digits_le r n (by omega) hn
    obtain ⟨k, hk⟩ : ∃ k, (Nat.digits r n).length = k + 1 := ⟨_, (Nat.sub_add_cancel hlen).symm⟩
    rw [hk, Nat.pow_succ] at this
    rw [hk, Nat.add_sub_cancel]
    exact Nat.le_of_mul_le_mul_left (by rw [Nat.mul_comm]; exact this) (by omega : 0 < r)
  have h2 : (r ^ ((Nat.digits r n).length - 1)) ^ Q < (2 ^ bits) ^ Q :=
    Nat.pow_lt_pow_left (lt_of_le_of_lt h1 hb) (by omega)
  have h3 : (2 ^ bits) ^ Q ≤ r ^ (P * bits) := by
    rw [← Nat.pow_mul, Nat.mul_comm bits Q, Nat.pow_mul, Nat.pow_mul]
    exact Nat.pow_le_pow_left hc _
  rw [← Nat.pow_mul] at h2
  exact (Nat.pow_lt_pow_iff_right (by omega : 1 < r)).1 (lt_of_lt_of_le h2 h3)

def lenCert : List (Nat × Nat × Nat) := [(1, 1, 0), (1, 1, 0),
  (1, 1, 2147483648), (31867, 50508, 2147483648), (1, 2, 2147483648), (12655, 29384, 47710), (665, 1719, 40237),
  (88349, 248027, 16825), (1, 3, 999994000), (31867, 101016, 2147483648), (12655, 42039, 2147483648), (16503, 57091, 47032),
  (16266, 58313, 2147483648), (5231, 19357, 18129), (88349, 336376, 22051), (48051, 187730, 2147483648), (1, 4, 2147483648),
  (4036, 16497, 112103), (8133, 33914, 2147483648), (5187, 22034, 87235), (12655, 54694, 48993), (15021, 65977, 2147483648),
  (16503, 73594, 51548), (3077, 13919, 26239), (31867, 146109, 4115011), (2002, 9297, 48736), (16147, 75898, 2147483648),
  (31867, 151524, 2147483648), (32033, 153994, 2147483648), (4943, 24013, 41061), (4049, 19868, 154781), (3515, 17414, 2147483648),
  (1, 5, 2147483648), (4415, 22271, 85868), (4036, 20533, 94532), (23027, 118112, 2147483648), (8133, 42047, 2147483648)]

def lenCert1 : List (Nat × Nat) := [(1, 1), (1, 1),
  (1, 1), (31867, 50508), (1, 2), (33961, 78855), (31867, 82375), (52781, 148175), (1, 3), (8133, 25781),
  (12655, 42039), (16503, 57091), (16266, 58313), (48895, 180933), (34997, 133246), (4049, 15819), (1, 4), (36667, 149875),
  (8133, 33914), (84319, 358181), (12655, 54694), (15021, 65977), (16503, 73594), (122910, 555991), (16266, 74579), (12655, 58768),
  (10689, 50243), (5422, 25781), (17213, 82749), (119653, 581272), (4049, 19868), (3515, 17414), (1, 5), (27819, 140330),
  (36667, 186542), (9777, 50149), (8133, 42047)]

def inCert : List (Nat × Nat) := [(1, 1), (1, 1),
  (1, 1), (20511, 12941), (2, 1), (10790, 4647), (30014, 11611), (8321, 2964), (3, 1), (21565, 6803),
  (15437, 4647), (16799, 4856), (39241, 10946), (20197, 5458), (11285, 2964), (29540, 7561), (4, 1), (17899, 4379),
  (28368, 6803), (27671, 6514), (20084, 4647), (31102, 7081), (21655, 4856), (13055, 2886), (44089, 9616), (21580, 4647),
  (25655, 5458), (22619, 4757), (14249, 2964), (28152, 5795), (17233, 3512), (35477, 7161), (5, 1), (28975, 5744),
  (22278, 4379), (17814, 3473), (31733, 6138)]

def okOut (r P Q B l : Nat) : Bool :=
  decide (1 ≤ Q) && decide (2000 * Q ≤ 1000000000) && decide (2 ^ Q ≤ r ^ P) &&
  decide (B * (P * 1000000000) + Q * 2000 ≤ B * (Q * l) + 1000000000)

def okOut1 (r P Q l : Nat) : Bool :=
  decide (1 ≤ Q) && decide (2 ^ Q ≤ r ^ P) &&
  decide (2147483648 * (P * 1000000000) ≤ 2147483648 * (Q * l) + 999998000 * Q)

def okIn (r M N l : Nat) : Bool :=
  decide (1 ≤ N) && decide (r ^ N ≤ 2 ^ M) &&
  decide (M * l * 2147483649 ≤ N * 1000000000 * 2147483649 + 31 * N * 1000000000)

theorem lenCert_ok : ∀ r < 37, 2 ≤ r → okOut r (lenCert.getD r (0, 0, 0)).1 (lenCert.getD r (0, 0, 0)).2.1
    (lenCert.getD r (0, 0, 0)).2.2 (s_log2.getD r 0) = true := by decide +kernel

theorem lenCert1_ok : ∀ r < 37, 2 ≤ r → okOut1 r (lenCert1.getD r (0, 0)).1 (lenCert1.getD r (0, 0)).2
    (s_log2.getD r 0) = true := by decide +kernel

theorem inCert_ok : ∀ r < 37, 2 ≤ r → okIn r (inCert.getD r (0, 0)).1 (inCert.getD r (0, 0)).2
    (s_log2.getD r 0) = true := by decide +kernel

theorem s_log2_range : ∀ r < 37, 2 ≤ r → s_log2[r]? = some (s_log2.getD r 0) ∧ 193426404 ≤ s_log2.getD r 0 ∧
    s_log2.getD r 0 ≤ 1000000000 := by decide +kernel

theorem R2.size_le (h : R2 m σ) (hz : σ z = some v) : Nat.size v.natAbs ≤ 2147483584 := by
  obtain ⟨s, hr, hg⟩ := h
  obtain ⟨C, hC, gC⟩ := hg.get hz
  have h1 := mag_lt (hr.okd hC) gC.norm.le
  have h2 := (hr.okl hC).2
  have h3 := gC.norm.le
  rw [← gC.natAbs] at h1
  obtain ⟨K, hK⟩ : ∃ K, K = 2147483584 := ⟨_, rfl⟩
  rw [← hK, Nat.size_le]
  refine lt_of_lt_of_le h1 ?_
  rw [show 𝔹 = 2 ^ 32 by norm_num, ← Nat.pow_mul]
  exact Nat.pow_le_pow_right (by norm_num) (by omega)

/-- Up to this number of bits, `s_outlen` is known not to be too small. -/
def lenBits (r : Nat) : Nat := if r = 24 then 2147483648 else (lenCert.getD r (0, 0, 0)).2.2

/-- Numbers for which `s_outlen` is known not to be too small. -/
def LenOk (r n : Nat) : Prop := Nat.size n ≤ lenBits r ∨ n < 13 ^ 5458

/-- The test `p` for all numbers from `lo` to `lo + 2 ^ j - 1` -/
def allFrom (p : Nat → Bool) : Nat → Nat → Bool
  | 0, lo => p lo
  | j + 1, lo => allFrom p j lo && allFrom p j (lo + 2 ^ j)

theorem allFrom_spec {p : Nat → Bool} : ∀ {j lo : Nat}, allFrom p j lo = true → ∀ k, lo ≤ k → k < lo + 2 ^ j → p k = true
  | 0, lo, h, k, h1, h2 => by
    obtain rfl : k = lo := by omega
    exact h
  | j + 1, lo, h, k, h1, h2 => by
    rw [allFrom, Bool.and_eq_true] at h
    rw [Nat.pow_succ] at h2
    rcases Nat.lt_or_ge k (lo + 2 ^ j) with h3 | h3
    · exact allFrom_spec h.1 k h1 h3
    · exact allFrom_spec h.2 k h3 (by omega)

/-- `r ^ k` has so many bits that the estimate allows for `k + 1` digits, or is not below 13 ^ 5458. -/
def okPow (r l k : Nat) : Bool :=
  Nat.ble (2 ^ (((k + 1) * 1000000000 - 999998000 + l - 1) / l - 1)) (r ^ k) || Nat.ble 5458 k && Nat.beq r 13

theorem okPow_7 : allFrom (okPow 7 356207187) 13 0 = true := by decide +kernel

theorem okPow_13 : allFrom (okPow 13 270238154) 13 0 = true := by decide +kernel

theorem pow_lens : ∀ r < 37, 2 ≤ r → r = 7 ∨ r = 13 ∨ 20197 ≤ lenBits r := by decide +kernel

theorem pow_7_13 : 13 ^ 5458 ≤ 7 ^ 8192 := by decide +kernel

theorem outlen_pow {r n l C : Nat} (hr : 7 ≤ r) (hl : 1 ≤ l) (hn : n ≠ 0) (hC : C = 13 ^ 5458) (hlt : n < C)
    (c : allFrom (okPow r l) 13 0 = true) :
    (Nat.digits r n).length ≤ (Nat.size n * l + 999998000) / 1000000000 := by
  have hlen := digits_len_pos (r := r) (by omega) hn
  obtain ⟨k, hk⟩ : ∃ k, (Nat.digits r n).length = k + 1 := ⟨_, (Nat.sub_add_cancel hlen).symm⟩
  have h1 : r ^ k ≤ n := by
    have := Nat.base_pow_length_digits_le r n (by omega) hn
    rw [hk, Nat.pow_succ] at this
    exact Nat.le_of_mul_le_mul_left (by rw [Nat.mul_comm]; exact this) (by omega : 0 < r)
  have hlt2 : r ^ k < C := lt_of_le_of_lt h1 hlt
  have h2 : k < 8192 := by
    by_contra hc
    have : 7 ^ 8192 ≤ r ^ k := le_trans (Nat.pow_le_pow_left hr _) (Nat.pow_le_pow_right (by omega) (Nat.le_of_not_lt hc))
    rw [hC] at hlt2
    exact absurd (lt_of_lt_of_le hlt2 (le_trans pow_7_13 this)) (lt_irrefl _)
  have h3 := allFrom_spec c k (Nat.zero_le _) (by rw [Nat.zero_add]; exact h2)
  rw [okPow, Bool.or_eq_true, Bool.and_eq_true, Nat.ble_eq, Nat.ble_eq, Nat.beq_eq] at h3
  rcases h3 with h3 | ⟨h3, rfl⟩
  · have h4 := Nat.lt_size.2 (le_trans h3 h1)
    obtain ⟨b, hb⟩ : ∃ b, b = ((k + 1) * 1000000000 - 999998000 + l - 1) / l := ⟨_, rfl⟩
    rw [← hb] at h4
    have h5 : (k + 1) * 1000000000 - 999998000 ≤ b * l := by
      have := Nat.lt_mul_div_succ ((k + 1) * 1000000000 - 999998000 + l - 1) (b := l) hl
      rw [← hb, Nat.mul_add, Nat.mul_comm l b] at this
      omega
    have h6 := Nat.mul_le_mul_right l (by omega : b ≤ Nat.size n)
    rw [hk, Nat.le_div_iff_mul_le (by norm_num)]
    omega
  · rw [hC] at hlt2
    exact absurd (lt_of_lt_of_le hlt2 (Nat.pow_le_pow_right (by norm_num) h3)) (lt_irrefl _)

theorem outlen_ok1 {r n bits P Q l : Nat} (hr : 2 ≤ r) (hn : n ≠ 0) (hb : n < 2 ^ bits) (hsz : bits ≤ 2147483648)
    (c : okOut1 r P Q l = true) : (Nat.digits r n).length ≤ (bits * l + 999998000) / 1000000000 + 1 := by
  simp only [okOut1, Bool.and_eq_true, decide_eq_true_eq] at c
  obtain ⟨⟨b1, b3⟩, b4⟩ := c
  have d2 := (digits_len_cert hr hn hb b3).resolve_right (by omega)
  obtain ⟨K, hK⟩ : ∃ K, K = 2147483648 := ⟨_, rfl⟩
  rw [← hK] at b4 hsz
  have e1 := lin_le (a := P * 1000000000) (b := Q * l) (c := 0) (d := 999998000 * Q) (Nat.zero_le _)
    (by rw [Nat.add_zero]; exact b4) hsz
  rw [Nat.add_zero] at e1
  generalize (Nat.digits r n).length = N at d2 ⊢
  by_contra hcon
  have e3 : bits * l + 999998000 < (N - 1) * 1000000000 := by omega
  have e4 : (bits * l + 999998000) * Q < (N - 1) * 1000000000 * Q := Nat.mul_lt_mul_of_pos_right e3 (by omega)
  have e5 : (N - 1) * 1000000000 * Q = (N - 1) * Q * 1000000000 := by ring
  have e6 : (bits * l + 999998000) * Q = bits * (Q * l) + 999998000 * Q := by ring
  have e7 : bits * (P * 1000000000) = P * bits * 1000000000 := by ring
  rw [e5, e6] at e4
  rw [e7] at e1
  clear hcon e3 e5 e6 e7 b3 b4 hb
  generalize (N - 1) * Q = X at *
  generalize P * bits = Y at *
  generalize bits * (Q * l) = W at *
  omega

theorem outlen_ok {r n bits P Q B l : Nat} (hr : 2 ≤ r) (hn : n ≠ 0) (hb : n < 2 ^ bits) (hsz : bits ≤ B)
    (c : okOut r P Q B l = true) : (Nat.digits r n).length ≤ (bits * l + 999998000) / 1000000000 := by
  simp only [okOut, Bool.and_eq_true, decide_eq_true_eq] at c
  obtain ⟨⟨⟨a1, a2⟩, a3⟩, a4⟩ := c
  have d1 := (digits_len_cert hr hn hb a3).resolve_right (by omega)
  have e1 := lin_le (a := P * 1000000000) (b := Q * l) (c := Q * 2000) (d := 1000000000) (by omega) a4 hsz
  have hN1 := digits_len_pos hr hn
  generalize (Nat.digits r n).length = N at d1 hN1 ⊢
  have e2 : N * 1000000000 ≤ bits * l + 999998000 := by
    have e3 : Q * (N * 1000000000) ≤ Q * (bits * l + 999998000) := by
      have e4 : Q * (N * 1000000000) = ((N - 1) * Q + Q) * 1000000000 := by
        obtain ⟨k, rfl⟩ : ∃ k, N = k + 1 := ⟨N - 1, by omega⟩
        rw [Nat.add_sub_cancel]; ring
      have e5 : Q * (bits * l + 999998000) = bits * (Q * l) + Q * 999998000 := by ring
      have e6 : bits * (P * 1000000000) = P * bits * 1000000000 := by ring
      rw [e4, e5]; rw [e6] at e1
      obtain ⟨X, hX⟩ : ∃ X, X = (N - 1) * Q := ⟨_, rfl⟩
      obtain ⟨Y, hY⟩ : ∃ Y, Y = P * bits := ⟨_, rfl⟩
      obtain ⟨W, hW⟩ : ∃ W, W = bits * (Q * l) := ⟨_, rfl⟩
      rw [← hX, ← hY] at d1
      rw [← hY, ← hW] at e1
      rw [← hX, ← hW]
      have d1' : X + 1 ≤ Y := d1
      clear hX hY hW e4 e5 e6 a3 a4 hb
      linarith
    exact Nat.le_of_mul_le_mul_left e3 (by omega)
  omega

theorem outlen_ok24 {n : Nat} (hn : n ≠ 0) (h1 : 4115011 ≤ Nat.size n) :
    (Nat.digits 24 n).length ≤ (Nat.size n * 218104292 + 999998000) / 1000000000 := by
  have d1 := (digits_len_cert (r := 24) (P := 111202) (Q := 509857) (by norm_num) hn (Nat.lt_size_self n)
    (by decide +kernel)).resolve_right (by norm_num)
  have hN1 := digits_len_pos (r := 24) (by norm_num) hn
  generalize (Nat.digits 24 n).length = N at d1 hN1 ⊢
  generalize Nat.size n = bits at *
  rw [Nat.le_div_iff_mul_le (by norm_num)]
  obtain ⟨k, rfl⟩ : ∃ k, N = k + 1 := ⟨N - 1, by omega⟩
  rw [Nat.add_sub_cancel] at d1
  have e : 509857 * ((k + 1) * 1000000000) ≤ 509857 * (bits * 218104292 + 999998000) := by
    linarith
  exact Nat.le_of_mul_le_mul_left e (by norm_num)

theorem outlen_all {r n : Nat} (hr2 : 2 ≤ r) (hr : r ≤ 36) (hn : n ≠ 0) (h : LenOk r n) :
    (Nat.digits r n).length ≤ (Nat.size n * s_log2.getD r 0 + 999998000) / 1000000000 := by
  have c1 := lenCert_ok r (by omega) hr2
  have key : Nat.size n ≤ lenBits r → (Nat.digits r n).length ≤ (Nat.size n * s_log2.getD r 0 + 999998000) / 1000000000 := by
    intro h
    by_cases h24 : r = 24
    · subst h24
      rcases Nat.lt_or_ge (Nat.size n) 4115011 with h2 | h2
      · exact outlen_ok hr2 hn (Nat.lt_size_self n) (Nat.le_of_lt h2) c1
      · exact outlen_ok24 hn h2
    · unfold lenBits at h
      rw [if_neg h24] at h
      exact outlen_ok hr2 hn (Nat.lt_size_self n) h c1
  rcases h with h | h
  · exact key h
  · rcases pow_lens r (by omega) hr2 with rfl | rfl | h2
    · exact outlen_pow (by norm_num) (by decide) hn rfl h okPow_7
    · exact outlen_pow (by norm_num) (by decide) hn rfl h okPow_13
    · refine key (le_trans (Nat.size_le.2 (lt_trans h ?_)) h2)
      decide +kernel

/-- What `s_outlen` returns, given how `double` arithmetic rounds. -/
def outLen (fl : Rat → Rat) (r : Nat) (v : Int) : Int :=
  (fl (fl (((if v = 0 then 1 else Nat.size v.natAbs : Nat) : Rat) * fl ((s_log2.getD r 0 : Nat) / 1000000000)) + fl (999999 / 1000000))).floor

theorem s_outlen_full {Q : Int → Mem → Prop} {r : Nat} (hr2 : 2 ≤ r) (hr : r ≤ 36)
    (h : R2 m σ) (hz : σ z = some v)
    (hQ : ∀ o : Int, o = outLen env.fl r v → 0 ≤ o → o ≤ 2147483584 → ((numeralN r v.natAbs).length : Int) ≤ o + 1 →
      (LenOk r v.natAbs → ((numeralN r v.natAbs).length : Int) ≤ o) →
      (v ≠ 0 → o * 1000000000 < (Nat.size v.natAbs * s_log2.getD r 0 + 1000000000 : Nat)) →
      (o ≤ Nat.size v.natAbs ∨ o ≤ 1) → Q o m) :
    wp env E (s_outlen z r) Q m := by
  unfold s_outlen
  refine wp_bind (wp_cassert (decide_eq_true ⟨hr2, hr⟩) ?_)
  obtain ⟨hl, hl1, hl2⟩ := s_log2_range r (by omega) hr2
  obtain ⟨l, hle⟩ : ∃ l, s_log2.getD r 0 = l := ⟨_, rfl⟩
  have d1 : v.natAbs ≠ 0 → LenOk r v.natAbs → _ := fun h0 => outlen_all hr2 hr h0
  have c2 := lenCert1_ok r (by omega) hr2
  unfold outLen at hQ
  rw [hle] at hl hl1 hl2 d1 c2 hQ
  have key : ∀ bits : Nat, 1 ≤ bits → bits ≤ 2147483584 →
      (∀ o : Int, (((bits * l + 999998000) / 1000000000 : Nat) : Int) ≤ o →
        o * 1000000000 < (bits * l + 1000000000 : Nat) →
        o = (env.fl (env.fl ((bits : Rat) * env.fl ((l : Nat) / 1000000000)) + env.fl (999999 / 1000000))).floor → Q o m) →
      wp env E (do
        let fl ← getFl
        let l ← bget s_log2 r
        let raw := fl (((bits : Int) : Rat) * fl (l / 1000000000))
        cint (fl (raw + fl (999999 / 1000000))).floor) Q m := by
    intro bits hb0 hb hq
    refine wp_bind (wp_getFl ?_)
    refine wp_bind (wp_bget hl ?_)
    have h1 := outlen_bounds env (bits := bits) (l := l) (by omega) hl2
    obtain ⟨f1, f2⟩ := floor_between h1.1 h1.2
    rw [show (((bits : Int) : Rat)) = ((bits : Nat) : Rat) by simp]
    have hbl : bits * l ≤ 2147483584 * 1000000000 := Nat.mul_le_mul hb hl2
    refine wp_cint (by omega) ?_ (hq _ f1 f2 rfl)
    omega
  refine wp_bind (mp_int_count_bits_spec h hz (fun h0 => ?_) (fun h0 => ?_))
  · refine key 1 (by omega) (by omega) fun o h1 h2 h9 => ?_
    subst h0
    have : (numeralN r (0 : Int).natAbs).length = 1 := by simp [numeralN]
    refine hQ o (by rw [h9]; simp) (by omega) (by omega) (by rw [this]; omega) (fun _ => by rw [this]; omega) (fun hh => absurd rfl hh) (.inr (by omega))
  · have hsz := h.size_le hz
    have hn0 : v.natAbs ≠ 0 := by omega
    have hs1 : 1 ≤ Nat.size v.natAbs := Nat.size_pos.2 (by omega)
    have hlt := Nat.lt_size_self v.natAbs
    have hN : (numeralN r v.natAbs).length = (Nat.digits r v.natAbs).length := by
      unfold numeralN; rw [if_neg hn0]; simp
    rw [hN] at hQ
    have d1 := d1 hn0
    have d2 := outlen_ok1 hr2 hn0 hlt (by omega) c2
    clear c2 hlt
    generalize LenOk r v.natAbs = LO at *
    generalize (Nat.digits r v.natAbs).length = N at *
    generalize Nat.size v.natAbs = bits at *
    rw [if_neg h0] at hQ
    refine key bits hs1 hsz fun o h1 h2 h9 => ?_
    have hbl : bits * l ≤ 2147483584 * 1000000000 := Nat.mul_le_mul hsz hl2
    have hbl' : bits * l ≤ bits * 1000000000 := Nat.mul_le_mul_left _ hl2
    refine hQ o h9 (by omega) (by omega) (by omega) (fun hbB => ?_) (fun _ => h2) (.inl (by omega))
    have := d1 hbB
    omega

theorem s_outlen_spec {Q : Int → Mem → Prop} {r : Nat} (hr2 : 2 ≤ r) (hr : r ≤ 36)
    (h : R2 m σ) (hz : σ z = some v)
    (hQ : ∀ o : Int, 0 ≤ o → o ≤ 2147483584 → ((numeralN r v.natAbs).length : Int) ≤ o + 1 →
      (LenOk r v.natAbs → ((numeralN r v.natAbs).length : Int) ≤ o) →
      (v ≠ 0 → o * 1000000000 < (Nat.size v.natAbs * s_log2.getD r 0 + 1000000000 : Nat)) →
      (o ≤ Nat.size v.natAbs ∨ o ≤ 1) → Q o m) :
    wp env E (s_outlen z r) Q m :=
  s_outlen_full hr2 hr h hz fun o _ => hQ o

theorem mp_int_string_len_spec2 {Q : Int → Mem → Prop} {r : Nat} (hr2 : 2 ≤ r) (hr : r ≤ 36)
    (h : R2 m σ) (hz : σ z = some v)
    (hQ : ∀ o : Int, ((numeral r v).length : Int) ≤ o →
      (LenOk r v.natAbs → ((numeral r v).length : Int) + 1 ≤ o) →
      (0 < v → (o - 1) * 1000000000 < (Nat.size v.natAbs * s_log2.getD r 0 + 1000000000 : Nat)) →
      (o ≤ Nat.size v.natAbs + 2 ∨ o ≤ 3) → Q o m) :
    wp env E (mp_int_string_len z r) Q m := by
  unfold mp_int_string_len
  refine wp_bind (wp_cassert (decide_eq_true ⟨hr2, hr⟩) ?_)
  refine wp_bind (s_outlen_spec hr2 hr h hz fun o h0 h1 h2 h3 h4 h5 => ?_)
  refine wp_bind (wp_cint (by omega) (by omega) ?_)
  refine wp_bind (MP_SIGN_spec h hz ?_)
  have hl : (numeral r v).length = (if v < 0 then 1 else 0) + (numeralN r v.natAbs).length := by
    unfold numeral; rw [List.length_append]; split <;> simp
  refine wp_ite (fun hn => ?_) (fun hn => ?_)
  · have hv : v < 0 := by simpa using hn
    rw [if_pos hv] at hl
    refine wp_cint (by omega) (by omega) (hQ _ (by omega) (fun hb => ?_) (fun hp => by omega) (by omega))
    have := h3 hb; omega
  · have hv : ¬ v < 0 := by simpa using hn
    rw [if_neg hv] at hl
    refine wp_pure (hQ _ (by omega) (fun hb => ?_) (fun hp => ?_) (by omega))
    · have := h3 hb; omega
    · rw [Int.add_sub_cancel]; exact h4 (by omega)

theorem mp_int_string_len_spec {Q : Int → Mem → Prop} {r : Nat} (hr2 : 2 ≤ r) (hr : r ≤ 36)
    (h : R2 m σ) (hz : σ z = some v)
    (hQ : ∀ o : Int, ((numeral r v).length : Int) ≤ o →
      (LenOk r v.natAbs → ((numeral r v).length : Int) + 1 ≤ o) →
      (0 < v → (o - 1) * 1000000000 < (Nat.size v.natAbs * s_log2.getD r 0 + 1000000000 : Nat)) → Q o m) :
    wp env E (mp_int_string_len z r) Q m :=
  mp_int_string_len_spec2 hr2 hr h hz fun o h1 h2 h3 _ => hQ o h1 h2 h3

theorem mp_int_string_len_exact {Q : Int → Mem → Prop} {r : Nat} (hr2 : 2 ≤ r) (hr : r ≤ 36)
    (h : R2 m σ) (hz : σ z = some v) (hQ : Q (outLen env.fl r v + 1 + if v < 0 then 1 else 0) m) :
    wp env E (mp_int_string_len z r) Q m := by
  unfold mp_int_string_len
  refine wp_bind (wp_cassert (decide_eq_true ⟨hr2, hr⟩) ?_)
  refine wp_bind (s_outlen_full hr2 hr h hz fun o he h0 h1 h2 h3 h4 h5 => ?_)
  rw [← he] at hQ
  refine wp_bind (wp_cint (by omega) (by omega) ?_)
  refine wp_bind (MP_SIGN_spec h hz ?_)
  refine wp_ite (fun hn => ?_) (fun hn => ?_)
  · rw [if_pos (by simpa using hn)] at hQ
    exact wp_cint (by omega) (by omega) hQ
  · rw [if_neg (by simpa using hn), Int.add_zero] at hQ
    exact wp_pure hQ

end Imath
