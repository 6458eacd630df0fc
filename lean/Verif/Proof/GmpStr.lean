import Verif.Props.Conv
import Verif.Props.RatLen
import Verif.Proof.GmpIO
import Verif.Proof.Read
import Verif.Proof.Driver
import Verif.SpecGmpStr

/-!
# The strings of the GMP-compatible interface

Uses the certificates of `Verif/Proof/ConvLen.lean` for an upper bound of the estimated length.
-/

namespace Imath

variable {env : Env} {E : Fault → Prop} {m : Mem} {σ : Id → Option Int} {z : Id} {v : Int} {r : Nat}

/-! ### The estimate is at most one character too large -/

theorem inCert_up : ∀ r < 37, 2 ≤ r → (inCert.getD r (0, 0)).2 ≤ (inCert.getD r (0, 0)).1 ∧
    33554432 * ((inCert.getD r (0, 0)).1 * s_log2.getD r 0) ≤ 33554432 * ((inCert.getD r (0, 0)).2 * 1000000000) +
      1000000000 * ((inCert.getD r (0, 0)).1 + 1 - (inCert.getD r (0, 0)).2) := by decide +kernel

theorem outlen_up {n : Nat} {o : Int} (hr2 : 2 ≤ r) (hr : r ≤ 36) (hn : n ≠ 0) (hs : Nat.size n ≤ 33554432)
    (ho : o * 1000000000 < (Nat.size n * s_log2.getD r 0 + 1000000000 : Nat)) : o ≤ (numeralN r n).length + 1 := by
  have c1 := inCert_ok r (by omega) hr2
  obtain ⟨c2, c3⟩ := inCert_up r (by omega) hr2
  generalize (inCert.getD r (0, 0)).1 = M at *
  generalize (inCert.getD r (0, 0)).2 = B at *
  generalize s_log2.getD r 0 = l at *
  unfold okIn at c1
  simp only [Bool.and_eq_true, decide_eq_true_eq] at c1
  obtain ⟨⟨c4, c5⟩, -⟩ := c1
  have hN : (numeralN r n).length = (Nat.digits r n).length := by
    unfold numeralN; rw [if_neg hn]; simp
  rw [hN]
  have h1 : n < r ^ (Nat.digits r n).length := Nat.lt_base_pow_length_digits (by omega)
  generalize (Nat.digits r n).length = N at *
  have s1 : 1 ≤ Nat.size n := Nat.size_pos.2 (by omega)
  have h2 : 2 ^ (Nat.size n - 1) ≤ n := Nat.lt_size.1 (by omega)
  have h3 : (2 ^ (Nat.size n - 1)) ^ B < (r ^ N) ^ B := Nat.pow_lt_pow_left (lt_of_le_of_lt h2 h1) (by omega)
  have h4 : (r ^ N) ^ B ≤ 2 ^ (M * N) := by
    rw [← Nat.pow_mul, Nat.mul_comm N B, Nat.pow_mul, Nat.pow_mul]
    exact Nat.pow_le_pow_left c5 _
  rw [← Nat.pow_mul] at h3
  have h5 : (Nat.size n - 1) * B < M * N := (Nat.pow_lt_pow_iff_right (by omega : 1 < 2)).1 (lt_of_lt_of_le h3 h4)
  generalize Nat.size n = s at *
  obtain ⟨s, rfl⟩ : ∃ t, s = t + 1 := ⟨s - 1, by omega⟩
  rw [Nat.add_sub_cancel] at h5
  obtain ⟨d, rfl⟩ : ∃ d, M = B + d := ⟨M - B, by omega⟩
  have e1 : B + d + 1 - B = d + 1 := by omega
  rw [e1] at c3
  -- s * l * M ≤ s * B * 10^9 + (d + 1) * 10^9
  have h6 : (s + 1) * ((B + d) * l) ≤ (s + 1) * (B * 1000000000) + 1000000000 * (d + 1) := by
    rcases Nat.le_total ((B + d) * l) (B * 1000000000) with hl | hl
    · exact le_trans (Nat.mul_le_mul_left _ hl) (Nat.le_add_right _ _)
    · obtain ⟨k, hk⟩ := Nat.exists_eq_add_of_le hl
      rw [hk] at c3 ⊢
      have := Nat.mul_le_mul_right k hs
      rw [Nat.mul_add] at c3 ⊢
      omega
  have h7 : (s + 1) * (B * 1000000000) + 1000000000 ≤ ((B + d) * N + B) * 1000000000 := by
    have : (s + 1) * B + 1 ≤ (B + d) * N + B := by rw [Nat.add_mul]; omega
    calc (s + 1) * (B * 1000000000) + 1000000000 = ((s + 1) * B + 1) * 1000000000 := by ring
      _ ≤ _ := Nat.mul_le_mul_right _ this
  have h8 : (B + d) * ((s + 1) * l) ≤ (B + d) * ((N + 1) * 1000000000) := by
    have e2 : (B + d) * ((s + 1) * l) = (s + 1) * ((B + d) * l) := by ring
    have e3 : (B + d) * ((N + 1) * 1000000000) = ((B + d) * N + B) * 1000000000 + d * 1000000000 := by ring
    rw [e2, e3]
    omega
  have h9 := Nat.le_of_mul_le_mul_left h8 (by omega)
  push_cast at ho
  have h10 : ((s : Int) + 1) * l ≤ ((N : Int) + 1) * 1000000000 := by exact_mod_cast h9
  omega

/-- `mp_int_string_len` from both sides -/
theorem string_len_bounds {Q : Int → Mem → Prop} (hr2 : 2 ≤ r) (hr : r ≤ 36) (h : R2 m σ) (hz : σ z = some v)
    (hok : LenOk r v.natAbs) (hs : Nat.size v.natAbs ≤ 33554432)
    (hQ : ∀ o : Int, ((numeral r v).length : Int) + 1 ≤ o → o ≤ (numeral r v).length + 2 → o ≤ 33554435 → Q o m) :
    wp env E (mp_int_string_len z r) Q m := by
  unfold mp_int_string_len
  refine wp_bind (wp_cassert (decide_eq_true ⟨hr2, hr⟩) ?_)
  refine wp_bind (s_outlen_spec hr2 hr h hz fun o h0 h1 h2 h3 h4 h5 => ?_)
  have h3 := h3 hok
  have hup : o ≤ (numeralN r v.natAbs).length + 1 := by
    rcases eq_or_ne v 0 with rfl | hv
    · have : (numeralN r (0 : Int).natAbs).length = 1 := rfl
      have : Nat.size (0 : Int).natAbs = 0 := Nat.size_zero
      omega
    · exact outlen_up hr2 hr (by omega) hs (h4 hv)
  refine wp_bind (wp_cint (by omega) (by omega) ?_)
  refine wp_bind (MP_SIGN_spec h hz ?_)
  have hl : (numeral r v).length = (if v < 0 then 1 else 0) + (numeralN r v.natAbs).length := by
    unfold numeral; rw [List.length_append]; split <;> simp
  refine wp_ite (fun hn => ?_) (fun hn => ?_)
  · have hv : v < 0 := by simpa using hn
    rw [if_pos hv] at hl
    exact wp_cint (by omega) (by omega) (hQ _ (by omega) (by omega) (by omega))
  · have hv : ¬ v < 0 := by simpa using hn
    rw [if_neg hv] at hl
    exact wp_pure (hQ _ (by omega) (by omega) (by omega))

/-! ### The change of case -/

/-- What the loops write for one character -/
def recase (up : Bool) (c : Nat) : Nat := if up then toupper c else tolower c

/-- The loop over the middle part of the array -/
theorem caseLoop_spec {up : Bool} {Q : Bytes → Mem → Prop} {B C : Bytes} (hB : ∀ c ∈ B, c < 128 ∨ c = 255) :
    ∀ A : Bytes, Q (A ++ B.map (recase up) ++ C) m →
      wp env E (caseLoop up B.length A.length (A ++ B ++ C)) Q m := by
  induction B with
  | nil => intro A hQ; exact wp_pure (by simpa using hQ)
  | cons b B ih =>
    intro A hQ
    have hb := hB b (by simp)
    show wp env E (bind _ _) Q m
    refine wp_bind (wp_bget (x := b) (by simp) ?_)
    refine wp_bind ?_
    unfold ctypeArg
    rw [if_pos hb]
    refine wp_pure (wp_bind (wp_bset (by simp) ?_))
    have e : (A ++ b :: B ++ C).set A.length (if up then toupper b else tolower b) = (A ++ [recase up b]) ++ B ++ C := by
      unfold recase
      simp
    rw [e]
    have := ih (fun c hc => hB c (by simp [hc])) (A ++ [recase up b]) (by simpa using hQ)
    simpa using this

theorem digitChar_lt {d : Nat} (h : d < 36) : digitChar d < 128 ∧ digitChar d ≠ 0 := by unfold digitChar; split <;> omega

theorem numeral_ascii (hr2 : 2 ≤ r) (hr : r ≤ 36) : ∀ c ∈ numeral r v, c < 91 ∧ c ≠ 0 := by
  intro c hc
  unfold numeral at hc
  rcases List.mem_append.1 hc with hc | hc
  · split at hc <;> simp at hc; omega
  · unfold numeralN at hc
    split at hc
    · simp at hc; omega
    · rw [List.mem_reverse, List.mem_map] at hc
      obtain ⟨d, hd, rfl⟩ := hc
      have := Nat.digits_lt_base (by omega : 1 < r) hd
      unfold digitChar; split <;> omega

theorem recase_up {c : Nat} (h : c < 91) : recase true c = c := by
  unfold recase toupper; rw [if_pos rfl, if_neg (by omega)]

theorem recase_map_up {l : Bytes} (h : ∀ c ∈ l, c < 91 ∧ c ≠ 0) : l.map (recase true) = l := by
  conv_rhs => rw [← List.map_id l]
  exact List.map_congr_left fun c hc => recase_up (h c hc).1

theorem recase_map {radix : Int} {l : Bytes} (h : ∀ c ∈ l, c < 91 ∧ c ≠ 0) :
    l.map (recase (decide (radix < 0))) = gmpCase radix l := by
  unfold gmpCase
  split
  · next hn => rw [decide_eq_true hn]; exact recase_map_up h
  · next hn => rw [decide_eq_false hn]; rfl

theorem radix_abs {radix : Int} {Q : Int → Mem → Prop} (hr : radix.natAbs ≤ 36) (hQ : Q radix.natAbs m) :
    wp env E (cif (radix < 0) (cint (-radix)) (pure radix)) Q m := by
  refine wp_cif (fun hn => ?_) fun hn => ?_
  · have hn : radix < 0 := by simpa using hn
    refine wp_cint (by omega) (by omega) ?_
    rw [show -radix = (radix.natAbs : Int) by omega]; exact hQ
  · have hn : ¬ radix < 0 := by simpa using hn
    rw [show (radix.natAbs : Int) = radix by omega] at hQ
    exact wp_pure hQ

theorem intU32_nat {n : Nat} (h : n ≤ 36) : intU32 (n : Int) = n := by
  unfold intU32; omega

theorem impz_get_str_spec {Q : Bytes → Mem → Prop} {radix : Int} {str : Option Bytes} (hE : Ref env E)
    (hr : 2 ≤ radix.natAbs ∧ radix.natAbs ≤ 36) (h : R2 m σ) (hz : σ z = some v)
    (hok : LenOk radix.natAbs v.natAbs) (hs : Nat.size v.natAbs ≤ 33554432)
    (hbuf : ∀ l, str = some l → (numeral radix.natAbs v).length + 1 ≤ l.length)
    (hQ : ∀ m' rest, R2 m' σ → (∀ l, str = some l → rest = l.drop ((numeral radix.natAbs v).length + 1)) →
      Q (gmpCase radix (numeral radix.natAbs v) ++ 0 :: rest) m') :
    wp env E (impz_get_str str radix z) Q m := by
  have hasc := numeral_ascii (v := v) hr.1 hr.2
  have hn0 : 1 ≤ (numeral radix.natAbs v).length := by
    have := numeralN_pos radix.natAbs v.natAbs hr.1
    unfold numeral; rw [List.length_append]; omega
  unfold impz_get_str
  refine wp_bind (radix_abs hr.2 ?_)
  rw [intU32_nat hr.2]
  refine wp_bind (string_len_bounds hr.1 hr.2 h hz hok hs fun o o1 o2 _ => ?_)
  have key : ∀ l : Bytes, (numeral radix.natAbs v).length + 1 ≤ l.length → (∀ l', str = some l' → l = l') →
      wp env E (mp_int_to_string z radix.natAbs l o >>= fun p => CHECK (pure p.1) >>= fun _ =>
        caseLoop (radix < 0) (o - 1).toNat 0 p.2) Q m := by
    intro l hl hl'
    refine wp_bind (mp_int_to_string_spec hE hr.1 hr.2 (by omega) (by omega) h hz (fun m' h' _ => ?_) fun _ _ _ h1 => by omega)
    refine wp_bind (CHECK_spec (wp_pure ⟨rfl, ?_⟩))
    have hQ := hQ m' (l.drop ((numeral radix.natAbs v).length + 1)) h' fun l' e => by rw [hl' l' e]
    rw [← recase_map hasc] at hQ
    generalize l.drop _ = rest at *
    generalize numeral radix.natAbs v = D at *
    have hD : (D ++ [0]).length = D.length + 1 := by simp
    rcases (by omega : (o - 1).toNat = D.length ∨ (o - 1).toNat = (D ++ [0]).length) with e | e
    · rw [e]
      exact caseLoop_spec (A := []) (fun c hc => .inl (by have := hasc c hc; omega)) hQ
    · rw [e]
      have := caseLoop_spec (env := env) (E := E) (m := m') (up := decide (radix < 0)) (Q := Q) (B := D ++ [0]) (C := rest)
        (fun c hc => by
          rcases List.mem_append.1 hc with hc | hc
          · have := hasc c hc; omega
          · simp at hc; omega) [] (by
          have e0 : recase (decide (radix < 0)) 0 = 0 := by unfold recase; split <;> rfl
          rw [List.map_append, List.map_singleton, e0]
          simpa using hQ)
      simpa using this
  cases str with
  | none =>
    refine wp_bind (wp_mallocBytes fun l hl => ?_)
    exact key l (by omega) (fun _ h => by simp at h)
  | some l =>
    refine wp_bind (wp_pure ?_)
    exact key l (hbuf l rfl) (fun l' h => by simpa using h)

theorem wp_mallocBytes_low {Q : Bytes → Mem → Prop} {n : Nat} (hj : ∀ i j, env.junk i j % 256 < 128)
    (hQ : ∀ l : Bytes, l.length = n → (∀ c ∈ l, c < 128) → Q l m) : wp env E (mallocBytes n) Q m := by
  unfold mallocBytes wp
  refine hQ _ (by simp) fun c hc => ?_
  rw [List.mem_map] at hc
  obtain ⟨i, -, rfl⟩ := hc
  exact hj _ _

theorem impq_get_str_spec {Q : Bytes → Mem → Prop} {radix : Int} {str : Option Bytes} {a : MpQ} {p : ℚ} (hE : Ref env E)
    (hr : 2 ≤ radix.natAbs ∧ radix.natAbs ≤ 36) (h : R2 m σ) (ha : HasQ2 σ a p) (hp : p.den ≠ 1)
    (hok1 : LenOk radix.natAbs p.num.natAbs) (hs1 : Nat.size p.num.natAbs ≤ 33554432)
    (hok2 : LenOk radix.natAbs p.den) (hs2 : Nat.size p.den ≤ 33554432)
    (hbuf : ∀ l, str = some l → (ratText radix.natAbs p).length + 3 ≤ l.length ∧
      ∀ c ∈ (l.drop ((ratText radix.natAbs p).length + 1)).take 2, c < 128 ∨ c = 255)
    (hj : str = none → ∀ i j, env.junk i j % 256 < 128)
    (hQ : ∀ m' rest, R2 m' σ → (∀ l, str = some l → rest.drop 2 = l.drop ((ratText radix.natAbs p).length + 3)) →
      Q (gmpCase radix (ratText radix.natAbs p) ++ 0 :: rest) m') :
    wp env E (impq_get_str str radix a) Q m := by
  have ha1 : σ a.num = some p.num := ha.1
  have ha2 : σ a.den = some (p.den : Int) := ha.2
  have hp0 : p ≠ 0 := by rintro rfl; exact hp rfl
  have hasc : ∀ c ∈ ratText radix.natAbs p, c < 91 ∧ c ≠ 0 := by
    intro c hc
    rw [ratText, if_neg hp0] at hc
    rcases List.mem_append.1 hc with hc | hc
    · exact numeral_ascii hr.1 hr.2 c hc
    · rcases List.mem_cons.1 hc with rfl | hc
      · omega
      · exact numeral_ascii hr.1 hr.2 c hc
  have hlen : (ratText radix.natAbs p).length = (numeral radix.natAbs p.num).length + 1 + (numeral radix.natAbs p.den).length := by
    rw [ratText, if_neg hp0, List.length_append, List.length_cons]; omega
  unfold impq_get_str
  refine wp_bind (mp_int_compare_value_spec (by norm_num) (by norm_num) h ha2 fun m0 h0 => ?_)
  refine wp_if_neg ?_ ?_
  · rw [cmpZ_eq_zero]; exact_mod_cast hp
  refine wp_bind (radix_abs hr.2 ?_)
  rw [intU32_nat hr.2]
  refine wp_bind (wp_mono (Q := fun (o : Int) m' => ((ratText radix.natAbs p).length : Int) + 1 ≤ o ∧ o ≤ (ratText radix.natAbs p).length + 3 ∧ m' = m0) ?_ ?_)
  · unfold mp_rat_string_len
    refine wp_bind (string_len_bounds hr.1 hr.2 h0 ha1 hok1 hs1 fun n n1 n2 n3 => ?_)
    refine wp_bind (mp_int_compare_zero_spec h0 ha1 ?_)
    refine wp_bind (wp_cif (fun hk => ?_) fun hk => ?_)
    · refine string_len_bounds hr.1 hr.2 h0 ha2 hok2 hs2 fun d d1 d2 d3 => ?_
      exact wp_cint (by omega) (by omega) ⟨by omega, by omega, rfl⟩
    · exact absurd (by simpa using hk) (Rat.num_ne_zero.2 hp0)
  rintro o m0' ⟨o1, o2, rfl⟩
  have key : ∀ l : Bytes, o ≤ l.length → (∀ c ∈ (l.drop ((ratText radix.natAbs p).length + 1)).take 2, c < 128 ∨ c = 255) →
      (∀ l', str = some l' → l = l') →
      wp env E (mp_rat_to_string a radix.natAbs l o >>= fun p => CHECK (pure p.1) >>= fun _ =>
        caseLoop (radix < 0) o.toNat 0 p.2) Q m0' := by
    intro l hl hc hl'
    refine wp_bind (mp_rat_to_string_spec hE hr.1 hr.2 h0 ha (by omega) (by omega) fun m' h' => ?_)
    refine wp_bind (CHECK_spec (wp_pure ⟨rfl, ?_⟩))
    generalize hT : ratText radix.natAbs p = T at *
    generalize hR : l.drop (T.length + 1) = R at *
    obtain ⟨k, hk⟩ : ∃ k : Nat, o = T.length + 1 + k := ⟨(o - (T.length + 1)).toNat, by omega⟩
    have hk2 : k ≤ 2 := by omega
    have hRl : k ≤ R.length := by rw [← hR, List.length_drop]; omega
    have e1 : T ++ 0 :: R = [] ++ (T ++ 0 :: R.take k) ++ R.drop k := by simp
    have e2 : o.toNat = (T ++ 0 :: R.take k).length := by simp; omega
    have e0 : recase (decide (radix < 0)) 0 = 0 := by unfold recase; split <;> rfl
    rw [e1, e2]
    refine caseLoop_spec (fun c hc' => ?_) [] ?_
    · rcases List.mem_append.1 hc' with hc' | hc'
      · have := hasc c hc'; omega
      · rcases List.mem_cons.1 hc' with rfl | hc'
        · omega
        · refine hc c ?_
          exact (List.take_prefix_take_left (by omega)).subset hc'
    · rw [List.nil_append, List.map_append, recase_map hasc, List.map_cons, e0, List.append_assoc, List.cons_append]
      refine hQ m' _ h' fun l' e => ?_
      rw [← hl' l' e, show T.length + 3 = T.length + 1 + 2 from rfl, ← List.drop_drop, hR]
      rw [List.drop_append, List.length_map, List.length_take, List.drop_drop, List.drop_eq_nil_of_le (by simp; omega), List.nil_append]
      congr 1
      omega
  cases str with
  | none =>
    refine wp_bind (wp_mallocBytes_low (hj rfl) fun l hl hc => ?_)
    exact key l (by omega) (fun c h => .inl (hc c (List.mem_of_mem_drop (List.mem_of_mem_take h)))) (fun _ h => by simp at h)
  | some l =>
    refine wp_bind (wp_pure ?_)
    exact key l (by have := (hbuf l rfl).1; omega) (hbuf l rfl).2 (fun l' h => by simpa using h)

/-! ### Reading -/

theorem trim_nul (A : Bytes) : ∃ B, (0 ∉ A → 0 ∉ B) ∧ ∀ X, trim (A ++ 0 :: X) = B ++ 0 :: X := by
  induction A with
  | nil => exact ⟨[], fun h => h, fun X => by rw [List.nil_append, trim, if_neg (by unfold IsSpace; omega)]⟩
  | cons c A ih =>
    obtain ⟨B, h1, h2⟩ := ih
    by_cases hc : IsSpace c
    · exact ⟨B, fun h => h1 (by simp at h; exact h.2), fun X => by rw [List.cons_append, trim, if_pos hc]; exact h2 X⟩
    · exact ⟨c :: A, fun h => h, fun X => by rw [List.cons_append, trim, if_neg hc]⟩

theorem digitVal_nul (r : Nat) : digitVal r 0 = none := by
  unfold digitVal; simp

theorem scanDigits_nul (A : Bytes) : ∀ a, ∃ b B, (0 ∉ A → 0 ∉ B) ∧ ∀ X, scanDigits r a (A ++ 0 :: X) = (b, B ++ 0 :: X) := by
  induction A with
  | nil => exact fun a => ⟨a, [], fun h => h, fun X => by rw [List.nil_append, scanDigits, digitVal_nul]⟩
  | cons c A ih =>
    intro a
    cases hc : digitVal r c with
    | none => exact ⟨a, c :: A, fun h => h, fun X => by rw [List.cons_append, scanDigits, hc]⟩
    | some d =>
      obtain ⟨b, B, h1, h2⟩ := ih (a * r + d)
      exact ⟨b, B, fun h => h1 (by simp at h; exact h.2), fun X => by rw [List.cons_append, scanDigits, hc]; exact h2 X⟩

/-- What is read does not depend on what follows the 0. -/
theorem scanInt_nul (r : Nat) (A : Bytes) :
    ∃ v B, (0 ∉ A → 0 ∉ B) ∧ ∀ X, scanInt r (A ++ 0 :: X) = (v, B ++ 0 :: X) := by
  obtain ⟨T, t1, t2⟩ := trim_nul A
  cases T with
  | nil =>
    refine ⟨0, [], fun _ => by simp, fun X => ?_⟩
    have : scanDigits r 0 (0 :: X) = (0, 0 :: X) := by rw [scanDigits, digitVal_nul]
    unfold scanInt minus
    rw [t2]
    simp [this]
  | cons c T =>
    by_cases hs : c = 45 ∨ c = 43
    · obtain ⟨b, B, h1, h2⟩ := scanDigits_nul (r := r) T 0
      refine ⟨if c = 45 then -b else b, B, fun h => h1 (by have := t1 h; simp at this; exact this.2), fun X => ?_⟩
      unfold scanInt minus
      rw [t2]
      dsimp only
      rw [show (if ((c :: T ++ 0 :: X).head? = some 45 ∨ (c :: T ++ 0 :: X).head? = some 43) then (c :: T ++ 0 :: X).tail
        else c :: T ++ 0 :: X) = T ++ 0 :: X from if_pos (by simpa using hs), h2]
      rcases hs with rfl | rfl <;> simp
    · obtain ⟨b, B, h1, h2⟩ := scanDigits_nul (r := r) (c :: T) 0
      refine ⟨b, B, fun h => h1 (t1 h), fun X => ?_⟩
      unfold scanInt minus
      rw [t2]
      dsimp only
      rw [show (if ((c :: T ++ 0 :: X).head? = some 45 ∨ (c :: T ++ 0 :: X).head? = some 43) then (c :: T ++ 0 :: X).tail
        else c :: T ++ 0 :: X) = c :: T ++ 0 :: X from if_neg (by simpa using hs), h2]
      have : c ≠ 45 := fun h => hs (.inl h)
      simp [this]

theorem scanInt_gmpScan {A X : Bytes} (h0 : 0 ∉ A) : (scanInt r (A ++ 0 :: X)).1 = (gmpScan r A).1 ∧
    (endCode (scanInt r (A ++ 0 :: X)).2 = MP_OK ↔ (gmpScan r A).2 = true) := by
  obtain ⟨v, B, h1, h2⟩ := scanInt_nul r A
  unfold gmpScan
  rw [h2 X, h2 []]
  refine ⟨rfl, ?_⟩
  cases B with
  | nil => simp [endCode]
  | cons b B =>
    have : b ≠ 0 := fun h => h1 h0 (by simp [h])
    simp [endCode, this, MP_TRUNC, MP_OK]

theorem read_string_spec {Q : Int → Mem → Prop} {A X : Bytes} (hE : Ref env E) (hr2 : 2 ≤ r) (hr : r ≤ 36)
    (h0 : 0 ∉ A) (hA : A.length ≤ 800000000) (ho : z.own = true) (h : R2 m σ) (hz : σ z = some v)
    (hQ : ∀ res m', (res = MP_OK ↔ (gmpScan r A).2 = true) → R2 m' (upd σ z (some (gmpScan r A).1)) → Q res m') :
    wp env E (mp_int_read_string z r (A ++ 0 :: X)) Q m := by
  obtain ⟨e1, e2⟩ := scanInt_gmpScan (r := r) (X := X) h0
  unfold mp_int_read_string
  refine wp_bind (read_cstring_total hE hr2 hr ?_ ho h hz fun m' h' => wp_pure (hQ _ _ ?_ ?_))
  · rw [List.take_append]
    refine List.mem_append.2 (.inr ?_)
    obtain ⟨k, hk⟩ : ∃ k, 800000001 - A.length = k + 1 := ⟨800000000 - A.length, by omega⟩
    rw [hk, List.take_succ_cons]; simp
  · exact e2
  · rwa [e1] at h'

theorem impz_set_str_spec {Q : Int → Mem → Prop} {A X : Bytes} {base : Int} (hE : Ref env E) (hb : 2 ≤ base ∧ base ≤ 36)
    (h0 : 0 ∉ A) (hA : A.length ≤ 800000000) (ho : z.own = true) (h : R2 m σ) (hz : σ z = some v)
    (hQ : ∀ m', R2 m' (upd σ z (some (gmpScan base.toNat A).1)) → Q (if (gmpScan base.toNat A).2 then 0 else -1) m') :
    wp env E (impz_set_str z (A ++ 0 :: X) base) Q m := by
  have eb : intU32 base = base.toNat := by unfold intU32; omega
  unfold impz_set_str
  rw [eb]
  refine wp_bind (read_string_spec hE (by omega) (by omega) h0 hA ho h hz fun res m' h1 h2 => wp_pure ?_)
  have := hQ m' h2
  by_cases hc : (gmpScan base.toNat A).2 = true
  · rw [if_pos hc] at this; rw [if_pos (h1.2 hc)]; exact this
  · rw [if_neg hc] at this; rw [if_neg (fun h => hc (h1.1 h))]; exact this

theorem impq_set_str_spec {Q : Int → Mem → Prop} {A X : Bytes} {base : Int} {a : MpQ} {u w : Int} (hE : Ref env E)
    (hb : 2 ≤ base ∧ base ≤ 36) (h0 : 0 ∉ A) (hA : A.length ≤ 800000000) (ho1 : a.num.own = true) (ho2 : a.den.own = true)
    (hne : a.num ≠ a.den) (h : R2 m σ) (hz1 : σ a.num = some u) (hz2 : σ a.den = some w)
    (hQ : ∀ m', R2 m' (upd (upd σ a.num (some (gmpScanQ base.toNat A).1)) a.den (some (gmpScanQ base.toNat A).2.1)) →
      Q (if (gmpScanQ base.toNat A).2.2 then 0 else -1) m') :
    wp env E (impq_set_str a (A ++ 0 :: X) base) Q m := by
  have eb : intU32 base = base.toNat := by unfold intU32; omega
  have hfin : ∀ (resN resD : Int) (p q : Bool), (resN = MP_OK ↔ p = true) → (resD = MP_OK ↔ q = true) →
      (if resN ≠ MP_OK ∨ resD ≠ MP_OK then (-1 : Int) else 0) = if (p && q) = true then 0 else -1 := by
    intro resN resD p q hp hq
    cases p <;> cases q <;> simp_all
  unfold impq_set_str
  rw [eb]
  refine wp_bind (wp_mono (Q := fun n m' => n = A.length ∧ m' = m) ?_ ?_)
  · show wp env E (strlen ([] ++ (A ++ 0 :: X)) _ ([] : Bytes).length) _ m
    exact strlen_exact h0 (by simp) ⟨rfl, rfl⟩
  rintro _ m0 ⟨rfl, rfl⟩
  have et : (A ++ 0 :: X).take (A.length + 1) = A ++ [0] := by
    rw [List.take_append, List.take_of_length_le (by omega), Nat.add_sub_cancel_left]; rfl
  dsimp only
  rw [et]
  have hsplit : A.takeWhile (· ≠ 47) ++ A.dropWhile (· ≠ 47) = A := List.takeWhile_append_dropWhile
  have hno : 47 ∉ A.takeWhile (· ≠ 47) := fun hm => by
    have := List.all_eq_true.1 (List.all_takeWhile (p := fun x : Nat => decide (x ≠ 47)) (l := A)) 47 hm
    simp at this
  unfold gmpScanQ at hQ
  dsimp only at hQ
  generalize A.takeWhile (· ≠ 47) = N at *
  cases hD : A.dropWhile (· ≠ 47) with
  | nil =>
    rw [hD] at hQ hsplit
    dsimp only at hQ
    rw [List.append_nil] at hsplit
    subst hsplit
    refine wp_bind (wp_mono (Q := fun n m' => n = none ∧ m' = m0) ?_ ?_)
    · exact strchr_missing (R := []) (by omega) N [] _ (by omega) h0 hno ⟨rfl, rfl⟩
    rintro _ m0 ⟨rfl, rfl⟩
    refine wp_bind (wp_pure ?_)
    refine wp_bind (read_string_spec hE (by omega) (by omega) h0 hA ho1 h hz1 fun res m' h1 h2 => ?_)
    refine wp_bind (mp_int_set_uvalue_spec hE (by norm_num) h2 (by rw [upd_ne _ _ (Ne.symm hne)]; exact hz2) ho2 fun m'' h3 => wp_pure ?_)
    rw [hfin res MP_OK _ true h1 (by simp)]
    rw [Bool.and_true]
    exact hQ m'' h3
  | cons s D =>
    have hs : s = 47 := by
      have := List.head?_dropWhile_not (fun x : Nat => decide (x ≠ 47)) A
      rw [hD] at this
      simpa using this
    subst hs
    rw [hD] at hQ hsplit
    dsimp only at hQ
    subst hsplit
    have h0N : 0 ∉ N := fun h => h0 (by simp [h])
    have h0D : 0 ∉ D := fun h => h0 (by simp [h])
    refine wp_bind (wp_mono (Q := fun n m' => n = some N.length ∧ m' = m0) ?_ ?_)
    · rw [List.append_assoc, List.cons_append]
      have := strchr_found (env := env) (E := E) (m := m0) (Q := fun n m' => n = some N.length ∧ m' = m0) (c := 47) (R := D ++ [0]) N []
        ((N ++ 47 :: D).length + 1) (by rw [List.length_append]; omega) h0N hno (by simp)
      simpa using this
    rintro _ m0 ⟨rfl, rfl⟩
    refine wp_bind (wp_bset (by rw [List.length_append, List.length_append, List.length_cons]; omega) ?_)
    have e1 : (N ++ 47 :: D ++ [0]).set N.length 0 = N ++ 0 :: (D ++ [0]) := by simp
    have e2 : (N ++ 0 :: (D ++ [0])).drop (N.length + 1) = D ++ 0 :: [] := by
      rw [List.drop_append, List.drop_eq_nil_of_le (by omega), Nat.add_sub_cancel_left]; rfl
    rw [e1]
    simp only [List.length_append, List.length_cons] at hA
    refine wp_bind (read_string_spec hE (by omega) (by omega) h0N (by omega) ho1 h hz1 fun resN m' h1 h2 => ?_)
    show wp env E (mp_int_read_string a.den base.toNat ((N ++ 0 :: (D ++ [0])).drop (N.length + 1)) >>= _) Q m'
    rw [e2]
    refine wp_bind (read_string_spec hE (by omega) (by omega) h0D (by omega) ho2 h2 (by rw [upd_ne _ _ (Ne.symm hne)]; exact hz2)
      fun resD m'' h3 h4 => wp_pure ?_)
    rw [hfin resN resD _ _ h1 h3]
    exact hQ m'' h4

theorem digit_small {c d : Nat} (h : IsDigit r c d) : IsDigit r (if 65 ≤ c ∧ c ≤ 90 then c + 32 else c) d := by
  obtain ⟨h1, h2⟩ := h
  refine ⟨h1, ?_⟩
  unfold digitChar at *
  split <;> split_ifs at * <;> omega

/-- A numeral in capital or small letters is read back. -/
theorem gmpScan_numeral {radix : Int} (hr2 : 2 ≤ r) (hr : r ≤ 36) (v : Int) : gmpScan r (gmpCase radix (numeral r v)) = (v, true) := by
  obtain ⟨vs, hvs, hval⟩ := numeralN_digits hr2 v.natAbs
  have hF : ∀ f : Nat → Nat, (∀ c d, IsDigit r c d → IsDigit r (f c) d) → List.Forall₂ (IsDigit r) ((numeralN r v.natAbs).map f) vs := by
    intro f hf
    rw [List.forall₂_map_left_iff]
    exact hvs.imp hf
  have hsg : (if v < 0 then [45] else [] : Bytes) = [] ∨ (if v < 0 then [45] else [] : Bytes) = [43] ∨ (if v < 0 then [45] else [] : Bytes) = [45] := by
    split <;> simp
  obtain ⟨f, hf, hf45, hcase⟩ : ∃ f : Nat → Nat, (∀ c d, IsDigit r c d → IsDigit r (f c) d) ∧ f 45 = 45 ∧
      ∀ l, gmpCase radix l = l.map f := by
    unfold gmpCase
    by_cases h : radix < 0
    · exact ⟨id, fun _ _ h => h, rfl, fun l => by rw [if_pos h, List.map_id]⟩
    · exact ⟨_, fun c d h => digit_small h, rfl, fun l => by rw [if_neg h]⟩
  have key := (scanInt_split (w := []) (rest := []) hr (by simp) hsg (hF f hf) (fun d => not_isDigit_zero (r := r) (d := d)) (fun _ _ => by unfold IsSpace; omega)).2
  have e : gmpCase radix (numeral r v) ++ [0] = [] ++ (if v < 0 then [45] else []) ++ (numeralN r v.natAbs).map f ++ 0 :: [] := by
    rw [hcase]
    unfold numeral
    split <;> simp [hf45]
  unfold gmpScan
  rw [e, key, hval]
  refine Prod.ext ?_ (by simp)
  show _ = v
  by_cases h1 : v < 0
  · rw [if_pos h1, if_pos rfl]; omega
  · rw [if_neg h1, if_neg (by simp)]; omega

/-! ### The number of digits -/

theorem impz_sizeinbase_spec {Q : Nat → Mem → Prop} {base : Int} (hb : 2 ≤ base ∧ base ≤ 36) (h : R2 m σ) (hz : σ z = some v)
    (hv : v ≠ 0) (hok : LenOk base.toNat v.natAbs)
    (hQ : ∀ s : Nat, (numeralN base.toNat v.natAbs).length ≤ s →
      s * 1000000000 < Nat.size v.natAbs * s_log2.getD base.toNat 0 + 1000000000 → Q s m) :
    wp env E (impz_sizeinbase z base) Q m := by
  have eb : intU32 base = base.toNat := by unfold intU32; omega
  have hN := numeralN_pos base.toNat v.natAbs (by omega)
  unfold impz_sizeinbase
  rw [eb]
  refine wp_bind (mp_int_compare_zero_spec h hz ?_)
  refine wp_if_neg (by rw [Int.sign_eq_zero_iff_zero]; exact hv) ?_
  refine wp_bind (wp_mono (Q := fun (o : Int) m' => m' = m ∧ ∃ s : Nat, o = s + 1 + (if v < 0 then 1 else 0) ∧
    (numeralN base.toNat v.natAbs).length ≤ s ∧ s ≤ 2147483584 ∧
    s * 1000000000 < Nat.size v.natAbs * s_log2.getD base.toNat 0 + 1000000000) ?_ ?_)
  · unfold mp_int_string_len
    refine wp_bind (wp_cassert (decide_eq_true ⟨by omega, by omega⟩) ?_)
    refine wp_bind (s_outlen_spec (by omega) (by omega) h hz fun o h0 h1 h2 h3 h4 h5 => ?_)
    have h3 := h3 hok
    have h4 := h4 hv
    refine wp_bind (wp_cint (by omega) (by omega) ?_)
    refine wp_bind (MP_SIGN_spec h hz ?_)
    obtain ⟨s, hs⟩ : ∃ s : Nat, o = s := ⟨o.toNat, by omega⟩
    have hlt : s * 1000000000 < Nat.size v.natAbs * s_log2.getD base.toNat 0 + 1000000000 := by rw [hs] at h4; exact_mod_cast h4
    clear h4
    refine wp_ite (fun hn => ?_) (fun hn => ?_)
    · have hv : v < 0 := by simpa using hn
      refine wp_cint (by omega) (by omega) ?_
      refine ⟨rfl, s, ?_, by omega, by omega, hlt⟩
      rw [if_pos hv, hs]
    · have hv : ¬ v < 0 := by simpa using hn
      exact wp_pure ⟨rfl, s, by rw [if_neg hv, Int.add_zero, hs], by omega, by omega, hlt⟩
  rintro _ m' ⟨rfl, s, rfl, s1, s2, s3⟩
  have hpos : (s : Int) + 1 + (if v < 0 then 1 else 0) > 0 := by split <;> omega
  refine wp_bind (CHECK_spec (wp_pure ⟨by rw [if_pos hpos]; decide, ?_⟩))
  refine wp_bind (mp_int_compare_zero_spec h hz (wp_pure ?_))
  have hsg : v.sign < 0 ↔ v < 0 := Int.sign_neg_iff
  unfold sub64 u64
  split_ifs with h1 h2 h2
  · convert hQ s s1 s3 using 1; omega
  · exact absurd (hsg.1 h1) h2
  · exact absurd (hsg.2 h2) h1
  · convert hQ s s1 s3 using 1; omega

theorem pow2_len : ∀ k < 6, 1 ≤ k → s_log2.getD (2 ^ k) 0 * k ≤ 1000000000 := by decide +kernel

/-- In a radix that is a power of two the estimate is the number of digits. -/
theorem outlen_pow2 {n k s : Nat} (hk : 1 ≤ k ∧ k < 6) (hn : n ≠ 0) (h : s * 1000000000 < Nat.size n * s_log2.getD (2 ^ k) 0 + 1000000000) :
    s ≤ (numeralN (2 ^ k) n).length := by
  have hN : (numeralN (2 ^ k) n).length = (Nat.digits (2 ^ k) n).length := by
    unfold numeralN; rw [if_neg hn]; simp
  rw [hN]
  have h1 : n < (2 ^ k) ^ (Nat.digits (2 ^ k) n).length := Nat.lt_base_pow_length_digits (by
    calc 1 < 2 ^ 1 := by norm_num
      _ ≤ 2 ^ k := Nat.pow_le_pow_right (by norm_num) hk.1)
  generalize (Nat.digits (2 ^ k) n).length = N at *
  rw [← Nat.pow_mul] at h1
  have h2 : Nat.size n ≤ k * N := Nat.size_le.2 h1
  have h3 := pow2_len k hk.2 hk.1
  generalize s_log2.getD (2 ^ k) 0 = l at *
  have h4 : Nat.size n * l ≤ N * 1000000000 :=
    calc Nat.size n * l ≤ k * N * l := Nat.mul_le_mul_right _ h2
      _ = N * (l * k) := by ring
      _ ≤ _ := Nat.mul_le_mul_left _ h3
  omega

end Imath
