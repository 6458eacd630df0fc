import Verif.Model.Prime
import Verif.SpecPrime
import Verif.Proof.RatToDec
import Verif.Proof.Exptmod
import Mathlib.NumberTheory.Bertrand
import Mathlib.FieldTheory.Finite.Basic

/-!
# Proofs about `iprime.c`
-/

namespace Imath

variable {env : Env} {E : Fault → Prop} {m : Mem} {σ σ' : Id → Option Int} {z : Id} {x : Int}

/-! ### The table -/

theorem ptab_eq : s_ptab = s_ptab.dropLast ++ [0] := by decide +kernel

theorem prime_small {q : Nat} (hq : q < 1024) : q.Prime ↔ 2 ≤ q ∧ ∀ d < 32, 2 ≤ d → d < q → q % d ≠ 0 := by
  constructor
  · intro hp
    refine ⟨hp.two_le, fun d _ h2 hd h0 => ?_⟩
    rcases (Nat.dvd_prime hp).1 (Nat.dvd_of_mod_eq_zero h0) with h | h <;> omega
  · rintro ⟨h2, h⟩
    by_contra hp
    have h1 := Nat.minFac_sq_le_self (by omega) hp
    have h3 := (Nat.minFac_prime (n := q) (by omega)).two_le
    have h4 : q.minFac < 32 := by nlinarith
    exact h _ h4 h3 ((Nat.not_prime_iff_minFac_lt h2).1 hp) (Nat.mod_eq_zero_of_dvd (Nat.minFac_dvd q))

theorem ptab_bool : ∀ q < 1000, q ∈ s_ptab.dropLast ↔ 2 ≤ q ∧ ∀ d < 32, 2 ≤ d → d < q → q % d ≠ 0 := by decide +kernel

theorem ptab_prime : ∀ q < 1000, q ∈ s_ptab.dropLast ↔ q.Prime := fun q hq =>
  (ptab_bool q hq).trans (prime_small (by omega)).symm

theorem ptab_lt : ∀ q ∈ s_ptab.dropLast, q < 1000 := by decide +kernel

theorem ptab_iff (p : Nat) : p ∈ s_ptab.dropLast ↔ p.Prime ∧ p < 1000 :=
  ⟨fun hp => ⟨(ptab_prime p (ptab_lt p hp)).1 hp, ptab_lt p hp⟩, fun ⟨hp, hl⟩ => (ptab_prime p hl).2 hp⟩

theorem ptab_first : ∀ p, p ∈ s_ptab.take 10 ↔ p.Prime ∧ p < 30 := by
  intro p
  have h1 : ∀ q < 30, q ∈ s_ptab.take 10 ↔ 2 ≤ q ∧ ∀ d < 32, 2 ≤ d → d < q → q % d ≠ 0 := by decide +kernel
  have h : ∀ q < 30, q ∈ s_ptab.take 10 ↔ q.Prime := fun q hq => (h1 q hq).trans (prime_small (by omega)).symm
  have hb : ∀ q ∈ s_ptab.take 10, q < 30 := by decide +kernel
  exact ⟨fun hp => ⟨(h p (hb p hp)).1 hp, hb p hp⟩, fun ⟨hp, hl⟩ => (h p hl).2 hp⟩

theorem ptab_length : 10 ≤ s_ptab.length := by decide +kernel

attribute [local irreducible] s_ptab

/-! ### Trial division -/

/-- What trial division finds out. -/
def trial (x : Int) : List Nat → Option Bool
  | [] => none
  | p :: ps => if x = p then some true else if (p : Int) ∣ x then some false else trial x ps

theorem trialLoop_spec {Q : Int → Mem → Prop} {k : M Int} (hE : Ref env E) (hz : σ z = some x) :
    ∀ (ps : List Nat), (∀ p ∈ ps, 0 < p ∧ p < 1000) → ∀ {m : Mem}, R2 m σ →
    (∀ b, trial x ps = some b → ∀ m', R2 m' σ → Q (if b then MP_TRUE else MP_FALSE) m') →
    (trial x ps = none → ∀ m', R2 m' σ → wp env E k Q m') →
    wp env E (trialLoop z k (ps ++ [0])) Q m := by
  intro ps
  induction ps with
  | nil => intro _ m h _ hk; exact wp_if_neg (by simp) (hk rfl m h)
  | cons p ps ih =>
    intro hp m h hb hk
    obtain ⟨hp0, hp1⟩ := hp p (by simp)
    refine wp_if_pos (by omega) ?_
    refine wp_bind (mp_int_compare_value_spec (by omega) (by omega) h hz fun m1 h1 => ?_)
    refine wp_ite (fun hc => ?_) fun hc => ?_
    · refine wp_pure ?_
      have e : x = p := by unfold cmpZ at hc; split_ifs at hc <;> omega
      exact hb true (by rw [trial, if_pos e]) _ h1
    have e : x ≠ p := by rintro rfl; exact hc (by unfold cmpZ; simp)
    refine wp_bind (mp_int_div_value_spec hE (by omega) (by omega) h1 hz (by simp) (fun h0 => by omega) fun _ m2 h2 => ?_)
    refine wp_if_neg (by simp) ?_
    show wp env E (if x.tmod p = 0 then pure MP_FALSE else trialLoop z k (ps ++ [0])) Q m2
    refine wp_ite (fun h0 => wp_pure ?_) fun h0 => ?_
    · exact hb false (by rw [trial, if_neg e, if_pos (Int.dvd_of_tmod_eq_zero h0)]) _ h2
    · have hd : ¬ (p : Int) ∣ x := fun hd => h0 (Int.tmod_eq_zero_of_dvd hd)
      have et : trial x (p :: ps) = trial x ps := by rw [trial, if_neg e, if_neg hd]
      refine ih (fun q hq => hp q (by simp [hq])) h2 ?_ ?_
      · intro b hbb; exact hb b (et.trans hbb)
      · intro hn; exact hk (et.trans hn)

theorem trial_none : ∀ {ps : List Nat}, trial x ps = none ↔ ∀ p ∈ ps, x ≠ p ∧ ¬ (p : Int) ∣ x := by
  intro ps
  induction ps with
  | nil => simp [trial]
  | cons p ps ih =>
    rw [trial]
    split_ifs with h1 h2
    · simp [h1]
    · simp [h2]
    · simp [ih, h1, h2]

theorem trial_some {b : Bool} : ∀ {ps : List Nat}, (∀ p ∈ ps, p.Prime) → trial x ps = some b →
    if b then ∃ p ∈ ps, x = p else (∃ p ∈ ps, (p : Int) ∣ x) ∧ ∀ p : Nat, p.Prime → x ≠ p := by
  intro ps
  induction ps with
  | nil => intro _ h; simp [trial] at h
  | cons p ps ih =>
    intro hp h
    rw [trial] at h
    split_ifs at h with h1 h2
    · cases h; simp [h1]
    · cases h
      simp only [Bool.false_eq_true, if_false]
      refine ⟨⟨p, by simp, h2⟩, ?_⟩
      rintro q hq rfl
      have := (Nat.prime_dvd_prime_iff_eq (hp p (by simp)) hq).1 (Int.natCast_dvd_natCast.1 h2)
      exact h1 (by rw [this])
    · have := ih (fun q hq => hp q (by simp [hq])) h
      cases b with
      | true => obtain ⟨q, hq, e⟩ := this; exact ⟨q, by simp [hq], e⟩
      | false => obtain ⟨⟨q, hq, e⟩, h'⟩ := this; exact ⟨⟨q, by simp [hq], e⟩, h'⟩

/-! ### Fermat's test -/

theorem fermatLoop_spec {Q : Int × Bool → Mem → Prop} {T : Nat → Id} (hE : Ref env E) (hz : σ z = some x) (hx : 1000 ≤ x) :
    ∀ (n : Nat) (l : List Nat), n ≤ l.length → (∀ p ∈ l.take n, 0 < p ∧ p < 1000) →
    ∀ {m : Mem} {σ' : Id → Option Int} {v : Int}, Tmps σ 1 T (L [v]) σ' → R2 m σ' →
    ((∀ p ∈ l.take n, x ∣ (p : Int) ^ x.toNat - p) → ∀ m', R2 m' σ → Q (MP_TRUE, false) m') →
    (¬ (∀ p ∈ l.take n, x ∣ (p : Int) ^ x.toNat - p) → ∀ m', R2 m' σ → Q (MP_FALSE, false) m') →
    wp env E (fermatLoop z (T 0) n l) (fun r m'' => r.2 = false ∧ TDone 1 T Q r m'') m := by
  intro n
  induction n with
  | zero =>
    intro l _ _ m σ' v g h hQ1 hQ2
    exact wp_pure ⟨rfl, .mk g h (hQ1 (by simp))⟩
  | succ n ih =>
    intro l hl hp m σ' v g h hQ1 hQ2
    cases l with
    | nil => simp at hl
    | cons p ps =>
      obtain ⟨hp0, hp1⟩ := hp p (by simp)
      refine wp_if_pos (by omega) ?_
      refine wp_bind (mp_int_exptmod_bvalue_spec hE h (by omega) (by omega) (g.out hz) (g.out hz) (g.get 0) (g.ow 0) (by omega)
        (fun h0 => by omega) (fun _ h0 => by omega) fun _ _ m1 h1 => ?_)
      obtain ⟨σ1, h1, g1⟩ := g.up 0 h1
      tsimp at g1
      refine wp_if_neg (by simp) ?_
      refine wp_bind (mp_int_compare_value_spec (by omega) (by omega) h1 (g1.get 0) fun m2 h2 => ?_)
      have hw : (if x = 0 ∧ x = 1 then (1 : Int) else (p : Int) ^ x.toNat % x) = (p : Int) ^ x.toNat % x := if_neg (by omega)
      rw [hw] at g1 ⊢
      have key : (p : Int) ^ x.toNat % x = p ↔ x ∣ (p : Int) ^ x.toNat - p := by
        rw [← Int.emod_eq_emod_iff_emod_sub_eq_zero.trans Int.dvd_iff_emod_eq_zero.symm]
        rw [Int.emod_eq_of_lt (a := (p : Int)) (by omega) (by omega)]
      have hc : cmpZ ((p : Int) ^ x.toNat % x) p ≠ 0 ↔ ¬ x ∣ (p : Int) ^ x.toNat - p := by
        rw [← key]; unfold cmpZ; split_ifs <;> simp <;> omega
      refine wp_ite (fun h0 => wp_pure ⟨rfl, .mk g1 h2 (hQ2 fun ha => ?_)⟩) fun h0 => ?_
      · exact hc.1 h0 (ha p (by simp))
      · have hd : x ∣ (p : Int) ^ x.toNat - p := by by_contra hd; exact h0 (hc.2 hd)
        have e : (∀ q ∈ (p :: ps).take (n + 1), x ∣ (q : Int) ^ x.toNat - q) ↔ ∀ q ∈ ps.take n, x ∣ (q : Int) ^ x.toNat - q := by
          simp [hd]
        rw [e] at hQ1 hQ2
        exact ih ps (by simpa using hl) (fun q hq => hp q (by simp [hq])) g1 h2 hQ1 hQ2

theorem mp_int_is_prime_spec {Q : Int → Mem → Prop} (hE : Ref env E) (h : R2 m σ) (hz : σ z = some x)
    (hT : Accepted x → ∀ m', R2 m' σ → Q MP_TRUE m') (hF : ¬ Accepted x → ∀ m', R2 m' σ → Q MP_FALSE m') :
    wp env E (mp_int_is_prime z) Q m := by
  unfold mp_int_is_prime
  refine wp_bind (mp_int_compare_value_spec (by omega) (by omega) h hz fun m1 h1 => ?_)
  refine wp_ite (fun hc => wp_pure ?_) fun hc => ?_
  · have hx : x < 2 := by unfold cmpZ at hc; split_ifs at hc <;> omega
    refine hF ?_ _ h1
    rintro (⟨p, hp, -, rfl⟩ | ⟨h2, -⟩)
    · have := hp.two_le; omega
    · omega
  have hx : 2 ≤ x := by unfold cmpZ at hc; split_ifs at hc <;> omega
  have hps : ∀ p ∈ s_ptab.dropLast, p.Prime := fun p hp => ((ptab_iff p).1 hp).1
  rw [show trialLoop z _ s_ptab = trialLoop z _ (s_ptab.dropLast ++ [0]) from congrArg _ ptab_eq]
  refine trialLoop_spec hE hz _ (fun p hp => ⟨(hps p hp).pos, ptab_lt p hp⟩) h1 (fun b hb m2 h2 => ?_) fun hn m2 h2 => ?_
  · have ht := trial_some hps hb
    cases b with
    | true =>
      obtain ⟨p, hp, e⟩ := ht
      exact hT (.inl ⟨p, hps p hp, ptab_lt p hp, e⟩) _ h2
    | false =>
      obtain ⟨⟨p, hp, e⟩, ht⟩ := ht
      refine hF ?_ _ h2
      rintro (⟨q, hq, -, e'⟩ | ⟨-, h', -⟩)
      · exact ht q hq e'
      · exact h' p (hps p hp) (ptab_lt p hp) e
  · rw [trial_none] at hn
    have hbig : 1000 ≤ x := by
      by_contra hlt
      obtain ⟨q, hq, hqd⟩ := Nat.exists_prime_and_dvd (n := x.toNat) (by omega)
      have hle := Nat.le_of_dvd (by omega) hqd
      refine (hn q ((ptab_iff q).2 ⟨hq, by omega⟩)).2 ?_
      have := Int.natCast_dvd_natCast.2 hqd
      rwa [Int.toNat_of_nonneg (by omega)] at this
    have hacc : Accepted x ↔ ∀ p ∈ s_ptab.take 10, x ∣ (p : Int) ^ x.toNat - p := by
      constructor
      · rintro (⟨p, hp, hp1, rfl⟩ | ⟨-, -, h'⟩)
        · omega
        · exact fun p hp => h' p ((ptab_first p).1 hp).1 ((ptab_first p).1 hp).2
      · exact fun h' => .inr ⟨hx, fun p hp hl => (hn p ((ptab_iff p).2 ⟨hp, hl⟩)).2, fun p hp hl => h' p ((ptab_first p).2 ⟨hp, hl⟩)⟩
    refine wp_bind (wp_mono (Q := fun r m'' => r.2 = false ∧ TDone 0 (fun _ => Id.tmp 0) (fun r m' => Q r.1 m') r m'')
      (withLocalL_spec (Q := fun r m' => Q r.1 m') (v := 0) h2 (Tmps.nil σ (fun _ => .tmp 0) fun _ => 0)
        (fun t m1 P h1 hd hn ho hP => mp_int_init_spec h1 hd hn hP) fun t m3 g h3 => ?_) fun r m3 hr => wp_pure hr.2.elim)
    have g' : Tmps σ 1 (nset (fun _ => Id.tmp 0) 0 t) (L [0]) (upd σ t (some 0)) :=
      g.congr (fun _ _ => rfl) fun i hi => by rw [show i = 0 by omega]; rfl
    refine fermatLoop_spec hE hz hbig 10 s_ptab ptab_length ?_ g' h3 ?_ ?_
    · intro p hp
      have := (ptab_first p).1 hp
      exact ⟨this.1.pos, by omega⟩
    · intro ha; exact hT (hacc.2 ha)
    · intro ha; exact hF fun h' => ha (hacc.1 h')

/-! ### Which integers are accepted -/

theorem accepted_of_prime {p : Nat} (hp : p.Prime) : Accepted p := by
  by_cases h : p < 1000
  · exact .inl ⟨p, hp, h, rfl⟩
  · refine .inr ⟨by have := hp.two_le; omega, fun q hq hl hd => ?_, fun q hq hl => ?_⟩
    · have := (Nat.prime_dvd_prime_iff_eq hq hp).1 (Int.natCast_dvd_natCast.1 hd)
      omega
    · have := Fact.mk hp
      rw [Int.toNat_natCast, ← ZMod.intCast_zmod_eq_zero_iff_dvd]
      push_cast
      rw [ZMod.pow_card, sub_self]

theorem accepted_two_le (h : Accepted x) : 2 ≤ x := by
  rcases h with ⟨p, hp, -, rfl⟩ | ⟨h, -⟩
  · have := hp.two_le; omega
  · exact h

theorem accepted_even (h : Accepted x) (he : x % 2 = 0) : x = 2 := by
  rcases h with ⟨p, hp, -, rfl⟩ | ⟨-, h, -⟩
  · rcases hp.eq_two_or_odd with h | h
    · rw [h]; rfl
    · omega
  · exact absurd (Int.dvd_of_emod_eq_zero he) (h 2 Nat.prime_two (by omega))

/-! ### Search -/

theorem findPrimeLoop_spec {Q : Int → Mem → Prop} {y : Int} (hE : Ref env E) (ho : z.own = true) (hy : Accepted y) :
    ∀ (f : Nat) {m : Mem} {σ : Id → Option Int} {x : Int}, R2 m σ → σ z = some x → x ≤ y → (y - x) % 2 = 0 → y - x < 2 * f →
    (∀ w m', x ≤ w → (w - x) % 2 = 0 → Accepted w → (∀ u, x ≤ u → u < w → (u - x) % 2 = 0 → ¬ Accepted u) →
      R2 m' (upd σ z (some w)) → Q MP_TRUE m') →
    wp env E (findPrimeLoop z f) Q m := by
  intro f
  induction f with
  | zero => intro m σ x _ _ h1 h2 h3; omega
  | succ f ih =>
    intro m σ x h hz h1 h2 h3 hQ
    refine wp_bind (mp_int_is_prime_spec hE h hz (fun ha m1 r1 => ?_) fun ha m1 r1 => ?_)
    · refine wp_if_neg (by decide) (wp_pure ?_)
      refine hQ x m1 (by omega) (by omega) ha (fun u _ _ => by omega) ?_
      rwa [upd_same _ hz]
    · refine wp_if_pos rfl ?_
      refine wp_bind (mp_int_add_value_spec hE (by omega) (by omega) r1 hz hz ho fun m2 r2 => ?_)
      refine wp_if_neg (by simp) ?_
      have hxy : x ≠ y := by rintro rfl; exact ha hy
      refine ih r2 (upd_self ..) (by omega) (by omega) (by omega) fun w m' hw1 hw2 hw3 hw4 hr => ?_
      rw [upd_upd] at hr
      refine hQ w m' (by omega) (by omega) hw3 (fun u hu1 hu2 hu3 => ?_) hr
      by_cases e : u = x
      · rwa [e]
      · exact hw4 u (by omega) (by omega) (by omega)

theorem mp_int_find_prime_spec {Q : Int → Mem → Prop} (hE : Ref env E) (h : R2 m σ) (hz : σ z = some x) (ho : z.own = true)
    (hQ : ∀ w m', x ≤ w → w % 2 = 1 → Accepted w → (∀ u, x ≤ u → u < w → u % 2 = 1 → ¬ Accepted u) →
      R2 m' (upd σ z (some w)) → Q MP_TRUE m') :
    wp env E (mp_int_find_prime z) Q m := by
  unfold mp_int_find_prime
  refine wp_bind (MP_USED_spec h hz fun u hu1 _ hlt _ => ?_)
  have hF : x.natAbs < 2 ^ (32 * u) := by rw [pow_mul]; exact hlt
  generalize 2 ^ (32 * u) = F at hF
  refine wp_bind (mp_int_is_even_spec h hz ?_)
  -- the odd number from which the search starts
  have main : ∀ {m1 : Mem} {s : Int} {σ1 : Id → Option Int}, R2 m1 σ1 → σ1 z = some s → s % 2 = 1 → x ≤ s → s ≤ x + 1 →
      (∀ w m', R2 m' (upd σ1 z (some w)) → R2 m' (upd σ z (some w))) →
      wp env E (findPrimeLoop z (F + 3)) Q m1 := by
    intro m1 s σ1 r1 hs hodd h1 h2 hσ
    obtain ⟨y, hy, hy1, hy2, hy3⟩ : ∃ y, Accepted y ∧ s ≤ y ∧ (y - s) % 2 = 0 ∧ y - s < 2 * ((F + 3 : Nat) : Int) := by
      by_cases h3 : s ≤ 3
      · exact ⟨3, accepted_of_prime (p := 3) (by decide), h3, by omega, by push_cast; omega⟩
      · obtain ⟨p, hp, hp1, hp2⟩ := Nat.exists_prime_lt_and_le_two_mul s.toNat (by omega)
        refine ⟨p, accepted_of_prime hp, by omega, ?_, by push_cast; omega⟩
        rcases hp.eq_two_or_odd with e | e <;> omega
    refine findPrimeLoop_spec hE ho hy _ r1 hs hy1 hy2 hy3 fun w m' hw1 hw2 hw3 hw4 hr => ?_
    exact hQ w m' (by omega) (by omega) hw3 (fun u hu1 hu2 hu3 => hw4 u (by omega) hu2 (by omega)) (hσ w m' hr)
  refine wp_bind (wp_cif (fun he => ?_) fun he => ?_)
  · have he : x % 2 = 0 := by simpa using he
    refine mp_int_add_value_spec hE (by omega) (by omega) h hz hz ho fun m1 r1 => ?_
    exact wp_if_neg (by simp) (main r1 (upd_self ..) (by omega) (by omega) (by omega) fun w m' hr => by rwa [upd_upd] at hr)
  · have he : ¬ x % 2 = 0 := by simpa using he
    exact wp_pure (wp_if_neg (by simp) (main h hz (by omega) (by omega) (by omega) fun w m' hr => hr))

end Imath
