import Verif.Proof.Prime
import Verif.Proof.Bridge

/-!
# Properties C42 and C43: primality test and search

`Accepted` is defined in `Verif/SpecPrime.lean`.
-/

namespace Imath

variable {env : Env} {m : Mem} {ρ : Nat → Option Int} {a : Nat} {x : Int}

/-- The only variable, 0, has the given value. -/
def only (v : Int) : Nat → Option Int := fun n => if n = 0 then some v else none

theorem only_state {v : Int} (hv : v.natAbs ≤ 2 ^ 100) : ∃ m, State m (only v) := by
  refine exists_state _ 1 (fun n hn => if_neg (by omega)) fun n w hw => ?_
  unfold only at hw
  split at hw
  · cases hw
    refine Nat.lt_of_le_of_lt hv ?_
    rw [← Nat.pow_mul]
    exact Nat.pow_lt_pow_right (by norm_num) (by norm_num)
  · cases hw

/-! ### C42 -/

/-- `mp_int_is_prime` says `MP_TRUE` for the accepted values and `MP_FALSE` for all others; nothing is
changed. -/
theorem C42_is_prime (h : State m ρ) (ha : ρ a = some x) :
    Runs env (mp_int_is_prime (.var a)) m fun r m' =>
      (Accepted x ∧ r = MP_TRUE ∨ ¬ Accepted x ∧ r = MP_FALSE) ∧ State m' ρ :=
  Runs.of_wp (mp_int_is_prime_spec (ref_refused env) h.r2 ha (fun hx _ r => ⟨.inl ⟨hx, rfl⟩, r.state⟩)
    fun hx _ r => ⟨.inr ⟨hx, rfl⟩, r.state⟩)

/-- A prime is never rejected. -/
theorem C42_prime {p : Nat} (h : State m ρ) (hp : p.Prime) (ha : ρ a = some (p : Int)) :
    Runs env (mp_int_is_prime (.var a)) m fun r m' => r = MP_TRUE ∧ State m' ρ :=
  (C42_is_prime h ha).mono fun _ _ hr => ⟨hr.1.elim (fun h => h.2) fun h => absurd (accepted_of_prime hp) h.1, hr.2⟩

/-- Only values below 2 and composite values are rejected. -/
theorem C42_rejects (h : State m ρ) (ha : ρ a = some x) :
    Runs env (mp_int_is_prime (.var a)) m fun r _ =>
      r = MP_FALSE → x < 2 ∨ ∃ d e : Int, 1 < d ∧ 1 < e ∧ x = d * e := by
  refine (C42_is_prime h ha).mono fun r m' hr h0 => ?_
  have hn : ¬ Accepted x := hr.1.elim (fun h => by rw [h0] at h; exact absurd h.2 (by decide)) fun h => h.1
  by_cases h2 : x < 2
  · exact .inl h2
  · refine .inr ?_
    obtain ⟨n, rfl⟩ := Int.eq_ofNat_of_zero_le (show 0 ≤ x by omega)
    have hp : ¬ n.Prime := fun hp => hn (accepted_of_prime hp)
    have h3 := (Nat.not_prime_iff_minFac_lt (by omega)).1 hp
    have h4 := (Nat.minFac_prime (n := n) (by omega)).two_le
    obtain ⟨e, he⟩ := Nat.minFac_dvd n
    refine ⟨n.minFac, e, by omega, ?_, by exact_mod_cast he⟩
    by_contra h5
    have h6 : e ≤ 1 := by omega
    have : n.minFac * e ≤ n.minFac * 1 := Nat.mul_le_mul_left _ h6
    omega

/-- What is accepted below a million is prime. -/
theorem C42_below_million (h : State m ρ) (ha : ρ a = some x) (hx : x < 1000000) :
    Runs env (mp_int_is_prime (.var a)) m fun r _ => r = MP_TRUE ↔ ∃ p : Nat, p.Prime ∧ x = p := by
  refine (C42_is_prime h ha).mono fun r m' hr => ?_
  constructor
  · intro h0
    have hacc : Accepted x := hr.1.elim (fun h => h.1) fun h => by rw [h0] at h; exact absurd h.2 (by decide)
    rcases hacc with ⟨p, hp, -, e⟩ | ⟨h2, h3, -⟩
    · exact ⟨p, hp, e⟩
    · obtain ⟨n, rfl⟩ := Int.eq_ofNat_of_zero_le (show 0 ≤ x by omega)
      refine ⟨n, ?_, rfl⟩
      by_contra hp
      have h5 := Nat.minFac_sq_le_self (by omega) hp
      have h6 : n.minFac < 1000 := by nlinarith
      exact h3 _ (Nat.minFac_prime (by omega)) h6 (Int.natCast_dvd_natCast.2 (Nat.minFac_dvd n))
  · rintro ⟨p, hp, rfl⟩
    exact hr.1.elim (fun h => h.2) fun h => absurd (accepted_of_prime hp) h.1

theorem prime_1171 : Nat.Prime 1171 := by norm_num
theorem prime_2341 : Nat.Prime 2341 := by norm_num
theorem prime_3511 : Nat.Prime 3511 := by norm_num

theorem fermat_dvd {q n b : Nat} (hq : q.Prime) (hb : 0 < b) (hbq : b < q) (k : Nat) (hn : n = (q - 1) * k + 1) :
    (q : Int) ∣ (b : Int) ^ n - b := by
  have := Fact.mk hq
  rw [← ZMod.intCast_zmod_eq_zero_iff_dvd]
  push_cast
  have h0 : (b : ZMod q) ≠ 0 := by
    intro h
    have := Nat.le_of_dvd hb ((ZMod.natCast_eq_zero_iff b q).1 h)
    omega
  rw [hn, pow_succ, pow_mul, ZMod.pow_card_sub_one_eq_one h0, one_pow, one_mul, sub_self]

theorem accepted_carmichael : Accepted 9624742921 := by
  refine .inr ⟨by norm_num, fun p hp hl hd => ?_, fun p hp hl => ?_⟩
  · have hd : p ∣ 1171 * 2341 * 3511 := by
      have : ((1171 * 2341 * 3511 : Nat) : Int) = 9624742921 := by norm_num
      rw [← this] at hd
      exact Int.natCast_dvd_natCast.1 hd
    rcases (Nat.Prime.dvd_mul hp).1 hd with h | h
    · rcases (Nat.Prime.dvd_mul hp).1 h with h | h
      · have := (Nat.prime_dvd_prime_iff_eq hp prime_1171).1 h; omega
      · have := (Nat.prime_dvd_prime_iff_eq hp prime_2341).1 h; omega
    · have := (Nat.prime_dvd_prime_iff_eq hp prime_3511).1 h; omega
  · have hp0 := hp.pos
    rw [show Int.toNat 9624742921 = 9624742921 from rfl]
    have e : (9624742921 : Int) = ((1171 : Nat) : Int) * (2341 : Nat) * (3511 : Nat) := by norm_num
    have h1 := fermat_dvd prime_1171 hp0 (by omega : p < 1171) 8226276 (n := 9624742921) (by norm_num)
    have h2 := fermat_dvd prime_2341 hp0 (by omega : p < 2341) 4113138 (n := 9624742921) (by norm_num)
    have h3 := fermat_dvd prime_3511 hp0 (by omega : p < 3511) 2742092 (n := 9624742921) (by norm_num)
    generalize (p : Int) ^ 9624742921 - p = D at *
    have c1 : IsCoprime ((1171 : Nat) : Int) (2341 : Nat) := by rw [Nat.isCoprime_iff_coprime]; norm_num
    have c2 : IsCoprime (((1171 : Nat) : Int) * (2341 : Nat)) ((3511 : Nat) : Int) := by
      rw [← Nat.cast_mul, Nat.isCoprime_iff_coprime]; norm_num
    rw [e]
    exact c2.mul_dvd (c1.mul_dvd h1 h2) h3

/-- The converse does not hold: the composite number 1171 · 2341 · 3511 (a Carmichael number) is
accepted.  The property does not claim otherwise, and iprime.h:36-39 says "probably prime"; but the
bases are fixed, so that this number is accepted always. -/
theorem C42_pseudoprime (h : State m ρ) (ha : ρ a = some (1171 * 2341 * 3511)) :
    Runs env (mp_int_is_prime (.var a)) m fun r m' => r = MP_TRUE ∧ State m' ρ := by
  refine (C42_is_prime h ha).mono fun r m' hr => ⟨hr.1.elim (fun h => h.2) fun h => ?_, hr.2⟩
  rw [show (1171 * 2341 * 3511 : Int) = 9624742921 by norm_num] at h
  exact absurd accepted_carmichael h.1

example : ∃ m, State m (only 9624742921) ∧ Runs env (mp_int_is_prime (.var 0)) m fun r m' =>
    r = MP_TRUE ∧ State m' (only 9624742921) :=
  let ⟨m, h⟩ := only_state (v := 9624742921) (by norm_num); ⟨m, h, C42_pseudoprime h rfl⟩

example : ∃ m, State m (only (2 ^ 61 - 1)) ∧ Runs env (mp_int_is_prime (.var 0)) m fun r _ =>
    r = MP_FALSE → (2 ^ 61 - 1 : Int) < 2 ∨ ∃ d e : Int, 1 < d ∧ 1 < e ∧ 2 ^ 61 - 1 = d * e :=
  let ⟨m, h⟩ := only_state (v := 2 ^ 61 - 1) (by norm_num); ⟨m, h, C42_rejects h rfl⟩

example : ∃ m, State m (only 1009) ∧ Runs env (mp_int_is_prime (.var 0)) m fun r m' => r = MP_TRUE ∧ State m' (only 1009) :=
  let ⟨m, h⟩ := only_state (v := 1009) (by norm_num); ⟨m, h, C42_prime (p := 1009) h (by norm_num) rfl⟩

example : ∃ m, State m (only 999999) ∧ Runs env (mp_int_is_prime (.var 0)) m fun r _ => r = MP_TRUE ↔ ∃ p : Nat, p.Prime ∧ (999999 : Int) = p :=
  let ⟨m, h⟩ := only_state (v := 999999) (by norm_num); ⟨m, h, C42_below_million h rfl (by norm_num)⟩

/-! ### C43 -/

/-- The search terminates; the result is the first accepted value at or above the start.

Missing from the full property: starts below 3, for which the property is false, see
`C43_start_below_three`. -/
theorem C43_find_prime_partial (h : State m ρ) (ha : ρ a = some x) (hx : 3 ≤ x) :
    Runs env (mp_int_find_prime (.var a)) m fun r m' =>
      r = MP_TRUE ∧ ∃ w, x ≤ w ∧ Accepted w ∧ (∀ u, x ≤ u → u < w → ¬ Accepted u) ∧ State m' (put ρ a w) := by
  refine Runs.of_wp (mp_int_find_prime_spec (ref_refused env) h.r2 ha rfl fun w m' h1 _ h3 h4 r => ⟨rfl, w, h1, h3, ?_, ?_⟩)
  · intro u hu1 hu2 hu
    by_cases h5 : u % 2 = 1
    · exact h4 u hu1 hu2 h5 hu
    · have := accepted_even hu (by omega); omega
  · rw [upd_lift] at r; exact r.state

/-- From 2 and every smaller start the search arrives at 3; the prime 2 is passed over, even if it is
the start (iprime.c:87 adds 1 to every even start). -/
theorem C43_start_below_three (h : State m ρ) (ha : ρ a = some x) (hx : x ≤ 2) :
    Runs env (mp_int_find_prime (.var a)) m fun r m' => r = MP_TRUE ∧ State m' (put ρ a 3) := by
  refine Runs.of_wp (mp_int_find_prime_spec (ref_refused env) h.r2 ha rfl fun w m' h1 h2 h3 h4 r => ⟨rfl, ?_⟩)
  have := accepted_two_le h3
  have hw : w = 3 := by
    by_contra hne
    exact h4 3 (by omega) (by omega) (by decide) (accepted_of_prime (p := 3) (by norm_num))
  rw [upd_lift, hw] at r; exact r.state

theorem C43_two_is_accepted : Accepted 2 := accepted_of_prime (p := 2) (by norm_num)

example : ∃ m, State m (only (2 ^ 89)) ∧ Runs env (mp_int_find_prime (.var 0)) m fun r m' =>
      r = MP_TRUE ∧ ∃ w, 2 ^ 89 ≤ w ∧ Accepted w ∧ (∀ u, 2 ^ 89 ≤ u → u < w → ¬ Accepted u) ∧ State m' (put (only (2 ^ 89)) 0 w) :=
  let ⟨m, h⟩ := only_state (v := 2 ^ 89) (by norm_num); ⟨m, h, C43_find_prime_partial h rfl (by norm_num)⟩

example : ∃ m, State m (only 2) ∧ Runs env (mp_int_find_prime (.var 0)) m fun r m' => r = MP_TRUE ∧ State m' (put (only 2) 0 3) :=
  let ⟨m, h⟩ := only_state (v := 2) (by norm_num); ⟨m, h, C43_start_below_three h rfl (by norm_num)⟩

end Imath
