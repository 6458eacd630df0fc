import Verif.Proof.Keygen
import Verif.Props.RatLen
import Verif.Props.Rsa
import Verif.Props.Prime

/-!
# Properties C54 - C57: random primes and RSA keys (`examples/randprime.c`, `examples/rsakey.c`)

`seedOf`, `ReadsAs`, `FirstFrom`, `KeyFrom`, `IsKey` and `keyText` are defined in
`Verif/SpecKeygen.lean`, `Accepted` in `Verif/SpecPrime.lean`.
-/

namespace Imath

variable {env : Env} {m : Mem} {ρ : Nat → Option Int} {a : Nat} {v x : Int}

/-! ### C54 random numbers -/

/-- If enough random bytes can be read, `mp_int_randomize` stores a number that has the given bits
except for the lowest, which is set, and the highest, which is set unless the number of bits is a
multiple of 8.  Otherwise it reports `MP_TRUNC` and changes nothing. -/
theorem C54_randomize {k : Nat} {rnd : Option Bytes} (h : State m ρ) (ha : ρ a = some v) (hk : 0 < k ∧ k ≤ 2 ^ 31 - 8)
    (hb : ∀ bs ∈ rnd, ∀ x ∈ bs, x < 256) :
    Runs env (mp_int_randomize (.var a) k rnd) m fun r m' =>
      (∀ bs ∈ rnd, bs.length < (k + 7) / 8) ∧ r = MP_TRUNC ∧ m' = m ∨
      ∃ bs, rnd = some bs ∧ (k + 7) / 8 ≤ bs.length ∧ r = MP_OK ∧
        State m' (put ρ a (seedOf k (beVal (bs.take ((k + 7) / 8))) : Nat)) :=
  .of_wp (mp_int_randomize_spec (ref_refused env) hk.1 (by have := hk.2; omega) hb h.r2 ha rfl (fun hs => .inl ⟨hs, rfl, rfl⟩)
    fun bs m' e hl h' => .inr ⟨bs, e, hl, rfl, by rw [upd_lift] at h'; exact h'.state⟩)

/-- The number is odd and below `2^k`, and has exactly `k` bits unless `k` is a multiple of 8.  Missing
from the full property: that it has `k` bits for multiples of 8 (false, see `C54_few_bits`). -/
theorem C54_seed_partial {k V : Nat} (hk : 0 < k) (hV : V < 256 ^ ((k + 7) / 8)) :
    seedOf k V % 2 = 1 ∧ seedOf k V < 2 ^ k ∧ (k % 8 ≠ 0 → 2 ^ (k - 1) ≤ seedOf k V) :=
  ⟨seedOf_odd k V, seedOf_lt hk hV, seedOf_ge⟩

/-- Every odd number with `k` bits, with the highest bit set, comes from some bytes. -/
theorem C54_all_values {k n : Nat} (ho : n % 2 = 1) (h1 : 2 ^ (k - 1) ≤ n) (h2 : n < 2 ^ k) : seedOf k n = n := by
  have e : 2 ^ k = 2 * 2 ^ (k - 1) ∨ k = 0 := by
    rcases k with _ | k
    · exact .inr rfl
    · exact .inl (by rw [Nat.add_sub_cancel, pow_succ']) 
  have : (if k % 8 = 0 then n else 2 ^ (k - 1) + n % 2 ^ (k - 1)) = n := by
    split
    · rfl
    · rcases e with e | rfl
      · rw [Nat.mod_eq_sub_mod h1, Nat.mod_eq_of_lt (by omega)]; omega
      · omega
  unfold seedOf
  rw [this]; omega

/-- 16 bits were asked for, and the random bytes are 0 and 2: the number is 3.  With no bits, a byte
before the buffer is changed. -/
theorem C54_few_bits :
    outcome (mp_int_randomize (.var 0) 16 (some [0, 2])) [7] = some (MP_OK, [some 3]) ∧
    faultOf (mp_int_randomize (.var 0) 0 (some [])) [7] = some .ub := by
  constructor <;> decide +kernel

/-- 13 bits from the bytes 255 and 10: 31 and 11. -/
example : ∃ m, State m (only 7) ∧ Runs env (mp_int_randomize (.var 0) 13 (some [255, 10])) m fun r m' =>
    r = MP_OK ∧ State m' (put (only 7) 0 (31 * 256 + 11)) := by
  obtain ⟨m, h⟩ := only_state (v := 7) (by norm_num)
  refine ⟨m, h, (C54_randomize (a := 0) h rfl (by norm_num) (by simp)).mono fun r m' hr => ?_⟩
  rcases hr with ⟨h1, -⟩ | ⟨bs, e, -, h2, h3⟩
  · exact absurd (h1 _ rfl) (by decide)
  · cases e
    exact ⟨h2, h3⟩

/-! ### C55 random primes -/

/-- `find_prime` of the examples finds the first accepted odd number, as `mp_int_find_prime` does. -/
theorem C55_find_prime (h : State m ρ) (ha : ρ a = some x) :
    Runs env (find_prime (.var a)) m fun r m' => r = MP_TRUE ∧ ∃ w, x ≤ w ∧ w % 2 = 1 ∧ Accepted w ∧
      (∀ u, x ≤ u → u < w → u % 2 = 1 → ¬ Accepted u) ∧ State m' (put ρ a w) :=
  .of_wp (find_prime_spec (ref_refused env) h.r2 ha rfl fun w m' h1 h2 h3 h4 h' =>
    ⟨rfl, w, h1, h2, h3, h4, by rw [upd_lift] at h'; exact h'.state⟩)

example : ∃ m, State m (only 1000) ∧ Runs env (find_prime (.var 0)) m fun r m' => r = MP_TRUE ∧ ∃ w, 1000 ≤ w ∧ w % 2 = 1 ∧ Accepted w ∧
      (∀ u : Int, 1000 ≤ u → u < w → u % 2 = 1 → ¬ Accepted u) ∧ State m' (put (only 1000) 0 w) :=
  let ⟨m, h⟩ := only_state (v := 1000) (by norm_num); ⟨m, h, C55_find_prime h rfl⟩

/-- `find_strong_prime`: if there is, from the seed on, an accepted odd number `y` whose `2 y + 1` is
accepted, the loop ends (in at most `(y - x) / 2 + 1` rounds) and the result is `2 w + 1` for the first such
number `w`.  Whether there is always one is an open problem. -/
theorem C55_find_strong_prime {f : Nat} {y : Int} (h : State m ρ) (ha : ρ a = some x)
    (hy : y % 2 = 1 ∧ Accepted y ∧ Accepted (2 * y + 1)) (hxy : x ≤ y) (hf : y - x < 2 * f) :
    Runs env (find_strong_prime f (.var a)) m fun r m' => r = MP_OK ∧ ∃ w, x ≤ w ∧
      (w % 2 = 1 ∧ Accepted w ∧ Accepted (2 * w + 1)) ∧
      (∀ u, x ≤ u → u < w → ¬ (u % 2 = 1 ∧ Accepted u ∧ Accepted (2 * u + 1))) ∧ State m' (put ρ a (2 * w + 1)) :=
  .of_wp (find_strong_prime_spec (ref_refused env) rfl hy h.r2 ha hxy hf fun w m' h1 h2 h3 h' =>
    ⟨rfl, w, h1, h2, h3, by rw [upd_lift] at h'; exact h'.state⟩)

/-- From 1000 on: 1013 and 2027 are primes. -/
example : ∃ m, State m (only 1000) ∧ Runs env (find_strong_prime 7 (.var 0)) m fun r m' => r = MP_OK ∧ ∃ w, 1000 ≤ w ∧
      (w % 2 = 1 ∧ Accepted w ∧ Accepted (2 * w + 1)) ∧
      (∀ u, 1000 ≤ u → u < w → ¬ (u % 2 = 1 ∧ Accepted u ∧ Accepted (2 * u + 1))) ∧ State m' (put (only 1000) 0 (2 * w + 1)) :=
  let ⟨m, h⟩ := only_state (v := 1000) (by norm_num)
  ⟨m, h, C55_find_strong_prime (y := 1013) h rfl
    ⟨by norm_num, accepted_of_prime (p := 1013) (by norm_num), accepted_of_prime (p := 2027) (by norm_num)⟩ (by norm_num) (by norm_num)⟩

/-- The program `randprime` without the option `-s`: it prints the first accepted odd number from a
random number with `modbits - 1` bits on, which has its highest bit set.  (`main` has made
`modbits` even.)  If the random bytes cannot be read, nothing is printed. -/
theorem C55_randprime {modbits : Nat} {rnd : List Bytes} {obuf : Nat → Bytes} (h : State m ρ)
    (hm : 8 ≤ modbits ∧ modbits < 2 ^ 31 - 8 ∧ modbits % 2 = 0)
    (hb : ∀ bs ∈ rnd, ∀ x ∈ bs, x < 256) (hob : ∀ n, (obuf n).length = n) :
    Runs env (randprimeMain none modbits rnd obuf) m fun r m' => r.1 = 0 ∧ State m' ρ ∧
      (r.2 = [] ∨ ∃ b w, rnd.head? = some b ∧ FirstFrom (modbits - 1) b w ∧ 2 ^ (modbits - 2) ≤ w ∧
        r.2 = numeral 10 w ++ [10]) := by
  refine .of_wp ?_
  unfold randprimeMain
  refine unchkInit h.r2 fun T σ1 m1 g h1 => ?_
  refine wp_bind (mp_int_randomize_spec (ref_refused env) (by omega) (by omega) (fun b hh => hb b (List.mem_of_mem_head? hh)) h1
    (g.get 0) (g.ow 0) (fun _ => wp_if_pos (by decide) (wp_pure (.mk g h1 fun m2 h2 => ⟨rfl, h2.state, .inl rfl⟩)))
    fun b m2 hb0 _ h2 => wp_if_neg (by simp) ?_)
  obtain ⟨σ2, h2, g2⟩ := g.up 0 h2
  tsimp at g2
  refine wp_bind (find_prime_spec (ref_refused env) h2 (g2.get 0) (g2.ow 0) fun w m3 p1 p2 p3 p4 h3 => ?_)
  obtain ⟨σ3, h3, g3⟩ := g2.up 0 h3
  tsimp at g3 p1 p4
  have hpos := numeral_pos (r := 10) (by omega) w
  refine wp_bind (string_len_10 h3 (g3.get 0) fun o ho => ?_)
  tsimp at ho
  refine wp_bind (mp_int_to_string_spec (ref_refused env) (by omega) (by omega) (by omega) (by rw [hob]; tsimp; omega) h3 (g3.get 0)
    (fun m4 h4 _ => ?_) fun _ _ _ hh => by tsimp at hh; omega)
  refine wp_bind (cstr_spec (numeral_zero_notin (by omega) (by omega) _) (wp_pure (.mk g3 h4 fun m5 h5 => ⟨rfl, h5.state, .inr ?_⟩)))
  refine ⟨b, w, hb0, ⟨p1, p2, p3, p4⟩, ?_, by tsimp⟩
  have := seedOf_ge (k := modbits - 1) (V := beVal (List.take ((modbits - 1 + 7) / 8) b)) (by omega)
  rw [show modbits - 1 - 1 = modbits - 2 by omega] at this
  refine le_trans ?_ p1
  exact_mod_cast this

/-- The same with the option `-s`. -/
theorem C55_randprime_strong {modbits f : Nat} {rnd : List Bytes} {obuf : Nat → Bytes} (h : State m ρ)
    (hm : 8 ≤ modbits ∧ modbits < 2 ^ 31 - 8 ∧ modbits % 2 = 0)
    (hb : ∀ bs ∈ rnd, ∀ x ∈ bs, x < 256) (hob : ∀ n, (obuf n).length = n)
    (hy : ∀ b ∈ rnd.head?, ∃ y : Int, (y % 2 = 1 ∧ Accepted y ∧ Accepted (2 * y + 1)) ∧
      seedOf (modbits - 1) (beVal (b.take ((modbits - 1 + 7) / 8))) ≤ y ∧
      y - seedOf (modbits - 1) (beVal (b.take ((modbits - 1 + 7) / 8))) < 2 * f) :
    Runs env (randprimeMain (some f) modbits rnd obuf) m fun r m' => r.1 = 0 ∧ State m' ρ ∧
      (r.2 = [] ∨ ∃ w : Int, Accepted w ∧ Accepted (2 * w + 1) ∧ 2 ^ (modbits - 1) ≤ 2 * w + 1 ∧
        r.2 = numeral 10 (2 * w + 1) ++ [10]) := by
  refine .of_wp ?_
  unfold randprimeMain
  refine unchkInit h.r2 fun T σ1 m1 g h1 => ?_
  refine wp_bind (mp_int_randomize_spec (ref_refused env) (by omega) (by omega) (fun b hh => hb b (List.mem_of_mem_head? hh)) h1
    (g.get 0) (g.ow 0) (fun _ => wp_if_pos (by decide) (wp_pure (.mk g h1 fun m2 h2 => ⟨rfl, h2.state, .inl rfl⟩)))
    fun b m2 hb0 _ h2 => wp_if_neg (by simp) ?_)
  obtain ⟨σ2, h2, g2⟩ := g.up 0 h2
  tsimp at g2
  obtain ⟨y, hy1, hy2, hy3⟩ := hy b hb0
  refine wp_bind (find_strong_prime_spec (ref_refused env) (g2.ow 0) hy1 h2 (g2.get 0) (by tsimp; exact hy2) (by tsimp; exact hy3)
    fun w m3 p1 p2 p3 h3 => ?_)
  obtain ⟨σ3, h3, g3⟩ := g2.up 0 h3
  tsimp at g3 p1 p3
  have hpos := numeral_pos (r := 10) (by omega) (2 * w + 1)
  refine wp_bind (string_len_10 h3 (g3.get 0) fun o ho => ?_)
  tsimp at ho
  refine wp_bind (mp_int_to_string_spec (ref_refused env) (by omega) (by omega) (by omega) (by rw [hob]; tsimp; omega) h3 (g3.get 0)
    (fun m4 h4 _ => ?_) fun _ _ _ hh => by tsimp at hh; omega)
  refine wp_bind (cstr_spec (numeral_zero_notin (by omega) (by omega) _) (wp_pure (.mk g3 h4 fun m5 h5 => ⟨rfl, h5.state, .inr ?_⟩)))
  refine ⟨w, p2.2.1, p2.2.2, ?_, by tsimp⟩
  have := seedOf_ge (k := modbits - 1) (V := beVal (List.take ((modbits - 1 + 7) / 8) b)) (by omega)
  have e : 2 ^ (modbits - 1) = 2 * 2 ^ (modbits - 1 - 1) := by rw [← pow_succ']; congr 1; omega
  have e' : (2 : Int) ^ (modbits - 1) = 2 * ((2 ^ (modbits - 1 - 1) : Nat) : Int) := by exact_mod_cast e
  have : ((2 ^ (modbits - 1 - 1) : Nat) : Int) ≤ w := le_trans (by exact_mod_cast this) p1
  omega

/-- The program does not keep the number of bits it promises (randprime.c:8): 8 bits are asked for, and the
result is 67, which has 7 bits; with the option `-s`, it is 263, which has 9 bits. -/
theorem C55_bits :
    outcome (randprimeMain none 8 [[1]] fun n => List.replicate n 1) [] = some ((0, [54, 55, 10]), []) ∧
    outcome (randprimeMain (some 3) 8 [[127]] fun n => List.replicate n 1) [] = some ((0, [50, 54, 51, 10]), []) := by
  constructor <;> decide +kernel

/-! ### C56 RSA keys -/

/-- With a key as the program makes it, and if `p` and `q` are in fact two primes, decryption undoes
encryption. -/
theorem C56_round_trip {p q n e d x w y : Int} {a b c D N o : Nat} (hk : IsKey p q n e d) (hp : p.toNat.Prime) (hq : q.toNat.Prime) (hpq : p ≠ q)
    (he : 0 ≤ e) (h : State m ρ) (ha : ρ a = some x) (hb : ρ b = some e) (hd : ρ D = some d) (hn : ρ N = some n)
    (hc : ρ c = some w) (ho : ρ o = some y) (hcd : c ≠ D) (hcn : c ≠ N) (hx : 0 ≤ x) (hxn : x < n) :
    Runs env (do
      let r ← rsa_rsaep (.var a) (.var b) (.var N) (.var c)
      let s ← rsa_rsadp (.var c) (.var D) (.var N) (.var o)
      pure (r, s)) m fun r m' => r = (MP_OK, MP_OK) ∧ ∃ z, State m' (put (put ρ c z) o x) := by
  have p1 := hp.two_le
  have q1 := hq.two_le
  obtain ⟨P, rfl⟩ := Int.eq_ofNat_of_zero_le (show 0 ≤ p by omega)
  obtain ⟨R, rfl⟩ := Int.eq_ofNat_of_zero_le (show 0 ≤ q by omega)
  obtain ⟨e, rfl⟩ := Int.eq_ofNat_of_zero_le he
  obtain ⟨d, rfl⟩ := Int.eq_ofNat_of_zero_le hk.hd.le
  simp only [Int.toNat_natCast] at hp hq p1 q1
  have e1 : n = ((P * R : Nat) : Int) := by rw [hk.hn]; push_cast; rfl
  subst e1
  refine (C44_round_trip hp hq (fun h => hpq (by rw [h])) ?_ h ha hb hd hn hc ho hcd hcn hx hxn).mono
    fun r m' hr => ⟨hr.1, _, hr.2⟩
  have h1 : ((Nat.lcm (P - 1) (R - 1) : Nat) : Int) ∣ ((e * d : Nat) : Int) - ((1 : Nat) : Int) := by
    refine dvd_trans ?_ (show ((P : Int) - 1) * (R - 1) ∣ _ by simpa using hk.hed)
    have : Nat.lcm (P - 1) (R - 1) ∣ (P - 1) * (R - 1) := Nat.lcm_dvd_mul _ _
    have := Int.natCast_dvd_natCast.2 this
    rwa [Nat.cast_mul, Nat.cast_sub (by omega), Nat.cast_sub (by omega)] at this
  exact ((Nat.modEq_iff_dvd.2 h1).symm : _ % _ = _ % _)

/-- The key of the example below: 11 and 17, with `e = 3` and `d = 107`. -/
theorem key_187 : IsKey 11 17 187 3 107 where
  hp := accepted_of_prime (p := 11) (by norm_num)
  hq := accepted_of_prime (p := 17) (by norm_num)
  hp2 := rfl
  hq2 := rfl
  hn := rfl
  hed := ⟨2, rfl⟩
  hd := by norm_num
  hd2 := by norm_num

example : ∃ m, State m (vars [5, 3, 0, 107, 187, 0]) ∧ Runs env (do
      let r ← rsa_rsaep (.var 0) (.var 1) (.var 4) (.var 2)
      let s ← rsa_rsadp (.var 2) (.var 3) (.var 4) (.var 5)
      pure (r, s)) m fun r m' => r = (MP_OK, MP_OK) ∧ ∃ z, State m' (put (put (vars [5, 3, 0, 107, 187, 0]) 2 z) 5 5) := by
  obtain ⟨m, h⟩ := vars_state (l := [5, 3, 0, 107, 187, 0]) (by decide)
  exact ⟨m, h, C56_round_trip key_187 (show Nat.Prime 11 by norm_num) (show Nat.Prime 17 by norm_num) (by norm_num) (by norm_num) h rfl rfl rfl rfl rfl rfl
    (by decide) (by decide) (by norm_num) (by norm_num)⟩

/-- The program does not keep the two primes apart: with the random blocks 1, 1 and 255 it makes
`p = q = 3`, with `n = 9`, `e = 255` and `d = 3`, which is no RSA key: 3 encrypts to 0, and 0 decrypts to 0. -/
theorem C56_same_primes :
    outcome (rsaKeyGen ⟨.var 0, .var 1, .var 2, .var 3, .var 4⟩ 16 none [[1], [1], [255]]) [0, 0, 0, 0, 0] =
      some (MP_OK, [some 3, some 3, some 9, some 255, some 3]) ∧
    outcome (do
      let r ← rsa_rsaep (.var 0) (.var 1) (.var 2) (.var 3)
      let s ← rsa_rsadp (.var 3) (.var 4) (.var 2) (.var 5)
      pure (r, s)) [3, 255, 9, 1, 3, 1] = some ((MP_OK, MP_OK), [some 3, some 255, some 9, some 0, some 3, some 0]) := by
  constructor <;> decide +kernel

/-! ### C57 the program `rsakey` -/

theorem keyFrom_ge {k : Nat} {expt : Option (List Nat)} {rnd : List (List Nat)} {p q e : Int} (hk8 : k % 8 ≠ 0) (h : KeyFrom k expt rnd p q e) :
    2 ^ (k - 1) * 2 ^ (k - 1) ≤ p * q := by
  obtain ⟨b, c, rest, -, h1, h2, -⟩ := h
  have g1 := seedOf_ge (k := k) (V := beVal (b.take ((k + 7) / 8))) hk8
  have g2 := seedOf_ge (k := k) (V := beVal (c.take ((k + 7) / 8))) hk8
  have g1' : (2 : Int) ^ (k - 1) ≤ p := le_trans (by exact_mod_cast g1) h1.1
  have g2' : (2 : Int) ^ (k - 1) ≤ q := le_trans (by exact_mod_cast g2) h2.1
  exact mul_le_mul g1' g2' (by positivity) (le_trans (by positivity) g1')

theorem numeral_le {x y : Int} (hx : 0 ≤ x) (hxy : x ≤ y) : (numeral 10 x).length ≤ (numeral 10 y).length := by
  have := numeralN_mono (r := 10) (by omega) (x := x.natAbs) (y := y.natAbs) (by omega)
  simp only [numeral, if_neg (not_lt.2 hx), if_neg (not_lt.2 (hx.trans hxy))]
  simpa using this

/-- What the program writes is nothing, or the text of a key made from the random bytes and the exponent
given: `p` and `q` are the first accepted numbers from the two seeds on, and so on.  It does not run beyond its
buffer if the exponent is not longer than the modulus.  Missing from the full property: that this is always so (false, see
`C57_overrun`). -/
theorem C57_rsakey_partial {modbits : Nat} {expt : Option Bytes} {rnd : List Bytes} {obuf : Nat → Bytes} (h : State m ρ)
    (hm : 2 ≤ modbits ∧ modbits < 2 ^ 32 - 16) (hexp : ∀ s ∈ expt, 0 ∈ s.take 800000001)
    (hb : ∀ b ∈ rnd, ∀ x ∈ b, x < 256) (hob : ∀ n, (obuf n).length = n)
    (hfit : ∀ p q e, KeyFrom (modbits / 2) expt rnd p q e → (numeral 10 e).length ≤ (numeral 10 (p * q)).length) :
    Runs env (rsakeyMain modbits expt rnd obuf) m fun r m' => r.1 = 0 ∧ State m' ρ ∧
      (r.2 = [] ∨ ∃ p q n e d, IsKey p q n e d ∧ KeyFrom (modbits / 2) expt rnd p q e ∧ r.2 = keyText p q n e d) := by
  refine .of_wp ?_
  unfold rsakeyMain
  refine unchkInit5 h.r2 fun T σ1 m1 g h1 => ?_
  refine wp_bind (rsaKeyGen_spec (ref_refused env) hm.1 (by have := hm.2; omega) hexp hb g h1
    (fun res m2 V σ2 hr g2 h2 => wp_if_pos hr (wp_pure (.mk g2 h2 fun m3 h3 => ⟨rfl, h3.state, .inl rfl⟩)))
    fun p q n e d m2 σ2 hk hf g2 h2 => wp_if_neg (by simp) ?_)
  have p1 := accepted_two_le hk.hp
  have q1 := accepted_two_le hk.hq
  have hpn : p ≤ n := by rw [hk.hn]; nlinarith
  have hqn : q ≤ n := by rw [hk.hn]; nlinarith
  have hdn : d ≤ n := by have := hk.hd2; rw [hk.hn]; nlinarith
  refine wp_bind (rsa_key_write_spec (ref_refused env) hob h2 (g2.get 0) (g2.get 1) (g2.get 2) (g2.get 3) (g2.get 4)
    (numeral_le (by tsimp; omega) (by tsimp; exact hpn)) (numeral_le (by tsimp; omega) (by tsimp; exact hqn))
    (by tsimp; rw [hk.hn]; exact hfit p q e hf) (numeral_le (by tsimp; exact hk.hd.le) (by tsimp; exact hdn))
    fun m3 h3 => wp_pure (.mk g2 h3 fun m4 h4 => ⟨rfl, h4.state, .inr ⟨p, q, n, e, d, hk, hf, rfl⟩⟩))

/-- With a random exponent, and half the size of the modulus not a multiple of 8, nothing is missing; the
modulus has `modbits - 1` bits at least. -/
theorem C57_rsakey_random {modbits : Nat} {rnd : List Bytes} {obuf : Nat → Bytes} (h : State m ρ)
    (hm : 4 ≤ modbits ∧ modbits < 2 ^ 32 - 16) (hm8 : modbits / 2 % 8 ≠ 0)
    (hb : ∀ b ∈ rnd, ∀ x ∈ b, x < 256) (hob : ∀ n, (obuf n).length = n) :
    Runs env (rsakeyMain modbits none rnd obuf) m fun r m' => r.1 = 0 ∧ State m' ρ ∧
      (r.2 = [] ∨ ∃ p q n e d, IsKey p q n e d ∧ KeyFrom (modbits / 2) none rnd p q e ∧
        2 ^ (modbits / 2 - 1) * 2 ^ (modbits / 2 - 1) ≤ n ∧ r.2 = keyText p q n e d) := by
  refine (C57_rsakey_partial h ⟨by omega, hm.2⟩ (by simp) hb hob fun p q e hf => ?_).mono fun r m' hr => ⟨hr.1, hr.2.1, ?_⟩
  · have := keyFrom_ge hm8 hf
    obtain ⟨b, c, rest, hr, -, -, x, hx, rfl⟩ := hf
    refine numeral_le (by positivity) (le_trans ?_ this)
    have hl : beVal (x.take ((modbits / 2 + 7) / 8)) < 256 ^ ((modbits / 2 + 7) / 8) := by
      refine lt_of_lt_of_le (beVal_lt fun y hy => hb x (by rw [hr]; simp [hx]) y (List.mem_of_mem_take hy)) (Nat.pow_le_pow_right (by omega) ?_)
      exact List.length_take_le _ _
    have := seedOf_lt (k := modbits / 2) (by omega) hl
    have h2 : 2 ^ (modbits / 2) ≤ 2 ^ (modbits / 2 - 1) * 2 ^ (modbits / 2 - 1) := by
      rw [← pow_add]; exact Nat.pow_le_pow_right (by omega) (by omega)
    exact_mod_cast (this.le.trans h2)
  · exact hr.2.2.imp id fun ⟨p, q, n, e, d, h1, h2, h3⟩ => ⟨p, q, n, e, d, h1, h2, by rw [h1.hn]; exact keyFrom_ge hm8 h2, h3⟩

/-- The buffer is as long as the modulus needs, and the exponent is converted into it with that length;
but if the exponent is longer, its conversion writes beyond the buffer or leaves it without an end.
Here `n = 9` and `e = 255`, which the program makes of the random blocks 1, 1 and 255. -/
theorem C57_overrun :
    faultOf (rsakeyMain 16 none [[1], [1], [255]] fun n => List.replicate n 1) [] = some .ub := by
  decide +kernel

/-- 20 bits, with random blocks of 2 bytes. -/
example : ∃ m, State m (vars []) ∧
    Runs env (rsakeyMain 20 none [[1, 2], [3, 4], [5, 6], [7, 8]] fun n => List.replicate n 1) m fun r m' => r.1 = 0 ∧ State m' (vars []) ∧
      (r.2 = [] ∨ ∃ p q n e d, IsKey p q n e d ∧ KeyFrom 10 none [[1, 2], [3, 4], [5, 6], [7, 8]] p q e ∧
        2 ^ 9 * 2 ^ 9 ≤ n ∧ r.2 = keyText p q n e d) := by
  obtain ⟨m, h⟩ := vars_state (l := []) (by decide)
  exact ⟨m, h, C57_rsakey_random (modbits := 20) h (by norm_num) (by norm_num) (by decide) fun n => by simp⟩

/-- 10 bits, and the random blocks 1, 7 and 3: `p = 17`, `q = 23`, `e = 19`, `d = 315`, `n = 391`. -/
example : outcome (rsakeyMain 10 none [[1], [7], [3]] fun n => List.replicate n 1) [] = some ((0, keyText 17 23 391 19 315), []) := by
  decide +kernel

end Imath
