import Verif.SpecDomain
import Verif.Proof.History
import Verif.Proof.Calc2
import Verif.Props.Overread
import Mathlib.Tactic.LinearCombination

/-!
# Which calls are admissible: proofs
-/

namespace Imath

variable {m : Mem} {env : Env} {ρ : Nat → Option Int}

theorem small_of {v : Int} (h : -2 ^ 63 ≤ v ∧ v < 2 ^ 63) (h' : v ≠ -2 ^ 63) : Small v := ⟨by omega, h.2⟩

/-- Bytes of a value. -/
theorem exists_be (n v : Nat) : ∃ X : Bytes, X.length = n ∧ (∀ b ∈ X, b < 256) ∧ beVal X = v % 256 ^ n := by
  induction n generalizing v with
  | zero => exact ⟨[], rfl, by simp, by simp [beVal, Nat.mod_one]⟩
  | succ n ih =>
    obtain ⟨X, h1, h2, h3⟩ := ih (v / 256)
    refine ⟨X ++ [v % 256], by simp [h1], ?_, ?_⟩
    · intro b hb
      rcases List.mem_append.1 hb with hb | hb
      · exact h2 b hb
      · rw [List.mem_singleton.1 hb]; exact Nat.mod_lt _ (by norm_num)
    · have : beVal (X ++ [v % 256]) = 256 * beVal X + v % 256 := by simp [beVal]
      rw [this, h3, pow_succ', Nat.mod_mul]
      omega

theorem head_be {b : Nat} {X : Bytes} : beVal (b :: X) = b * 256 ^ X.length + beVal X := by
  have : ∀ (X : Bytes) (a : Nat), X.foldl (fun a b => 256 * a + b) a = a * 256 ^ X.length + beVal X := by
    intro X
    induction X with
    | nil => intro a; simp [beVal]
    | cons c X ih =>
      intro a
      unfold beVal
      simp only [List.foldl_cons, List.length_cons]
      rw [ih, ih (256 * 0 + c), pow_succ']
      ring
  show (b :: X).foldl (fun a b => 256 * a + b) 0 = _
  simp only [List.foldl_cons]
  rw [this]; ring

/-- Bytes of a signed value. -/
theorem exists_twos {n : Nat} {x : Int} (h1 : -2 ^ (8 * n + 7) ≤ x) (h2 : x < 2 ^ (8 * n + 7)) :
    ∃ X : Bytes, X.length = n + 1 ∧ (∀ b ∈ X, b < 256) ∧ twosVal X = x := by
  obtain ⟨X, e1, e2, e3⟩ := exists_be (n + 1) (x % 256 ^ (n + 1)).toNat
  refine ⟨X, e1, e2, ?_⟩
  have hp : (0 : Int) < 256 ^ (n + 1) := by positivity
  have hm := Int.emod_nonneg x hp.ne'
  have hm2 := Int.emod_lt_of_pos x hp
  have e4 : (beVal X : Int) = x % 256 ^ (n + 1) := by
    rw [e3]
    have : ((x % 256 ^ (n + 1)).toNat % 256 ^ (n + 1) : Nat) = (x % 256 ^ (n + 1)).toNat := by
      refine Nat.mod_eq_of_lt ?_
      have : ((x % 256 ^ (n + 1)).toNat : Int) < ((256 ^ (n + 1) : Nat) : Int) := by push_cast; omega
      exact_mod_cast this
    rw [this]; omega
  have ep : (256 : Int) ^ (n + 1) = 2 * 2 ^ (8 * n + 7) := by
    rw [show (256 : Int) = 2 ^ 8 by norm_num, ← pow_mul, ← pow_succ']; ring_nf
  cases X with
  | nil => simp at e1
  | cons b Y =>
    have eY : Y.length = n := by simpa using e1
    have hY := beVal_lt fun c hc => e2 c (List.mem_cons_of_mem b hc)
    rw [eY] at hY
    have hb := e2 b (by simp)
    have e5 := head_be (b := b) (X := Y)
    rw [eY] at e5
    have ep2 : 2 ^ (8 * n + 7) = 128 * 256 ^ n := by
      rw [pow_add, pow_mul]; norm_num; ring
    have ep3 : (2 : Int) ^ (8 * n + 7) = 128 * 256 ^ n := by exact_mod_cast ep2
    have e6 : (beVal (b :: Y) : Int) = b * 256 ^ n + beVal Y := by rw [e5]; push_cast; ring
    have hY' : (beVal Y : Int) < 256 ^ n := by exact_mod_cast hY
    have hq : (0 : Int) < 256 ^ n := by positivity
    unfold twosVal
    rw [List.length_cons, eY]
    have hx : x % 256 ^ (n + 1) = x ∨ x % 256 ^ (n + 1) = x + 256 ^ (n + 1) := by
      rcases lt_or_ge x 0 with hx | hx
      · right
        rw [← Int.add_emod_right, Int.emod_eq_of_lt (by omega) (by omega)]
      · left; exact Int.emod_eq_of_lt hx (by omega)
    by_cases h128 : 128 ≤ b
    · rw [if_pos (show 128 ≤ (b :: Y).headD 0 from h128)]
      have h3 : (128 : Int) * 256 ^ n ≤ b * 256 ^ n := by
        have : (128 : Int) ≤ b := by exact_mod_cast h128
        nlinarith
      omega
    · rw [if_neg (show ¬ 128 ≤ (b :: Y).headD 0 from h128)]
      have h3 : (b : Int) * 256 ^ n ≤ 127 * 256 ^ n := by
        have : (b : Int) ≤ 127 := by omega
        nlinarith
      omega

theorem size_lt (v : Int) : |v| < 2 ^ Nat.size v.natAbs := by
  rw [Int.abs_eq_natAbs]
  exact_mod_cast Nat.lt_size_self v.natAbs

theorem pow_le_two {a b : Nat} (h : a ≤ b) : (2 : Int) ^ a ≤ 2 ^ b := pow_le_pow_right₀ (by norm_num) h

theorem exists_bin (x : Int) : ∃ X : Bytes, X.length = binLen x ∧ (∀ b ∈ X, b < 256) ∧ twosVal X = x := by
  have h := size_lt x
  have h2 := pow_le_two (show Nat.size x.natAbs ≤ 8 * (Nat.size x.natAbs / 8) + 7 by omega)
  have := abs_lt.1 h
  exact exists_twos (by omega) (by omega)

theorem exists_uns (x : Int) : ∃ X : Bytes, X.length = unsLen x ∧ (∀ b ∈ X, b < 256) ∧ (beVal X : Int) = |x| := by
  obtain ⟨X, h1, h2, h3⟩ := exists_be (unsLen x) x.natAbs
  refine ⟨X, h1, h2, ?_⟩
  rw [h3, Int.abs_eq_natAbs, Nat.mod_eq_of_lt]
  have h := Nat.lt_size_self x.natAbs
  refine h.trans_le ?_
  rw [show (256 : Nat) = 2 ^ 8 by norm_num, ← pow_mul]
  exact Nat.pow_le_pow_right (by norm_num) (by unfold unsLen; omega)

theorem exists_trunc (n : Nat) (x : Int) : ∃ X : Bytes, X.length = n ∧ (∀ b ∈ X, b < 256) ∧ (beVal X : Int) = x % 256 ^ n := by
  obtain ⟨X, h1, h2, h3⟩ := exists_be n (x % 256 ^ n).toNat
  refine ⟨X, h1, h2, ?_⟩
  have hp : (0 : Int) < 256 ^ n := by positivity
  have hm := Int.emod_nonneg x hp.ne'
  have hm2 := Int.emod_lt_of_pos x hp
  rw [h3, Nat.mod_eq_of_lt]
  · omega
  · have : ((x % 256 ^ n).toNat : Int) < ((256 ^ n : Nat) : Int) := by push_cast; omega
    exact_mod_cast this

/-- The number of digits of a non-zero number. -/
theorem exists_digits_int {v : Int} (hv : v ≠ 0) : ∃ k : Nat, 1 ≤ k ∧ 2 ^ (32 * (k - 1)) ≤ |v| ∧ |v| < 2 ^ (32 * k) := by
  obtain ⟨k, h0, h1, h2⟩ := exists_ndig (show 0 < v.natAbs by omega)
  refine ⟨k, h0, ?_, ?_⟩
  · rw [Int.abs_eq_natAbs, pow_mul]; exact_mod_cast h1
  · rw [Int.abs_eq_natAbs, pow_mul]; exact_mod_cast h2

/-- Every call with arguments of the right types that is ready has a rule. -/
theorem ready_step {c : Call} (ht : c.Typed) (hv : c.Vars ρ) (hr : c.Ready ρ) : ∃ out ρ', Step ρ c out ρ' := by
  cases c <;> simp only [Call.Typed, Call.Vars, Call.Ready] at ht hv hr
  case init c => exact ⟨_, _, .inl (.init hv)⟩
  case initSize c p => exact ⟨_, _, .inl (.initSize hv (by omega))⟩
  case initCopy c a => obtain ⟨h, _, h1⟩ := hv; exact ⟨_, _, .inl (.initCopy h h1)⟩
  case initValue c v => exact ⟨_, _, .inl (.initValue hv (small_of ht hr))⟩
  case initUvalue c v => exact ⟨_, _, .inl (.initUvalue hv ht)⟩
  case clear c => obtain ⟨_, h⟩ := hv; exact ⟨_, _, .inl (.clear h)⟩
  case copy a c => obtain ⟨⟨_, h⟩, _, h1⟩ := hv; exact ⟨_, _, .inl (.copy h h1)⟩
  case neg a c => obtain ⟨⟨_, h⟩, _, h1⟩ := hv; exact ⟨_, _, .inl (.neg h h1)⟩
  case abs a c => obtain ⟨⟨_, h⟩, _, h1⟩ := hv; exact ⟨_, _, .inl (.abs h h1)⟩
  case zero c => obtain ⟨_, h⟩ := hv; exact ⟨_, _, .inl (.zero h)⟩
  case swap a c => obtain ⟨⟨_, h⟩, _, h1⟩ := hv; exact ⟨_, _, .inl (.swap h h1)⟩
  case setValue c v => obtain ⟨_, h⟩ := hv; exact ⟨_, _, .inl (.setValue h (small_of ht hr))⟩
  case setUvalue c v => obtain ⟨_, h⟩ := hv; exact ⟨_, _, .inl (.setUvalue h ht)⟩
  case add a b c => obtain ⟨⟨_, h⟩, ⟨_, h1⟩, _, h2⟩ := hv; exact ⟨_, _, .inl (.add h h1 h2)⟩
  case addValue a v c => obtain ⟨⟨_, h⟩, _, h1⟩ := hv; exact ⟨_, _, .inl (.addValue h h1 (small_of ht hr))⟩
  case sub a b c => obtain ⟨⟨_, h⟩, ⟨_, h1⟩, _, h2⟩ := hv; exact ⟨_, _, .inl (.sub h h1 h2)⟩
  case subValue a v c => obtain ⟨⟨_, h⟩, _, h1⟩ := hv; exact ⟨_, _, .inl (.subValue h h1 (small_of ht hr))⟩
  case mul a b c => obtain ⟨⟨_, h⟩, ⟨_, h1⟩, _, h2⟩ := hv; exact ⟨_, _, .inl (.mul h h1 h2)⟩
  case mulValue a v c => obtain ⟨⟨_, h⟩, _, h1⟩ := hv; exact ⟨_, _, .inl (.mulValue h h1 (small_of ht hr))⟩
  case mulPow2 a p c => obtain ⟨⟨_, h⟩, _, h1⟩ := hv; exact ⟨_, _, .inr (.inl (.mulPow2 h h1))⟩
  case sqr a c => obtain ⟨⟨_, h⟩, _, h1⟩ := hv; exact ⟨_, _, .inl (.sqr h h1)⟩
  case div a b q r =>
    obtain ⟨⟨x, h⟩, ⟨y, h1⟩, h2, h3⟩ := hv
    by_cases hy : y = 0
    · subst hy; exact ⟨_, _, .inl (.divZero h h1 h2 h3 hr)⟩
    · exact ⟨_, _, .inl (.div h h1 hy h2 h3 hr)⟩
  case divValue a v q =>
    obtain ⟨⟨x, h⟩, h1⟩ := hv
    by_cases hy : v = 0
    · subst hy; exact ⟨_, _, .inl (.divValueZero h h1)⟩
    · exact ⟨_, _, .inl (.divValue h hy (small_of ht hr) h1)⟩
  case divPow2 a p q r =>
    obtain ⟨⟨x, h⟩, h1, h2⟩ := hv
    obtain ⟨hqr, hp⟩ := hr
    by_cases hal : q = some a
    · subst hal
      cases r with
      | none => exact ⟨_, _, .inr (.inl (.divPow2 h h1 h2 hqr (fun _ => rfl) (fun h => absurd rfl h)))⟩
      | some r =>
        obtain ⟨w, hw⟩ := h2 r rfl
        have := hp (by simp) x h
        rw [if_pos rfl] at this
        exact ⟨_, _, .inr (.inl (.divPow2Alias h hw (fun e => hqr (by rw [e])) this))⟩
    · refine ⟨_, _, .inr (.inl (.divPow2 h h1 h2 hqr (fun e => absurd e hal) fun hn => ?_))⟩
      have := hp hn x h
      rw [if_neg hal] at this
      exact this
  case mod a b c =>
    obtain ⟨⟨x, h⟩, ⟨y, h1⟩, _, h2⟩ := hv
    rcases lt_trichotomy y 0 with hy | hy | hy
    · exact ⟨_, _, .inr (.inl (.mod h h1 h2 hy))⟩
    · subst hy; exact ⟨_, _, .inl (.modZero h h1 h2)⟩
    · exact ⟨_, _, .inl (.mod h h1 h2 hy)⟩
  case divisible a v => obtain ⟨_, h⟩ := hv; exact ⟨_, _, .inl (.divisible h (small_of ht hr))⟩
  case expt a k c =>
    obtain ⟨⟨_, h⟩, _, h1⟩ := hv
    by_cases hk : k < 0
    · exact ⟨_, _, .inl (.exptNeg h h1 hk)⟩
    · obtain ⟨k, rfl⟩ := Int.eq_ofNat_of_zero_le (show 0 ≤ k by omega)
      exact ⟨_, _, .inr (.inl (.expt h h1))⟩
  case exptValue v k c =>
    obtain ⟨_, h1⟩ := hv
    by_cases hk : k < 0
    · exact ⟨_, _, .inl (.exptValueNeg h1 hk)⟩
    · obtain ⟨k, rfl⟩ := Int.eq_ofNat_of_zero_le (show 0 ≤ k by omega)
      exact ⟨_, _, .inr (.inl (.exptValue (small_of ht.1 (hr.resolve_left hk)) h1))⟩
  case exptFull a b c =>
    obtain ⟨⟨x, h⟩, ⟨y, h1⟩, _, h2⟩ := hv
    by_cases hy : y < 0
    · exact ⟨_, _, .inl (.exptFullNeg h1 hy)⟩
    · by_cases hcb : c = b
      · have := hr hcb x y h h1 (by omega)
        subst hcb
        exact ⟨_, _, .inr (.inl (.exptFull h h1 (by omega) this))⟩
      · exact ⟨_, _, .inl (.exptFull h h1 h2 hcb (by omega))⟩
  case exptmod a b d c =>
    obtain ⟨⟨x, h⟩, ⟨y, h1⟩, ⟨v, h2⟩, _, h3⟩ := hv
    by_cases hv : v = 0
    · subst hv; exact ⟨_, _, .inl (.exptmodZero h2)⟩
    by_cases hy : y < 0
    · exact ⟨_, _, .inl (.exptmodNeg h1 h2 hv hy)⟩
    by_cases hv' : v < 0
    · exact ⟨_, _, .inr (.inl (.exptmodMod h h1 h2 h3 hv' (by omega)))⟩
    by_cases hq : y ≠ 0 ∨ v ≠ 1
    · exact ⟨_, _, .inl (.exptmod h h1 h2 h3 (by omega) (by omega) hq)⟩
    · obtain ⟨rfl, rfl⟩ : y = 0 ∧ v = 1 := by omega
      exact ⟨_, _, .inr (.inl (.exptmod h h1 h2 h3))⟩
  case exptmodE a y d c =>
    obtain ⟨⟨x, h⟩, ⟨v, h2⟩, _, h3⟩ := hv
    have hs := small_of ht hr
    by_cases hv : v = 0
    · subst hv; exact ⟨_, _, .inl (.exptmodEZero hs h h2 h3)⟩
    by_cases hy : y < 0
    · by_cases hv' : v < 0
      · exact ⟨_, _, .inr (.inl (.exptmodENeg hs h h2 h3 hv' hy))⟩
      · exact ⟨_, _, .inl (.exptmodENeg hs h h2 h3 (by omega) hy)⟩
    by_cases hv' : v < 0
    · exact ⟨_, _, .inr (.inl (.exptmodEMod hs h h2 h3 hv' (by omega)))⟩
    by_cases hq : y ≠ 0 ∨ v ≠ 1
    · exact ⟨_, _, .inl (.exptmodE hs h h2 h3 (by omega) (by omega) hq)⟩
    · obtain ⟨rfl, rfl⟩ : y = 0 ∧ v = 1 := by omega
      exact ⟨_, _, .inr (.inl (.exptmodE h h2 h3))⟩
  case exptmodB x b d c =>
    obtain ⟨⟨y, h1⟩, ⟨v, h2⟩, _, h3⟩ := hv
    have hs := small_of ht hr
    by_cases hv : v = 0
    · subst hv; exact ⟨_, _, .inl (.exptmodBZero hs h1 h2 h3)⟩
    by_cases hy : y < 0
    · by_cases hv' : v < 0
      · exact ⟨_, _, .inr (.inl (.exptmodBNeg hs h1 h2 h3 hv' hy))⟩
      · exact ⟨_, _, .inl (.exptmodBNeg hs h1 h2 h3 (by omega) hy)⟩
    by_cases hv' : v < 0
    · exact ⟨_, _, .inr (.inl (.exptmodBMod hs h1 h2 h3 hv' (by omega)))⟩
    by_cases hq : y ≠ 0 ∨ v ≠ 1
    · exact ⟨_, _, .inl (.exptmodB hs h1 h2 h3 (by omega) (by omega) hq)⟩
    · obtain ⟨rfl, rfl⟩ : y = 0 ∧ v = 1 := by omega
      exact ⟨_, _, .inr (.inl (.exptmodB hs h1 h2 h3))⟩
  case exptmodKnown a b d u c =>
    obtain ⟨⟨x, h⟩, ⟨y, h1⟩, ⟨v, h2⟩, ⟨U, h3⟩, _, h4⟩ := hv
    by_cases hv : v = 0
    · subst hv; exact ⟨_, _, .inl (.exptmodKnownZero h2)⟩
    by_cases hy : y < 0
    · exact ⟨_, _, .inl (.exptmodKnownNeg h1 h2 hv hy)⟩
    obtain ⟨hcu, hU⟩ := hr y v U h1 h2 h3 (by omega) hv
    obtain ⟨k, k1, k2, k3⟩ := exists_digits_int hv
    have hU := hU k k1 k2 k3
    by_cases hv' : v < 0
    · exact ⟨_, _, .inr (.inl (.exptmodKnownMod h h1 h2 h3 hU h4 hcu (by omega) hv' k1 k2 k3))⟩
    rw [abs_of_pos (show 0 < v by omega)] at hU k2 k3
    by_cases hq : y ≠ 0 ∨ v ≠ 1
    · exact ⟨_, _, .inr (.inl (.exptmodKnownSign h h1 h2 h3 hU h4 hcu (by omega) hq k1 k2 k3))⟩
    · obtain ⟨rfl, rfl⟩ : y = 0 ∧ v = 1 := by omega
      have hk : k = 1 := by
        by_contra hne
        have : (2 : Int) ^ 1 ≤ 2 ^ (32 * (k - 1)) := pow_le_two (by omega)
        omega
      subst hk
      exact ⟨_, _, .inr (.inl (.exptmodKnown h h1 h2 h3 (by simpa using hU) h4 hcu))⟩
  case reduxConst d c =>
    obtain ⟨⟨v, h⟩, w, h1⟩ := hv
    by_cases hv : v = 0
    · subst hv; exact ⟨_, _, .inr (.inl (.reduxConstZero h h1 hr))⟩
    · obtain ⟨k, k1, k2, k3⟩ := exists_digits_int hv
      exact ⟨_, _, .inr (.inl (.reduxConst h h1 hr k1 k2 k3))⟩
  case gcd a b c =>
    obtain ⟨⟨x, h⟩, ⟨y, h1⟩, _, h2⟩ := hv
    by_cases hz : x ≠ 0 ∨ y ≠ 0
    · exact ⟨_, _, .inl (.gcd h h1 h2 hz)⟩
    · obtain ⟨rfl, rfl⟩ : x = 0 ∧ y = 0 := by omega
      exact ⟨_, _, .inl (.gcdZero h h1 h2)⟩
  case egcd a b c X Y =>
    obtain ⟨⟨x, h⟩, ⟨y, h1⟩, ⟨w, h2⟩, h3, h4⟩ := hv
    obtain ⟨hXY, he⟩ := hr
    by_cases hx : x = 0
    · subst hx
      by_cases hy : y = 0
      · subst hy; exact ⟨_, _, .inl (.egcdZero h h1 hXY)⟩
      · obtain ⟨hX, hY⟩ := he 0 y h h1 (.inl ⟨rfl, hy⟩)
        obtain ⟨p, rfl⟩ := Option.ne_none_iff_exists'.1 hX
        obtain ⟨q, rfl⟩ := Option.ne_none_iff_exists'.1 hY
        obtain ⟨_, h5⟩ := h3 p rfl
        obtain ⟨_, h6⟩ := h4 q rfl
        exact ⟨_, _, .inr (.inl (.egcdLeft h h1 h2 hy h5 h6))⟩
    · by_cases hy : y = 0
      · subst hy
        obtain ⟨hX, hY⟩ := he x 0 h h1 (.inr ⟨hx, rfl⟩)
        obtain ⟨p, rfl⟩ := Option.ne_none_iff_exists'.1 hX
        obtain ⟨q, rfl⟩ := Option.ne_none_iff_exists'.1 hY
        obtain ⟨_, h5⟩ := h3 p rfl
        obtain ⟨_, h6⟩ := h4 q rfl
        exact ⟨_, _, .inr (.inl (.egcdRight h h1 h2 hx h5 h6))⟩
      · have := Int.gcd_eq_gcd_ab |x| |y|
        rw [show Int.gcd |x| |y| = Int.gcd x y by unfold Int.gcd; rw [Int.natAbs_abs, Int.natAbs_abs]] at this
        exact ⟨_, _, .inr (.inr (.egcd h h1 h2 hx hy h3 h4 hXY this))⟩
  case lcm a b c =>
    obtain ⟨⟨x, h⟩, ⟨y, h1⟩, _, h2⟩ := hv
    by_cases hz : x ≠ 0 ∨ y ≠ 0
    · exact ⟨_, _, .inl (.lcm h h1 h2 hz)⟩
    · obtain ⟨rfl, rfl⟩ : x = 0 ∧ y = 0 := by omega
      exact ⟨_, _, .inl (.lcmZero h h1 h2)⟩
  case invmod a b c =>
    obtain ⟨⟨x, h⟩, ⟨y, h1⟩, _, h2⟩ := hv
    by_cases h0 : x = 0 ∨ y ≤ 0
    · exact ⟨_, _, .inl (.invmodRange h h1 h2 h0)⟩
    have hx : x ≠ 0 := by omega
    have hy : 0 < y := by omega
    by_cases hg : Int.gcd x y = 1
    · by_cases hs : x < 0 ∧ y = 1
      · obtain ⟨hs, rfl⟩ := hs
        exact ⟨_, _, .inr (.inl (.invmod h h1 h2 hs))⟩
      · refine ⟨_, _, .inl (.invmod (i := Int.gcdA x y % y) h h1 h2 hx hs (Int.emod_nonneg _ hy.ne') (Int.emod_lt_of_pos _ hy) ?_)⟩
        have e := Int.gcd_eq_gcd_ab x y
        rw [hg] at e
        have e2 := Int.emod_add_mul_ediv (Int.gcdA x y) y
        refine ⟨-(Int.gcdB x y) - x * (Int.gcdA x y / y), ?_⟩
        push_cast at e
        linear_combination (-1) * e + x * e2
    · exact ⟨_, _, .inl (.invmodUndef h h1 h2 hx hy hg)⟩
  case root a k c =>
    obtain ⟨⟨x, h⟩, _, h1⟩ := hv
    by_cases hz : 0 ≤ x ∨ k % 2 = 1
    · by_cases hk : k % 2 ^ 32 = 0
      · rcases lt_trichotomy x 0 with hx | hx | hx
        · omega
        · subst hx; exact ⟨_, _, .inr (.inl (.rootMultipleZero h h1 (by omega) ht hk))⟩
        · exact ⟨_, _, .inr (.inl (.rootMultiple h h1 (by omega) ht hk hx))⟩
      · obtain ⟨r, r1, r2⟩ := exists_root x.natAbs (k % 2 ^ 32) (by omega)
        exact ⟨_, _, .inr (.inl (.root h h1 ht (by omega) hz r1 r2))⟩
    · exact ⟨_, _, .inl (.rootUndef h h1 (by omega) ht (by omega) (by omega))⟩
  case compare a b => obtain ⟨⟨_, h⟩, _, h1⟩ := hv; exact ⟨_, _, .inl (.compare h h1)⟩
  case compareUnsigned a b => obtain ⟨⟨_, h⟩, _, h1⟩ := hv; exact ⟨_, _, .inl (.compareUnsigned h h1)⟩
  case compareZero a => obtain ⟨_, h⟩ := hv; exact ⟨_, _, .inl (.compareZero h)⟩
  case compareValue a v => obtain ⟨_, h⟩ := hv; exact ⟨_, _, .inl (.compareValue h ht.1 ht.2)⟩
  case compareUvalue a v => obtain ⟨_, h⟩ := hv; exact ⟨_, _, .inl (.compareUvalue h ht)⟩
  case isPow2 a =>
    obtain ⟨x, h⟩ := hv
    rcases lt_trichotomy x 0 with hx | hx | hx
    · by_cases hk : ∃ k : Nat, x = -2 ^ k
      · obtain ⟨k, rfl⟩ := hk; exact ⟨_, _, .inr (.inl (.isPow2 h))⟩
      · push Not at hk; exact ⟨_, _, .inr (.inl (.isPow2No h hx hk))⟩
    · subst hx; exact ⟨_, _, .inr (.inl (.isPow2Zero h))⟩
    · by_cases hk : ∃ k : Nat, x = 2 ^ k
      · obtain ⟨k, rfl⟩ := hk; exact ⟨_, _, .inl (.isPow2 h)⟩
      · push Not at hk; exact ⟨_, _, .inl (.isPow2No h hx hk)⟩
  case countBits a =>
    obtain ⟨x, h⟩ := hv
    by_cases hx : x = 0
    · subst hx; exact ⟨_, _, .inl (.countBitsZero h)⟩
    · have hn : x.natAbs ≠ 0 := by omega
      refine ⟨_, _, .inl (.countBits (n := Nat.log 2 x.natAbs) h ?_ ?_)⟩
      · rw [Int.abs_eq_natAbs]; exact_mod_cast Nat.pow_log_le_self 2 hn
      · rw [Int.abs_eq_natAbs]; exact_mod_cast Nat.lt_pow_succ_log_self (by norm_num) x.natAbs
  case isOdd a => obtain ⟨_, h⟩ := hv; exact ⟨_, _, .inl (.isOdd h)⟩
  case isEven a => obtain ⟨_, h⟩ := hv; exact ⟨_, _, .inl (.isEven h)⟩
  case toInt a =>
    obtain ⟨x, h⟩ := hv
    by_cases hx : x < -2 ^ 63 ∨ 2 ^ 63 ≤ x
    · exact ⟨_, _, .inl (.toIntRange h hx)⟩
    · have : x ≠ -2 ^ 63 := by rintro rfl; exact hr h
      exact ⟨_, _, .inl (.toInt h ⟨by omega, by omega⟩)⟩
  case toUint a =>
    obtain ⟨x, h⟩ := hv
    by_cases hx : x < 0 ∨ 2 ^ 64 ≤ x
    · exact ⟨_, _, .inl (.toUintRange h hx)⟩
    · exact ⟨_, _, .inl (.toUint h (by omega) (by omega))⟩
  case toString a r str limit =>
    obtain ⟨x, h⟩ := hv
    obtain ⟨⟨r1, r2⟩, hl, hf⟩ := hr
    have hf := hf x h
    by_cases hx : ((numeral r x).length : Int) + 1 ≤ limit
    · exact ⟨_, _, .inl (.toString h r1 r2 hl hx (by omega))⟩
    · exact ⟨_, _, .inl (.toStringTrunc h r1 r2 hl (by omega) (by omega))⟩
  case stringLen a r =>
    obtain ⟨x, h⟩ := hv
    exact ⟨_, _, .inr (.inr (.stringLen h hr.1 hr.2 le_rfl))⟩
  case readCstring c r str =>
    obtain ⟨x, h⟩ := hv
    obtain ⟨⟨r1, r2⟩, h0⟩ := hr
    obtain ⟨w, sg, ds, vs, ch, rest, e, h1, h2, h3, h4, h5, -⟩ := split_string r str (List.mem_of_mem_take h0)
    subst e
    exact ⟨_, _, .inl (.readCstring h r1 r2 h1 h2 h3 h4 h5 h0)⟩
  case toBinary a buf limit =>
    obtain ⟨x, h⟩ := hv
    obtain ⟨hl, hf⟩ := hr
    have hf := hf x h
    by_cases hx : (binLen x : Int) ≤ limit
    · obtain ⟨X, x1, x2, x3⟩ := exists_bin x
      exact ⟨_, _, .inl (.toBinary h hx (by omega) x1 x2 x3)⟩
    · obtain ⟨X, x1, x2, x3⟩ := exists_trunc limit.toNat x
      exact ⟨_, _, .inl (.toBinaryTrunc h hl (by omega) (by omega) (by omega) x2 x3)⟩
  case readBinary c buf len =>
    obtain ⟨x, h⟩ := hv
    obtain ⟨h1, h2, h3⟩ := hr
    have e1 : (buf.take len.toNat).length = len.toNat := by rw [List.length_take]; omega
    have := DStep.readBinary (X := buf.take len.toNat) (R := buf.drop len.toNat) h
      (fun b hb => ht.1 b (List.mem_of_mem_take hb)) (by omega) (by omega)
    rw [List.take_append_drop, e1, show ((len.toNat : Nat) : Int) = len by omega] at this
    exact ⟨_, _, .inl this⟩
  case toUnsigned a buf limit =>
    obtain ⟨x, h⟩ := hv
    obtain ⟨hl, hf⟩ := hr
    have hf := hf x h
    by_cases hx : (unsLen x : Int) ≤ limit
    · obtain ⟨X, x1, x2, x3⟩ := exists_uns x
      exact ⟨_, _, .inl (.toUnsigned h hx (by omega) x1 x2 x3)⟩
    · obtain ⟨X, x1, x2, x3⟩ := exists_trunc limit.toNat |x|
      exact ⟨_, _, .inl (.toUnsignedTrunc h hl (by omega) (by omega) (by omega) x2 x3)⟩
  case readUnsigned c buf len =>
    obtain ⟨x, h⟩ := hv
    obtain ⟨h1, h2, h3⟩ := hr
    have e1 : (buf.take len.toNat).length = len.toNat := by rw [List.length_take]; omega
    have := DStep.readUnsigned (X := buf.take len.toNat) (R := buf.drop len.toNat) h
      (fun b hb => ht.1 b (List.mem_of_mem_take hb)) (by omega) (by omega)
    rw [List.take_append_drop, e1, show ((len.toNat : Nat) : Int) = len by omega] at this
    exact ⟨_, _, .inl this⟩
  case binaryLen a => obtain ⟨_, h⟩ := hv; exact ⟨_, _, .inl (.binaryLen h)⟩
  case unsignedLen a => obtain ⟨_, h⟩ := hv; exact ⟨_, _, .inl (.unsignedLen h)⟩
  case defaultPrecision n => exact ⟨_, _, .inl (.defaultPrecision (by omega) (by omega))⟩
  case multiplyThreshold n => exact ⟨_, _, .inl (.multiplyThreshold hr)⟩

/-! ### Calls that break -/

theorem Faults.or {α : Type} {f : M α} {e : Fault} (h : Faults env f m e) : FaultsOr env f m e := .inl h

theorem FaultsOr.bind {α β : Type} {f : M α} {k : α → M β} {e : Fault} (h : FaultsOr env f m e) : FaultsOr env (f >>= k) m e := by
  rcases h with h | ⟨n, h, hj⟩
  · exact .inl (Faults.bind h)
  · exact .inr ⟨n, Faults.bind h, hj⟩

theorem withFake_min {α : Type} {k : Id → M α} : Faults env (withFake (-2 ^ 63) k) m .ub := rfl

theorem init_size_max {z : Id} : FaultsOr env (mp_int_init_size z (2 ^ 32 - 1)) m .ub := by
  refine .of_wp ?_
  unfold mp_int_init_size
  refine wp_bind ?_
  show wp env _ _ _ m
  refine wp_if_neg (by norm_num) ?_
  rw [if_neg (by norm_num), show s_round_prec (2 ^ 32 - 1) = 0 from rfl]
  refine wp_bind (wp_mallocD (ref_or env .ub) fun l hl _ _ => wp_bind ?_)
  set m1 := (m.setDig (.heap m.next) (some l)).bump (m.next + 1) with e1
  have hd : m1.dig (.heap m.next) = some l := by rw [e1]; simp [Mem.setDig, Mem.bump]
  cases hi : m1.int z with
  | none =>
    refine wp_fault (f := .ub) ?_ (.inl rfl)
    unfold setDigits setI
    rw [hi]
  | some Z =>
    have e2 : setDigits z (some ⟨.heap m.next, 0⟩) env m1 = .ok () (m1.setInt z (some { Z with digits := some ⟨.heap m.next, 0⟩ })) := by
      unfold setDigits setI
      rw [hi]
    unfold wp
    rw [e2]
    refine wp_bind (wp_fault (f := .ub) ?_ (.inl rfl))
    unfold wr
    rw [show (m1.setInt z (some { Z with digits := some ⟨.heap m.next, 0⟩ })).dig (.heap m.next) = some l from hd]
    simp only
    rw [if_neg (by omega)]

theorem breaks_fault {c : Call} {e : Fault} (h : State m ρ) (hb : Breaks ρ c e) (hv : c.Vars ρ) : FaultsOr env c.exec m e := by
  cases hb with
  | initSize =>
    exact FaultsOr.bind init_size_max
  | initValue => exact (Faults.bind withFake_min).or
  | setValue => exact (Faults.bind withFake_min).or
  | addValue => exact (Faults.bind withFake_min).or
  | subValue => exact (Faults.bind withFake_min).or
  | mulValue => exact (Faults.bind withFake_min).or
  | divValue => exact (Faults.bind withFake_min).or
  | divisible => exact (Faults.bind (Faults.bind withFake_min)).or
  | exptValue hk =>
    refine .of_wp (wp_bind ?_)
    unfold mp_int_expt_value
    refine wp_if_neg (by omega) (withTemp_spec h.r2 fun t m1 _ _ _ => ?_)
    unfold REQUIRE
    exact wp_bind (wp_fault withFake_min (.inl rfl))
  | exptmodE => exact (Faults.bind withFake_min).or
  | exptmodB => exact (Faults.bind withFake_min).or
  | div =>
    refine (Faults.bind (Faults.bind ?_)).or
    unfold Faults cassert
    simp
    rfl
  | divPow2 =>
    refine .of_wp (wp_bind ?_)
    unfold mp_int_div_pow2
    refine wp_bind (wp_cassert (by simp) ?_)
    refine wp_bind (wp_fault (f := .assert) ?_ (.inl rfl))
    unfold cassert
    simp
    rfl
  | reduxConst =>
    refine (Faults.bind (Faults.bind ?_)).or
    unfold Faults cassert
    simp
    rfl
  | egcd => exact .inl rfl
  | @egcdNull a b c x y X Y ha hb h0 hn =>
    obtain ⟨-, -, ⟨w, hc⟩, hX, hY⟩ := hv
    have hE := ref_or env .assert
    refine .of_wp (wp_bind ?_)
    have stop : ∀ {α : Type} (Q : α → Mem → Prop) (m : Mem), wp env (OrRefused env .assert) (fail .assert) Q m :=
      fun Q m => wp_fault rfl (.inl rfl)
    by_cases hnn : X = none ∧ Y = none
    · obtain ⟨rfl, rfl⟩ := hnn
      exact wp_fault rfl (.inl rfl)
    unfold mp_int_egcd
    refine wp_bind (wp_cassert (by cases X <;> cases Y <;> simp_all) ?_)
    refine wp_bind (CMPZ_spec h.r2 ha ?_)
    refine wp_bind (CMPZ_spec h.r2 hb ?_)
    rcases h0 with ⟨rfl, hy⟩ | ⟨hx, rfl⟩
    · have sy : ¬ y.sign = 0 := by rw [Int.sign_eq_zero_iff_zero]; exact hy
      refine wp_if_neg (fun h0 => sy h0.2) (wp_if_pos rfl ?_)
      refine wp_bind (mp_int_abs_spec hE h.r2 hb hc rfl fun m1 r1 => wp_if_neg (by simp) ?_)
      cases X with
      | none => exact wp_bind (stop _ _)
      | some p =>
        obtain rfl : Y = none := by simpa using hn
        obtain ⟨_, hp⟩ := hX p rfl
        obtain ⟨_, hp1⟩ := upd_some (σ := lift ρ) (z := .var c) (z' := .var p) (v := |y|) hp
        exact wp_bind (mp_int_zero_spec r1 hp1 fun m2 r2 => wp_bind (stop _ _))
    · have sx : ¬ x.sign = 0 := by rw [Int.sign_eq_zero_iff_zero]; exact hx
      refine wp_if_neg (fun h0 => sx h0.1) (wp_if_neg sx (wp_if_pos rfl ?_))
      refine wp_bind (mp_int_abs_spec hE h.r2 ha hc rfl fun m1 r1 => wp_if_neg (by simp) ?_)
      cases X with
      | none => exact wp_bind (stop _ _)
      | some p =>
        obtain rfl : Y = none := by simpa using hn
        obtain ⟨_, hp⟩ := hX p rfl
        obtain ⟨_, hp1⟩ := upd_some (σ := lift ρ) (z := .var c) (z' := .var p) (v := |x|) hp
        exact wp_bind (mp_int_set_value_spec hE (by decide) (by decide) r1 hp1 rfl fun m2 r2 => wp_bind (stop _ _))
  | root => exact .inl rfl
  | toInt ha => exact .of_wp (wp_bind (mp_int_to_int_fault (.inl rfl) h.r2 ha))
  | toStringLimit hl =>
    refine (Faults.bind (Faults.bind ?_)).or
    unfold Faults cassert
    rw [decide_eq_false (by omega)]
    rfl
  | @toStringRadix a r str limit hl =>
    refine .of_wp (wp_bind ?_)
    unfold mp_int_to_string
    by_cases h2 : limit ≥ 2
    · refine wp_bind (wp_cassert (by simpa using h2) ?_)
      refine wp_bind (wp_fault (f := .assert) ?_ (.inl rfl))
      unfold cassert
      rw [decide_eq_false (by omega)]
      rfl
    · refine wp_bind (wp_fault (f := .assert) ?_ (.inl rfl))
      unfold cassert
      rw [decide_eq_false h2]
      rfl
  | stringLen hr =>
    refine (Faults.bind (Faults.bind ?_)).or
    unfold Faults cassert
    rw [decide_eq_false (by omega)]
    rfl
  | readCstring hr =>
    refine (Faults.bind (Faults.bind ?_)).or
    unfold Faults cassert
    rw [decide_eq_false (by omega)]
    rfl
  | readBinary hl =>
    refine (Faults.bind (Faults.bind ?_)).or
    unfold Faults cassert
    rw [decide_eq_false (by omega)]
    rfl
  | toStringShort ha hr hl h1 h2 => exact FaultsOr.bind (C29_no_room h ha hr hl h1 h2)
  | readCstringEnd hr h0 => obtain ⟨w, hw⟩ := hv; exact FaultsOr.bind (C31_unterminated h hw hr h0)
  | toBinaryLimit hl => obtain ⟨w, hw⟩ := hv; exact FaultsOr.bind (C35_limit_zero h hw hl)
  | toBinaryShort ha h1 h2 => exact FaultsOr.bind ((C35_no_room h ha h1).1 h2)
  | toUnsignedShort ha h1 h2 => exact FaultsOr.bind ((C35_no_room h ha h1).2 h2)
  | readBinaryShort hb h1 h2 => obtain ⟨w, hw⟩ := hv; exact FaultsOr.bind (C33_read_binary_short h hw hb h1 h2)
  | readUnsignedShort hb h1 h2 => obtain ⟨w, hw⟩ := hv; exact FaultsOr.bind (C34_read_unsigned_short h hw hb h1 h2)
  | readBinaryLong hl => exact (Faults.bind (C33_read_binary_overflow hl)).or
  | readUnsigned hl =>
    refine (Faults.bind (Faults.bind ?_)).or
    unfold Faults cassert
    rw [decide_eq_false (by omega)]
    rfl
  | readUnsignedLong hl => exact (Faults.bind (C34_read_unsigned_overflow hl)).or
  | defaultPrecision => exact .inl rfl
  | multiplyThreshold hn =>
    refine (Faults.bind (Faults.bind ?_)).or
    unfold Faults cassert
    rw [decide_eq_false (by omega)]
    rfl

/-! ### Every call is of one of these kinds -/

theorem not_all {P : Int → Prop} {ρ : Nat → Option Int} {a : Nat} (h : ¬ ∀ x, ρ a = some x → P x) : ∃ x, ρ a = some x ∧ ¬ P x := by
  push Not at h; exact h

theorem classify {c : Call} (ht : c.Typed) (hn : ¬ c.Ready ρ) : (∃ e, Breaks ρ c e) ∨ Exhausts ρ c ∨ c.Open ρ := by
  cases c <;> simp only [Call.Typed, Call.Ready, Call.Open, not_true_eq_false, Decidable.not_not, not_and_or, not_or, not_lt, not_le, or_false] at ht hn ⊢
  case initSize c p => subst hn; exact .inl ⟨_, .initSize⟩
  case initValue c v => subst hn; exact .inl ⟨_, .initValue⟩
  case setValue c v => subst hn; exact .inl ⟨_, .setValue⟩
  case addValue a v c => subst hn; exact .inl ⟨_, .addValue⟩
  case subValue a v c => subst hn; exact .inl ⟨_, .subValue⟩
  case mulValue a v c => subst hn; exact .inl ⟨_, .mulValue⟩
  case div a b q r => subst hn; exact .inl ⟨_, .div⟩
  case divValue a v q => subst hn; exact .inl ⟨_, .divValue⟩
  case divPow2 a p q r =>
    by_cases hq : q = r
    · subst hq; exact .inl ⟨_, .divPow2⟩
    · have hp := hn.resolve_left hq
      refine .inr (.inr ⟨fun hr => hp fun h => absurd hr h, hp⟩)
  case divisible a v => subst hn; exact .inl ⟨_, .divisible⟩
  case exptValue v k c => obtain ⟨hk, rfl⟩ := hn; exact .inl ⟨_, .exptValue hk⟩
  case exptFull a b c =>
    unfold FullReady at hn
    push Not at hn
    obtain ⟨rfl, x, y, hx, hy, h0, h1⟩ := hn
    exact .inr (.exptFull hx hy h0 h1)
  case exptmodE a v d c => subst hn; exact .inl ⟨_, .exptmodE⟩
  case exptmodB v b d c => subst hn; exact .inl ⟨_, .exptmodB⟩
  case exptmodKnown a b d u c => exact .inr (.inr hn)
  case reduxConst d c => subst hn; exact .inl ⟨_, .reduxConst⟩
  case egcd a b c X Y =>
    by_cases hXY : X = none ∧ Y = none
    · obtain ⟨rfl, rfl⟩ := hXY; exact .inl ⟨_, .egcd⟩
    · have he : ¬ EgcdReady ρ a b X Y := hn.resolve_left fun h => hXY h
      unfold EgcdReady at he
      push Not at he
      obtain ⟨x, y, hx, hy, h0, h1⟩ := he
      refine .inl ⟨_, .egcdNull hx hy h0 ?_⟩
      by_cases hX : X = none
      · exact .inl hX
      · exact .inr (h1 hX)
  case root a k c => subst hn; exact .inl ⟨_, .root⟩
  case toInt a => exact .inl ⟨_, .toInt hn⟩
  case toString a r str limit =>
    by_cases hr : r < 2 ∨ 36 < r
    · exact .inl ⟨_, .toStringRadix hr⟩
    by_cases hl : limit < 2
    · exact .inl ⟨_, .toStringLimit hl⟩
    have hf : ¬ StringFits ρ a r str limit := by
      rcases hn with hn | hn | hn
      · omega
      · omega
      · exact hn
    obtain ⟨x, hx, h2⟩ := not_all hf
    exact .inl ⟨_, .toStringShort hx (by omega) (by omega) (by omega) (by omega)⟩
  case stringLen a r => exact .inl ⟨_, .stringLen (by omega)⟩
  case readCstring c r str =>
    by_cases hr : r < 2 ∨ 36 < r
    · exact .inl ⟨_, .readCstring hr⟩
    · by_cases h0 : 0 ∈ str
      · exact .inr (.inr ⟨h0, hn.resolve_left (by omega)⟩)
      · exact .inl ⟨_, .readCstringEnd (by omega) h0⟩
  case toBinary a buf limit =>
    by_cases hl : limit ≤ 0
    · exact .inl ⟨_, .toBinaryLimit hl⟩
    have hf := hn.resolve_left (by omega)
    obtain ⟨x, hx, h2⟩ := not_all hf
    exact .inl ⟨_, .toBinaryShort hx (by omega) (by omega)⟩
  case readBinary c buf len =>
    by_cases h1 : len ≤ 0
    · exact .inl ⟨_, .readBinary h1⟩
    by_cases h2 : 2 ^ 28 ≤ len
    · exact .inl ⟨_, .readBinaryLong h2⟩
    · exact .inl ⟨_, .readBinaryShort ht.1 (by omega) (by omega)⟩
  case toUnsigned a buf limit =>
    by_cases hl : limit ≤ 0
    · exact .inr (.inr hl)
    have hf := hn.resolve_left (by omega)
    obtain ⟨x, hx, h2⟩ := not_all hf
    exact .inl ⟨_, .toUnsignedShort hx (by omega) (by omega)⟩
  case readUnsigned c buf len =>
    by_cases h1 : len ≤ 0
    · exact .inl ⟨_, .readUnsigned h1⟩
    by_cases h2 : 2 ^ 28 ≤ len
    · exact .inl ⟨_, .readUnsignedLong h2⟩
    · exact .inl ⟨_, .readUnsignedShort ht.1 (by omega) (by omega)⟩
  case defaultPrecision n =>
    by_cases h0 : n = 0
    · subst h0; exact .inl ⟨_, .defaultPrecision⟩
    · exact .inr (.inr (by omega))
  case multiplyThreshold n => exact .inl ⟨_, .multiplyThreshold (by omega)⟩

theorem breaks_no_step {c : Call} {e : Fault} {out : List Int} {ρ' : Nat → Option Int} (hb : Breaks ρ c e) : ¬ Step ρ c out ρ' := by
  rintro (h | h | h) <;> cases hb <;> cases h <;>
    first
    | omega
    | (simp_all [Small, OneZero]; done)
    | (simp_all; omega)
    | exact absurd (List.mem_of_mem_take (by assumption)) (by assumption)
    | (unfold binLen at *; omega)

end Imath
