import Verif.SpecRatDomain
import Verif.Proof.RatHistory
import Verif.Proof.Domain

/-! # Which rational calls are admissible: proofs -/

namespace Imath

variable {env : Env} {m : Mem} {κ : Nat → Option ℚ} {ι : Nat → Option Int} {c : QCall}

/-- A terminated text is an integer, a fraction, or raw. -/
theorem rat_text {r : Nat} {str : Bytes} (h0 : 0 ∈ str) :
    (∃ w sg ds w2 ch rest vs, str = w ++ sg ++ ds ++ (w2 ++ ch :: rest) ∧ (∀ x ∈ w, IsSpace x) ∧ (sg = [] ∨ sg = [43] ∨ sg = [45]) ∧
      List.Forall₂ (IsDigit r) ds vs ∧ (sg = [] → ds = [] → w2 = [] ∧ ch ≠ 43 ∧ ch ≠ 45) ∧ (∀ x ∈ w2, IsSpace x) ∧ ¬ IsSpace ch ∧
      (w2 = [] → ∀ d, ¬ IsDigit r ch d) ∧ ch ≠ 47) ∨
    ∃ w sg ds w2 w3 sg3 ds3 ch rest vs vs3, str = w ++ sg ++ ds ++ (w2 ++ 47 :: (w3 ++ sg3 ++ ds3 ++ ch :: rest)) ∧
      (∀ x ∈ w, IsSpace x) ∧ (sg = [] ∨ sg = [43] ∨ sg = [45]) ∧ List.Forall₂ (IsDigit r) ds vs ∧ (sg = [] → ds = [] → w2 = []) ∧
      (∀ x ∈ w2, IsSpace x) ∧ (∀ x ∈ w3, IsSpace x) ∧ (sg3 = [] ∨ sg3 = [43] ∨ sg3 = [45]) ∧ List.Forall₂ (IsDigit r) ds3 vs3 ∧
      (∀ d, ¬ IsDigit r ch d) ∧ (sg3 = [] → ds3 = [] → ¬ IsSpace ch ∧ ch ≠ 43 ∧ ch ≠ 45) := by
  obtain ⟨w, sg, ds, vs, c1, rest1, rfl, h1, h2, h3, h4, h5, h6⟩ := split_string r str h0
  obtain ⟨w2, t, e, h7, h8, h9⟩ := split_space (c1 :: rest1) h6
  obtain ⟨ch, rest, rfl⟩ : ∃ x t', t = x :: t' := List.exists_cons_of_ne_nil (by rintro rfl; simp at h8)
  have hh : sg = [] → ds = [] → w2 = [] ∧ ch ≠ 43 ∧ ch ≠ 45 := by
    intro e1 e2
    obtain ⟨a1, a2, a3⟩ := h5 e1 e2
    cases w2 with
    | nil => cases e; exact ⟨rfl, a2, a3⟩
    | cons u w2 => cases e; exact absurd (h7 _ (by simp)) a1
  have hd : w2 = [] → ∀ d, ¬ IsDigit r ch d := by
    rintro rfl; cases e; exact h4
  rw [e]
  by_cases h47 : ch = 47
  · subst h47
    have h0' : 0 ∈ rest := (List.mem_cons.1 h8).resolve_left (by omega)
    obtain ⟨w3, sg3, ds3, vs3, c3, rest3, rfl, g1, g2, g3, g4, g5, -⟩ := split_string r rest h0'
    exact .inr ⟨w, sg, ds, w2, w3, sg3, ds3, c3, rest3, vs, vs3, rfl, h1, h2, h3, fun e1 e2 => (hh e1 e2).1, h7, g1, g2, g3, g4, g5⟩
  · exact .inl ⟨w, sg, ds, w2, ch, rest, vs, rfl, h1, h2, h3, hh, h7, h9 _ _ rfl, hd, h47⟩

theorem numeral_size {r : Nat} (hr : 2 ≤ r) (v : Int) : (numeral r v).length ≤ Nat.size v.natAbs + 2 := by
  have : (numeralN r v.natAbs).length ≤ Nat.size v.natAbs + 1 := by
    unfold numeralN
    split
    · simp
    · rw [List.length_reverse, List.length_map]
      have := (Nat.digits_length_le_iff (by omega : 1 < r) v.natAbs (k := Nat.size v.natAbs)).2
        (lt_of_lt_of_le (Nat.lt_size_self _) (Nat.pow_le_pow_left hr _))
      omega
  unfold numeral
  rw [List.length_append]
  have : (if v < 0 then [45] else [] : List Nat).length ≤ 1 := by split <;> simp
  omega

theorem qstringLen {a r : Nat} {p : ℚ} (hp : κ a = some p) (hr : 2 ≤ r ∧ r ≤ 36) (hs : Nat.size p.num.natAbs + Nat.size p.den ≤ 2147483643) :
    QStep κ ι (.stringLen a r) [Nat.size p.num.natAbs + Nat.size p.den + 4] κ ι := by
  refine .stringLen hp hr.1 hr.2 hs ?_ le_rfl
  have h1 := numeral_size hr.1 p.num
  have h2 := numeral_size hr.1 (p.den : Int)
  rw [Int.natAbs_natCast] at h2
  split <;> omega

theorem qdecimalLen {a r prec : Nat} {p : ℚ} (hp : κ a = some p) (hr : 2 ≤ r ∧ r ≤ 36) (hs : Nat.size p.num.natAbs + prec ≤ 2147483642) :
    QStep κ ι (.decimalLen a r prec) [Nat.size p.num.natAbs + prec + 5] κ ι := by
  refine .decimalLen hp hr.1 hr.2 hs ?_ le_rfl
  have h1 := numeral_size hr.1 p.num
  split <;> omega

theorem qready_step (ht : c.Typed) (hv : c.Vars κ ι) (hr : c.Ready κ ι) : ∃ out κ' ι', QStep κ ι c out κ' ι' := by
  cases c <;> simp only [QCall.Typed, QCall.Vars, QCall.Ready] at ht hv hr
  case init c => exact ⟨_, _, _, .init hv⟩
  case initSize c np dp => exact ⟨_, _, _, .initSize hv (by omega) (by omega)⟩
  case initCopy c a => obtain ⟨h, p, hp⟩ := hv; exact ⟨_, _, _, .initCopy h hp⟩
  case clear c => obtain ⟨p, hp⟩ := hv; exact ⟨_, _, _, .clear hp⟩
  case setValue c x y =>
    obtain ⟨p, hp⟩ := hv
    by_cases hy : y = 0
    · subst hy; exact ⟨_, _, _, .setValueZero hp⟩
    · obtain ⟨h1, h2⟩ := hr.resolve_left hy
      exact ⟨_, _, _, .setValue hp (small_of ht.1 h1) (small_of ht.2 h2) hy⟩
  case setUvalue c x y =>
    obtain ⟨p, hp⟩ := hv
    by_cases hy : y = 0
    · subst hy; exact ⟨_, _, _, .setUvalueZero hp⟩
    · exact ⟨_, _, _, .setUvalue hp ht.1 ht.2 hy⟩
  case copy a c => obtain ⟨⟨p, hp⟩, w, hw⟩ := hv; exact ⟨_, _, _, .copy hp hw⟩
  case zero c => obtain ⟨p, hp⟩ := hv; exact ⟨_, _, _, .zero hp⟩
  case abs a c => obtain ⟨⟨p, hp⟩, w, hw⟩ := hv; exact ⟨_, _, _, .abs hp hw⟩
  case neg a c => obtain ⟨⟨p, hp⟩, w, hw⟩ := hv; exact ⟨_, _, _, .neg hp hw⟩
  case recip a c =>
    obtain ⟨⟨p, hp⟩, w, hw⟩ := hv
    by_cases h0 : p = 0
    · subst h0; exact ⟨_, _, _, .recipZero hp hw⟩
    · exact ⟨_, _, _, .recip hp hw h0⟩
  case add a b c => obtain ⟨⟨p, hp⟩, ⟨q, hq⟩, w, hw⟩ := hv; exact ⟨_, _, _, .add hp hq hw⟩
  case sub a b c => obtain ⟨⟨p, hp⟩, ⟨q, hq⟩, w, hw⟩ := hv; exact ⟨_, _, _, .sub hp hq hw⟩
  case mul a b c => obtain ⟨⟨p, hp⟩, ⟨q, hq⟩, w, hw⟩ := hv; exact ⟨_, _, _, .mul hp hq hw⟩
  case div a b c =>
    obtain ⟨⟨p, hp⟩, ⟨q, hq⟩, w, hw⟩ := hv
    by_cases h0 : q = 0
    · subst h0; exact ⟨_, _, _, .divZero hp hq hw⟩
    · exact ⟨_, _, _, .div hp hq hw h0⟩
  case addInt a n c => obtain ⟨⟨p, hp⟩, ⟨y, hy⟩, w, hw⟩ := hv; exact ⟨_, _, _, .addInt hp hy hw⟩
  case subInt a n c => obtain ⟨⟨p, hp⟩, ⟨y, hy⟩, w, hw⟩ := hv; exact ⟨_, _, _, .subInt hp hy hw⟩
  case mulInt a n c =>
    obtain ⟨⟨p, hp⟩, ⟨y, hy⟩, w, hw⟩ := hv
    by_cases h1 : n = 3 * c
    · exact ⟨_, _, _, .mulIntNum hp hw h1⟩
    by_cases h2 : n = 3 * c + 1
    · exact ⟨_, _, _, .mulIntDen hp hw h2⟩
    exact ⟨_, _, _, .mulInt hp hy hw h1 h2⟩
  case divInt a n c =>
    obtain ⟨⟨p, hp⟩, ⟨y, hy⟩, w, hw⟩ := hv
    by_cases h0 : y = 0
    · subst h0; exact ⟨_, _, _, .divIntZero hp hy hw⟩
    by_cases h1 : n = 3 * c
    · refine ⟨_, _, _, .divIntNum hp hw h1 fun e => h0 ?_⟩
      subst e; rw [h1, flat_num, hw] at hy
      exact (Option.some.inj hy).symm
    by_cases h2 : n = 3 * c + 1
    · exact ⟨_, _, _, .divIntDen hp hw h2⟩
    exact ⟨_, _, _, .divInt hp hy hw h1 h2 h0⟩
  case expt a k c =>
    obtain ⟨⟨p, hp⟩, w, hw⟩ := hv
    by_cases hk : k < 0
    · exact ⟨_, _, _, .exptNeg hp hw hk⟩
    obtain ⟨n, rfl⟩ := Int.eq_ofNat_of_zero_le (by omega : 0 ≤ k)
    by_cases hn : n < 2 ^ 32
    · exact ⟨_, _, _, .expt hp hw hn⟩
    · exact ⟨_, _, _, .exptWrap hp hw (by omega)⟩
  case reduce c => obtain ⟨p, hp⟩ := hv; exact ⟨_, _, _, .reduce hp⟩
  case numer a i => obtain ⟨⟨p, hp⟩, w, hw⟩ := hv; exact ⟨_, _, _, .numer hp hw⟩
  case denom a i => obtain ⟨⟨p, hp⟩, w, hw⟩ := hv; exact ⟨_, _, _, .denom hp hw⟩
  case compare a b => obtain ⟨⟨p, hp⟩, w, hw⟩ := hv; exact ⟨_, _, _, .compare hp hw⟩
  case compareUnsigned a b => obtain ⟨⟨p, hp⟩, w, hw⟩ := hv; exact ⟨_, _, _, .compareUnsigned hp hw⟩
  case compareZero a => obtain ⟨p, hp⟩ := hv; exact ⟨_, _, _, .compareZero hp⟩
  case compareValue a x y =>
    obtain ⟨p, hp⟩ := hv
    by_cases hy : y = 0
    · subst hy; exact ⟨_, _, _, .compareValueZero hp⟩
    · obtain ⟨h1, h2⟩ := hr.resolve_left hy
      exact ⟨_, _, _, .compareValue hp (small_of ht.1 h1) (small_of ht.2 h2) hy⟩
  case isInteger a =>
    obtain ⟨p, hp⟩ := hv
    by_cases h : ∃ k : Int, p = k
    · obtain ⟨k, rfl⟩ := h; exact ⟨_, _, _, .isInteger hp⟩
    · exact ⟨_, _, _, .isIntegerNo hp fun k e => h ⟨k, e⟩⟩
  case sign a => obtain ⟨p, hp⟩ := hv; exact ⟨_, _, _, .sign hp⟩
  case toInts a =>
    obtain ⟨p, hp⟩ := hv
    have hn := hr p hp
    by_cases h1 : p.num < -2 ^ 63 ∨ 2 ^ 63 ≤ p.num
    · exact ⟨_, _, _, .toIntsNum hp h1⟩
    have hs : Small p.num := ⟨by omega, by omega⟩
    by_cases h2 : (p.den : Int) < 2 ^ 63
    · exact ⟨_, _, _, .toInts hp hs h2⟩
    · exact ⟨_, _, _, .toIntsDen hp hs (by omega)⟩
  case stringLen a r =>
    obtain ⟨p, hp⟩ := hv
    exact ⟨_, _, _, qstringLen hp hr.1 (hr.2 p hp)⟩
  case decimalLen a r prec =>
    obtain ⟨p, hp⟩ := hv
    exact ⟨_, _, _, qdecimalLen hp hr.1 (hr.2 p hp)⟩
  case toString a r str limit =>
    obtain ⟨p, hp⟩ := hv
    obtain ⟨⟨r1, r2⟩, hl, hf⟩ := hr
    rcases hf p hp with ⟨h1, h2⟩ | ⟨h1, h2, h3 | h3⟩
    · exact ⟨_, _, _, .toString hp r1 r2 h1 h2⟩
    · exact ⟨_, _, _, .toStringTruncNum hp r1 r2 hl h3 h2⟩
    · exact ⟨_, _, _, .toStringTruncDen hp r1 r2 h1 h3 h2⟩
  case toDecimal a r prec mode str limit =>
    obtain ⟨p, hp⟩ := hv
    obtain ⟨⟨r1, r2⟩, hm, hf⟩ := hr
    rcases hf p hp with ⟨hpr, hf⟩ | ⟨hpr, h1, h2, h3⟩
    rotate_left
    · exact ⟨_, _, _, .toDecimalBig hp r1 r2 hm hpr ht.2.1 h1 h2 h3⟩
    rcases hf with ⟨h1, h2⟩ | ⟨h1, h2, h3⟩ | ⟨h1, h2, h3, h4⟩ | ⟨h1, h2, h3, h4⟩ | ⟨h1, h2, h3, h4, h5⟩
    rotate_left
    · exact ⟨_, _, _, .toDecimalTruncInt hp r1 r2 hm hpr h1 h2 h3⟩
    · exact ⟨_, _, _, .toDecimalTruncPoint hp r1 r2 hm hpr h1 h2 h3 h4⟩
    · exact ⟨_, _, _, .toDecimalTruncLast hp r1 r2 hm hpr h1 h2 h3 h4⟩
    · exact ⟨_, _, _, .toDecimalTruncCarry hp r1 r2 hm hpr h1 h2 h3 h4 h5⟩
    unfold decWritten at h1 h2
    by_cases hc : Carries r prec (roundQ 0 (|p| * r ^ prec)) (roundQ mode (|p| * r ^ prec))
    · rw [if_pos hc] at h1 h2
      rw [if_neg (by have := hc.1; omega)] at h1
      exact ⟨_, _, _, .toDecimalCarry hp r1 r2 hm hpr hc rfl h1 h2⟩
    · rw [if_neg hc] at h1 h2
      exact ⟨_, _, _, .toDecimal hp r1 r2 hm hpr hc rfl h1 h2⟩
  case readCstring c r str =>
    obtain ⟨u, hu⟩ := hv
    obtain ⟨⟨r1, r2⟩, h0, hraw⟩ := hr
    rcases rat_text (r := r) (List.mem_of_mem_take h0) with ⟨w, sg, ds, w2, ch, rest, vs, rfl, h1, h2, h3, h4, h5, h6, h7, h8⟩ |
      ⟨w, sg, ds, w2, w3, sg3, ds3, ch, rest, vs, vs3, rfl, h1, h2, h3, h4, h5, h6, h7, h8, h9, h10⟩
    · exact ⟨_, _, _, .readCstringInt hu r1 r2 h1 h2 h3 h4 h5 h6 h7 h8 h0⟩
    · by_cases hz : ch ≠ 0 ∨ Nat.ofDigits r vs3.reverse = 0
      · exact absurd ⟨h1, h2, h3, h4, h5, h6, h7, h8, h9, h10, hz⟩ (hraw w sg ds w2 w3 sg3 ds3 ch rest vs vs3 rfl)
      · obtain ⟨e, hn⟩ : ch = 0 ∧ Nat.ofDigits r vs3.reverse ≠ 0 := by push Not at hz; exact hz
        subst e
        exact ⟨_, _, _, .readCstring hu r1 r2 h1 h2 h3 h4 h5 h6 h7 h8 h0 hn⟩
  case readCdecimal c r str =>
    obtain ⟨u, hu⟩ := hv
    obtain ⟨⟨r1, r2⟩, h0⟩ := hr
    obtain ⟨w, sg, ds, vs, ch, rest, rfl, h1, h2, h3, h4, h5, h6⟩ := split_string r str (List.mem_of_mem_take h0)
    by_cases h46 : ch = 46
    · subst h46
      have h0' : 0 ∈ rest := (List.mem_cons.1 h6).resolve_left (by omega)
      obtain ⟨fs, us, c2, rest2, rfl, g1, g2, g3⟩ := split_digits r rest h0'
      by_cases hp : fs = [] ∧ (IsSpace c2 ∨ c2 = 43 ∨ c2 = 45)
      · obtain ⟨rfl, hp⟩ := hp
        exact ⟨_, _, _, .readCdecimalPoint hu r1 r2 h1 h2 h3 hp h0⟩
      · exact ⟨_, _, _, .readCdecimal hu r1 r2 h1 h2 h3 g1 g2 (fun e => by tauto) h0⟩
    · exact ⟨_, _, _, .readCdecimalInt hu r1 r2 h1 h2 h3 h4 h5 h46 h0⟩
  case readString c r str =>
    obtain ⟨u, hu⟩ := hv
    obtain ⟨⟨r1, r2⟩, h0, q, e1, e2⟩ := hr
    exact ⟨_, _, _, .readString hu r1 r2 h0 e1 e2⟩
  case readDecimal c r str =>
    obtain ⟨u, hu⟩ := hv
    obtain ⟨⟨r1, r2⟩, h0⟩ := hr
    obtain ⟨q, e1, e2⟩ := readDecimal_q (r := r) str
    exact ⟨_, _, _, .readDecimal hu r1 r2 h0 e1 e2⟩
  case readUstring c r str =>
    obtain ⟨u, hu⟩ := hv
    obtain ⟨hr, h0, q, e1, e2⟩ := hr
    exact ⟨_, _, _, .readUstring hu hr h0 e1 e2⟩
  case int c =>
    obtain ⟨out, ρ', hs⟩ := ready_step ht hv hr.1
    exact ⟨_, _, _, .int hs hr.2⟩

theorem qbreaks_fault {e : Fault} (h : State m (flat κ ι)) (ht : c.Typed) (hv : c.Vars κ ι) (hb : QBreaks κ ι c e) : FaultsOr env c.exec m e := by
  cases hb with
  | initSize hm => exact FaultsOr.bind (C38_init_size_max (c := rv _) h (noneN hv) ht.1 hm)
  | setValue h0 hm => obtain ⟨p, hp⟩ := hv; exact FaultsOr.bind (C38_set_value_min h (readyQ hp) ht.1 h0 hm)
  | compareValue h0 hm => exact FaultsOr.bind (C39_compare_value_min_any h ht.1 h0 hm)
  | toInts ha hm => exact FaultsOr.bind (C26_to_ints_min h (hasQ ha) hm)
  | stringLen hr => exact FaultsOr.bind (C53_len_radix (prec := 0) hr).1
  | decimalLen hr => exact FaultsOr.bind (C53_len_radix hr).2
  | toStringLimit hl => exact FaultsOr.bind (C41_to_string_limit (.inl hl))
  | toStringRadix hr => exact FaultsOr.bind (C41_to_string_limit (.inr hr))
  | toStringMid ha h0 hr hl h1 h2 h3 => exact FaultsOr.bind (C41_to_string_mid h (hasQ ha) h0 hr hl h1 h2 h3)
  | toStringShort ha hr hl h1 h2 h3 => exact FaultsOr.bind (C41_to_string_short h (hasQ ha) hr hl h1 h2 h3)
  | toDecimalRadix hr hm hp hs => obtain ⟨p, hq⟩ := hv; exact FaultsOr.bind (C40_radix h (hasQ hq) hr ht.1 hm hp hs)
  | toDecimalSign ha hr hm hp hs => exact FaultsOr.bind ((C40_radix_empty h (hasQ ha) hr ht.1 hm hp).1 hs)
  | toDecimalEmpty ha hr hm hp hs => exact FaultsOr.bind ((C40_radix_empty h (hasQ ha) hr ht.1 hm hp).2 hs)
  | toDecimalBigSign ha hm h31 h1 => exact FaultsOr.bind ((C40_big_fault h (hasQ ha) ht.1 hm h31 ht.2.1).1 h1)
  | toDecimalBigLimit ha hm h31 h1 h2 => exact FaultsOr.bind ((C40_big_fault h (hasQ ha) ht.1 hm h31 ht.2.1).2.1 h1 h2)
  | toDecimalBig ha hm h31 hr h1 h2 => exact FaultsOr.bind ((C40_big_fault h (hasQ ha) ht.1 hm h31 ht.2.1).2.2 hr h1 h2)
  | toDecimalLimit ha hr hm hp h1 h2 => exact FaultsOr.bind (C40_small_limit h (hasQ ha) hr hm (by omega) h1 h2)
  | toDecimalLast ha hr hm hp h0 h1 h2 h3 => exact FaultsOr.bind (C40_last_digit h (hasQ ha) hr hm hp h0 h1 h2 h3)
  | toDecimalShortInt ha hr hm hp h1 => exact FaultsOr.bind (C40_short_int h (hasQ ha) hr hm (by omega) h1)
  | toDecimalShortFrac ha hr hm hp h0 h1 h2 h3 h4 h5 => exact FaultsOr.bind (C40_short_frac h (hasQ ha) hr hm hp h0 h1 h2 h3 h4 h5)
  | readCstring hr => exact FaultsOr.bind (C41_read_radix hr).1
  | readCstringEnd hr h0 => obtain ⟨p, hp⟩ := hv; exact FaultsOr.bind (C41_unterminated h (readyQ hp) hr h0).1
  | readCdecimal hr h0 => exact FaultsOr.bind ((C41_read_decimal_radix hr).1 h0)
  | readCdecimalSpace hr h0 => exact FaultsOr.bind ((C41_read_decimal_radix hr).2 h0)
  | readCdecimalEnd hr h0 => obtain ⟨p, hp⟩ := hv; exact FaultsOr.bind (C41_unterminated h (readyQ hp) hr h0).2
  | readString hr => exact FaultsOr.bind (FaultsOr.bind (C41_read_radix hr).1)
  | readStringEnd hr h0 => obtain ⟨p, hp⟩ := hv; exact FaultsOr.bind (FaultsOr.bind (C41_unterminated h (readyQ hp) hr h0).1)
  | readDecimal hr h0 => exact FaultsOr.bind (FaultsOr.bind ((C41_read_decimal_radix hr).1 h0))
  | readDecimalSpace hr h0 => exact FaultsOr.bind (FaultsOr.bind ((C41_read_decimal_radix hr).2 h0))
  | readDecimalEnd hr h0 => obtain ⟨p, hp⟩ := hv; exact FaultsOr.bind (FaultsOr.bind (C41_unterminated h (readyQ hp) hr h0).2)
  | @readUstring c r str hr =>
    exact FaultsOr.bind (FaultsOr.bind (C41_read_radix (r := if r = 0 then 10 else r) (by rw [if_neg (by omega)]; omega)).1)
  | @readUstringEnd c r str hr h0 =>
    obtain ⟨p, hp⟩ := hv
    exact FaultsOr.bind (FaultsOr.bind (C41_unterminated (r := if r = 0 then 10 else r) h (readyQ hp) (by split <;> omega) h0).1)
  | int hb => exact breaks_fault h hb hv

theorem raw_run {out : List Int} {k : Nat} {x y : Int} (h : State m (flat κ ι)) (hv : c.Vars κ ι) (hb : Raw c out k x y) :
    Runs env c.exec m fun o m' => o = out ∧ State m' (put (put (flat κ ι) (3 * k) x) (3 * k + 1) y) := by
  cases hb with
  | readCstring hr ht h0 =>
    obtain ⟨p, hp⟩ := hv
    exact (C41_read_fraction_raw_partial h (readyQ hp) hr ht.hw ht.hsg ht.hds ht.hne ht.hw2 ht.hw3 ht.hsg3 ht.hds3 ht.hch ht.hhead h0 ht.hz).list
      fun _ _ hh => ⟨by rw [hh.1], hh.2⟩
  | readString hr h0 _ => obtain ⟨p, hp⟩ := hv; exact (C58_read_fraction_string h (readyQ hp) hr h0).list fun _ _ hh => ⟨by rw [hh.1], hh.2⟩
  | readUstring hr h0 _ => obtain ⟨p, hp⟩ := hv; exact (C58_read_text h (readyQ hp) hr h0).list fun _ _ hh => ⟨by rw [hh.1], hh.2⟩

theorem rat_fits {r : Nat} {p : ℚ} {str : Bytes} {limit : Int} (hn : ¬ RatFits r p str limit) :
    ((numeral r p.num).length < limit ∧ limit ≤ (numeral r p.num).length + 2 ∧ (numeral r p.num).length < str.length ∧ p ≠ 0) ∨
    ((p = 0 ∨ limit ≤ (numeral r p.num).length ∨ (numeral r p.num).length + 3 ≤ limit ∨ str.length ≤ (numeral r p.num).length) ∧
      (str.length : Int) ≤ limit ∧ str.length ≤ (ratText r p).length) := by
  unfold RatFits at hn
  have hl : p = 0 ∧ (ratText r p).length = (numeral r p.num).length ∨ p ≠ 0 ∧ (numeral r p.num).length + 1 ≤ (ratText r p).length := by
    by_cases h0 : p = 0
    · left; refine ⟨h0, ?_⟩; simp [ratText, h0]
    · right; refine ⟨h0, ?_⟩; rw [ratText, if_neg h0]; simp
  by_cases h0 : p = 0
  · have := hl.resolve_right fun h => h.1 h0
    right; exact ⟨.inl h0, by omega, by omega⟩
  · have := hl.resolve_left fun h => h0 h.1
    by_cases h1 : (numeral r p.num).length < limit ∧ limit ≤ (numeral r p.num).length + 2 ∧ (numeral r p.num).length < str.length
    · left; exact ⟨h1.1, h1.2.1, h1.2.2, h0⟩
    · right; exact ⟨.inr (by omega), by omega, by omega⟩

/-- The lengths of the sign, the integer part and the text. -/
theorem dec_lens {r prec mode : Nat} (hr : 2 ≤ r) (hm : mode ≤ 3) (p : ℚ) :
    (decSign r prec mode p).length + 1 ≤ (decHead r prec mode p).length ∧
    (prec = 0 ∧ ¬ DecCarries r prec mode p ∧ (decWritten r prec mode p).length = (decHead r prec mode p).length ∨
     0 < prec ∧ ¬ DecCarries r prec mode p ∧ (decWritten r prec mode p).length = (decHead r prec mode p).length + prec + 1 ∨
     0 < prec ∧ DecCarries r prec mode p ∧ (decWritten r prec mode p).length = (decHead r prec mode p).length + prec + 2) := by
  obtain ⟨h0, h1, h2⟩ := dec_length (prec := prec) hr hm p
  have h3 := decHead_len r prec mode p
  have h4 := numeralN_pos (r := r) (n := decInt prec mode p) hr
  refine ⟨by omega, ?_⟩
  rcases Nat.eq_zero_or_pos prec with h | h
  · exact .inl ⟨h, (h0 h).2, (h0 h).1⟩
  · by_cases hc : DecCarries r prec mode p
    · exact .inr (.inr ⟨h, hc, h2 h hc⟩)
    · exact .inr (.inl ⟨h, hc, h1 h hc⟩)

theorem dec_fits {r prec mode : Nat} {p : ℚ} {str : Bytes} {limit : Int} (hr : 2 ≤ r) (hm : mode ≤ 3) (hn : ¬ DecFits r prec mode p str limit) :
    (limit < (decSign r prec mode p).length + 2 ∧ (decSign r prec mode p).length ≤ str.length) ∨
    (0 < prec ∧ limit = (decHead r prec mode p).length + prec + 2 ∧ DecLast r prec p ∧ (decHead r prec mode p).length + prec ≤ str.length) ∨
    (str.length < (decSign r prec mode p).length ∨ (decSign r prec mode p).length + 2 ≤ limit ∧ (str.length : Int) ≤ limit ∧
      str.length ≤ (decHead r prec mode p).length) ∨
    (0 < prec ∧ (decHead r prec mode p).length + prec + 2 ≤ limit ∧ (decHead r prec mode p).length < str.length ∧
      (limit ≠ (decHead r prec mode p).length + prec + 2 ∨ ¬ DecLast r prec p ∨ str.length < (decHead r prec mode p).length + prec) ∧
      str.length ≤ (decWritten r prec mode p).length ∧ str.length < limit) := by
  obtain ⟨h1, h2⟩ := dec_lens (prec := prec) hr hm p
  unfold DecFits at hn
  generalize (decSign r prec mode p).length = S at *
  generalize (decHead r prec mode p).length = H at *
  generalize (decWritten r prec mode p).length = W at *
  generalize DecCarries r prec mode p = C at *
  generalize DecLast r prec p = D at *
  generalize str.length = N at *
  rcases h2 with ⟨a, b, c⟩ | ⟨a, b, c⟩ | ⟨a, b, c⟩
  · rw [if_pos a] at hn; omega
  · rw [if_neg (by omega)] at hn; by_cases hD : D <;> simp only [b, hD, true_and, false_and, and_true, and_false, or_false, false_or, not_true_eq_false, not_false_eq_true, true_or, or_true, true_implies, false_implies] at hn ⊢ <;> omega
  · rw [if_neg (by omega)] at hn; by_cases hD : D <;> simp only [b, hD, true_and, false_and, and_true, and_false, or_false, false_or, not_true_eq_false, not_false_eq_true, true_or, or_true, true_implies, false_implies] at hn ⊢ <;> omega

theorem leaks_run {out : List Int} (h : State m (flat κ ι)) (ht : c.Typed) (hv : c.Vars κ ι) (hb : Leaks c out) :
    Runs env c.exec m fun o m' => o = out ∧ ∀ n v, flat κ ι n = some v → Holds m' (.var n) v := by
  cases hb with
  | toDecimal hm =>
    obtain ⟨p, hq⟩ := hv
    exact (C40_bad_mode h (hasQ hq) ht.1 hm ht.2.1).list fun _ _ hh => ⟨by rw [hh.1], hh.2⟩

theorem qclassify (ht : c.Typed) (hv : c.Vars κ ι) (hn : ¬ c.Ready κ ι) (hl : ¬ ∃ out, Leaks c out) (hi : ¬ OnInt κ ι c) :
    (∃ e, QBreaks κ ι c e) ∨ (∃ out k x y, Raw c out k x y) ∨ c.Open κ ι := by
  cases c <;> simp only [QCall.Typed, QCall.Vars, QCall.Ready, QCall.Open, not_true_eq_false] at ht hv hn ⊢
  case initSize c np dp => exact .inl ⟨_, .initSize (by omega)⟩
  case setValue c x y => exact .inl ⟨_, .setValue (by omega) (by omega)⟩
  case toInts a =>
    push Not at hn
    obtain ⟨p, hp, h1⟩ := hn
    exact .inl ⟨_, .toInts hp h1⟩
  case stringLen a r =>
    by_cases hr : r < 2 ∨ 36 < r
    · exact .inl ⟨_, .stringLen hr⟩
    · right; right
      by_contra hc
      push Not at hc
      exact hn ⟨by omega, hc⟩
  case decimalLen a r prec =>
    by_cases hr : r < 2 ∨ 36 < r
    · exact .inl ⟨_, .decimalLen hr⟩
    · right; right
      by_contra hc
      push Not at hc
      exact hn ⟨by omega, hc⟩
  case compareValue c x y => exact .inl ⟨_, .compareValue (by omega) (by omega)⟩
  case toString a r str limit =>
    obtain ⟨p, hp⟩ := hv
    by_cases hr : r < 2 ∨ 36 < r
    · exact .inl ⟨_, .toStringRadix hr⟩
    by_cases hl : limit < 2
    · exact .inl ⟨_, .toStringLimit hl⟩
    have hf : ¬ RatFits r p str limit := fun hf => hn ⟨by omega, by omega, fun q hq => by rw [hp] at hq; cases hq; exact hf⟩
    rcases rat_fits hf with ⟨h1, h2, h3, h4⟩ | ⟨h1, h2, h3⟩
    · exact .inl ⟨_, .toStringMid hp h4 (by omega) (by omega) h1 h2 h3⟩
    · exact .inl ⟨_, .toStringShort hp (by omega) (by omega) h1 h2 h3⟩
  case toDecimal a r prec mode str limit =>
    obtain ⟨p, hp⟩ := hv
    have hm : mode ≤ 3 := by
      by_contra hm
      exact hl ⟨_, .toDecimal (by omega)⟩
    by_cases hb : 2 ^ 31 - 1 ≤ prec
    · refine .inl ?_
      by_cases h1 : str.length < (bigSign r prec mode p).length
      · exact ⟨_, .toDecimalBigSign hp hm hb h1⟩
      by_cases h2 : (r < 2 ∨ 36 < r) ∨ limit < (bigSign r prec mode p).length + 2
      · exact ⟨_, .toDecimalBigLimit hp hm hb (by omega) h2⟩
      have hr' : 2 ≤ r ∧ r ≤ 36 := by omega
      refine ⟨_, .toDecimalBig hp hm hb hr' (by omega) ?_⟩
      by_contra h3
      push Not at h3
      exact hn ⟨hr', hm, fun q hq => .inr ⟨hb, by rw [hp] at hq; cases hq; exact ⟨by omega, h3.1, by omega⟩⟩⟩
    by_cases hr : r < 2 ∨ 36 < r
    · by_cases hs : str = []
      · subst hs
        by_cases h1 : SignShown r prec mode p
        · exact .inl ⟨_, .toDecimalSign hp hr hm (by omega) h1⟩
        · exact .inl ⟨_, .toDecimalEmpty hp hr hm (by omega) h1⟩
      · exact .inl ⟨_, .toDecimalRadix hr hm (by omega) hs⟩
    have hpr : prec < 2 ^ 31 - 1 := by omega
    have hr' : 2 ≤ r ∧ r ≤ 36 := by omega
    have hf : ¬ DecFits r prec mode p str limit := fun hf => hn ⟨hr', hm, fun q hq => .inl ⟨hpr, by rw [hp] at hq; cases hq; exact hf⟩⟩
    rcases dec_fits hr'.1 hm hf with ⟨h1, h2⟩ | ⟨h1, h2, h3, h4⟩ | h1 | ⟨h1, h2, h3, h4, h5, h6⟩
    · exact .inl ⟨_, .toDecimalLimit hp hr' hm hpr h1 h2⟩
    · exact .inl ⟨_, .toDecimalLast hp hr' hm hpr h1 h2 h3 h4⟩
    · exact .inl ⟨_, .toDecimalShortInt hp hr' hm hpr h1⟩
    · exact .inl ⟨_, .toDecimalShortFrac hp hr' hm hpr h1 h2 h3 (fun e hl => (h4.resolve_left fun h => h e).resolve_left fun h => h hl) h5 h6⟩
  case readCstring c r str =>
    by_cases hr : r < 2 ∨ 36 < r
    · exact .inl ⟨_, .readCstring hr⟩
    by_cases h0 : 0 ∈ str
    · by_cases h1 : 0 ∈ str.take 800000001
      · right; left
        by_contra hc
        refine hn ⟨by omega, h1, fun w sg ds w2 w3 sg3 ds3 ch rest vs vs3 e hraw => hc ?_⟩
        subst e
        exact ⟨_, _, _, _, .readCstring (by omega) hraw h1⟩
      · exact .inr (.inr ⟨h0, h1⟩)
    · exact .inl ⟨_, .readCstringEnd (by omega) h0⟩
  case readCdecimal c r str =>
    by_cases hr : r < 2 ∨ 36 < r
    · by_cases hw : ∀ x ∈ str, IsSpace x
      · exact .inl ⟨_, .readCdecimalSpace hr hw⟩
      · push Not at hw
        exact .inl ⟨_, .readCdecimal hr hw⟩
    by_cases h0 : 0 ∈ str
    · exact .inr (.inr ⟨h0, fun h1 => hn ⟨by omega, h1⟩⟩)
    · exact .inl ⟨_, .readCdecimalEnd (by omega) h0⟩
  case readString c r str =>
    by_cases hr : r < 2 ∨ 36 < r
    · exact .inl ⟨_, .readString hr⟩
    by_cases h0 : 0 ∈ str
    · by_cases h1 : 0 ∈ str.take 800000001
      · exact .inr (.inl ⟨_, _, _, _, .readString (by omega) h1 fun hl => hn ⟨by omega, h1, hl⟩⟩)
      · exact .inr (.inr ⟨h0, h1⟩)
    · exact .inl ⟨_, .readStringEnd (by omega) h0⟩
  case readDecimal c r str =>
    by_cases hr : r < 2 ∨ 36 < r
    · by_cases hw : ∀ x ∈ str, IsSpace x
      · exact .inl ⟨_, .readDecimalSpace hr hw⟩
      · push Not at hw
        exact .inl ⟨_, .readDecimal hr hw⟩
    by_cases h0 : 0 ∈ str
    · exact .inr (.inr ⟨h0, fun h1 => hn ⟨by omega, h1⟩⟩)
    · exact .inl ⟨_, .readDecimalEnd (by omega) h0⟩
  case readUstring c r str =>
    by_cases hr : r = 1 ∨ 36 < r
    · exact .inl ⟨_, .readUstring hr⟩
    by_cases h0 : 0 ∈ str
    · by_cases h1 : 0 ∈ str.take 800000001
      · exact .inr (.inl ⟨_, _, _, _, .readUstring (by omega) h1 fun hl => hn ⟨by omega, h1, hl⟩⟩)
      · exact .inr (.inr ⟨h0, h1⟩)
    · exact .inl ⟨_, .readUstringEnd (by omega) h0⟩
  case int c =>
    rcases classify ht fun h => hi (.ready h) with ⟨e, he⟩ | he | he
    · exact .inl ⟨e, .int he⟩
    · exact (hi (.exhausts he)).elim
    · exact .inr (.inr he)

theorem qstep_big {a r prec mode : Nat} {str : Bytes} {limit : Int} {out : List Int} {κ' : Nat → Option ℚ} {ι' : Nat → Option Int} {p : ℚ}
    (hp : κ a = some p) (hb : 2 ^ 31 - 1 ≤ prec) (h : QStep κ ι (.toDecimal a r prec mode str limit) out κ' ι') :
    BigFits r prec mode p str limit ∧ ¬ (str.length < (bigSign r prec mode p).length ∨
      ((r < 2 ∨ 36 < r) ∨ limit < (bigSign r prec mode p).length + 2) ∨
      ((bigSign r prec mode p ++ numeralN r ⌊|p|⌋₊).length < limit ∨ (str.length : Int) ≤ limit)) := by
  cases h with
  | toDecimalBig ha _ _ _ _ _ h1 h2 h3 => rw [hp] at ha; cases ha; exact ⟨⟨h1, h2, h3⟩, by omega⟩
  | _ => omega

/-- A step of `mp_rat_to_decimal` has room. -/
theorem qstep_fits {a r prec mode : Nat} {str : Bytes} {limit : Int} {out : List Int} {κ' : Nat → Option ℚ} {ι' : Nat → Option Int} {p : ℚ}
    (hp : κ a = some p) (hpr : prec < 2 ^ 31 - 1) (h : QStep κ ι (.toDecimal a r prec mode str limit) out κ' ι') : DecFits r prec mode p str limit := by
  cases h with
  | toDecimal ha _ _ _ _ hc e h1 h2 =>
    rw [hp] at ha; cases ha
    left; unfold decWritten; rw [if_neg hc, ← e]; exact ⟨h1, h2⟩
  | toDecimalCarry ha _ _ _ _ hc e h1 h2 =>
    rw [hp] at ha; cases ha
    left; unfold decWritten; rw [if_pos hc, if_neg (by have := hc.1; omega), ← e]; exact ⟨h1, h2⟩
  | toDecimalTruncInt ha _ _ _ _ h1 h2 h3 => rw [hp] at ha; cases ha; exact .inr (.inl ⟨h1, h2, h3⟩)
  | toDecimalBig _ _ _ _ h1 => omega
  | toDecimalTruncPoint ha _ _ _ _ h1 h2 h3 h4 => rw [hp] at ha; cases ha; exact .inr (.inr (.inl ⟨h1, h2, h3, h4⟩))
  | toDecimalTruncLast ha _ _ _ _ h1 h2 h3 h4 => rw [hp] at ha; cases ha; exact .inr (.inr (.inr (.inl ⟨h1, h2, h3, h4⟩)))
  | toDecimalTruncCarry ha _ _ _ _ h1 h2 h3 h4 h5 => rw [hp] at ha; cases ha; exact .inr (.inr (.inr (.inr ⟨h1, h2, h3, h4, h5⟩)))

/-- The converse of `dec_fits`. -/
theorem dec_breaks {r prec mode : Nat} {p : ℚ} {str : Bytes} {limit : Int} (hr : 2 ≤ r) (hm : mode ≤ 3) (hf : DecFits r prec mode p str limit) :
    ¬ (limit < (decSign r prec mode p).length + 2) ∧
    ¬ (0 < prec ∧ limit = (decHead r prec mode p).length + prec + 2 ∧ DecLast r prec p) ∧
    ¬ (str.length < (decSign r prec mode p).length ∨ (decSign r prec mode p).length + 2 ≤ limit ∧ (str.length : Int) ≤ limit ∧
      str.length ≤ (decHead r prec mode p).length) ∧
    ¬ (0 < prec ∧ (decHead r prec mode p).length + prec + 2 ≤ limit ∧
      str.length ≤ (decWritten r prec mode p).length ∧ str.length < limit) := by
  obtain ⟨h1, h2⟩ := dec_lens (prec := prec) hr hm p
  unfold DecFits at hf
  generalize (decSign r prec mode p).length = S at *
  generalize (decHead r prec mode p).length = H at *
  generalize (decWritten r prec mode p).length = W at *
  generalize DecCarries r prec mode p = C at *
  generalize DecLast r prec p = D at *
  generalize str.length = N at *
  rcases h2 with ⟨a, b, c⟩ | ⟨a, b, c⟩ | ⟨a, b, c⟩
  · rw [if_pos a] at hf; omega
  · rw [if_neg (by omega)] at hf; by_cases hD : D <;> simp only [b, hD, true_and, false_and, and_true, and_false, or_false, false_or, not_true_eq_false, not_false_eq_true, true_or, or_true] at hf ⊢ <;> omega
  · rw [if_neg (by omega)] at hf; by_cases hD : D <;> simp only [b, hD, true_and, false_and, and_true, and_false, or_false, false_or, not_true_eq_false, not_false_eq_true, true_or, or_true] at hf ⊢ <;> omega

theorem qbreaks_no_step {e : Fault} {out : List Int} {κ' : Nat → Option ℚ} {ι' : Nat → Option Int} (hb : QBreaks κ ι c e) :
    ¬ QStep κ ι c out κ' ι' := by
  intro h
  cases hb with
  | initSize hm => cases h; omega
  | setValue h0 hm => cases h <;> first | (unfold Small at *; omega) | omega
  | compareValue h0 hm => cases h <;> first | (unfold Small at *; omega) | omega
  | toInts ha hm =>
    cases h with
    | toInts ha' h1 => rw [ha] at ha'; cases ha'; unfold Small at h1; omega
    | toIntsDen ha' h1 => rw [ha] at ha'; cases ha'; unfold Small at h1; omega
    | toIntsNum ha' h1 => rw [ha] at ha'; cases ha'; omega
  | stringLen hr => cases h; omega
  | decimalLen hr => cases h; omega
  | @toStringLimit a r str limit hl =>
    have hp : ∀ p : ℚ, 2 ≤ r → 1 ≤ (ratText r p).length := fun p hr => by
      have := numeral_pos (r := r) (v := p.num)
      unfold ratText; split <;> simp only [List.length_append] <;> omega
    cases h with
    | @toString _ _ _ p _ ha h2 _ h1 _ => have := hp p h2; omega
    | toStringTruncNum => omega
    | toStringTruncDen => omega
  | toStringRadix hr => cases h <;> omega
  | @toStringMid a r str p limit ha h0 hr hl h1 h2 h3 =>
    have hx : (numeral r (p.den : Int)).length ≠ 0 := by
      intro hx
      exact absurd hx (by have := (numeral_pos (r := r) (v := (p.den : Int))); omega)
    have e : (ratText r p).length = (numeral r p.num).length + 1 + (numeral r (p.den : Int)).length := by
      rw [ratText, if_neg h0]; simp; omega
    cases h with
    | toString ha' => rw [ha] at ha'; cases ha'; omega
    | toStringTruncNum ha' => rw [ha] at ha'; cases ha'; omega
    | toStringTruncDen ha' => rw [ha] at ha'; cases ha'; omega
  | toStringShort ha hr hl h1 h2 h3 =>
    cases h with
    | toString ha' => rw [ha] at ha'; cases ha'; omega
    | toStringTruncNum ha' => rw [ha] at ha'; cases ha'; omega
    | toStringTruncDen ha' => rw [ha] at ha'; cases ha'; omega
  | toDecimalRadix hr => cases h <;> omega
  | toDecimalSign _ hr => cases h <;> omega
  | toDecimalEmpty _ hr => cases h <;> omega
  | toDecimalBigSign ha hm hb h1 => exact (qstep_big ha hb h).2 (.inl h1)
  | toDecimalBigLimit ha hm hb h1 h2 => exact (qstep_big ha hb h).2 (.inr (.inl h2))
  | toDecimalBig ha hm hb hr h1 h2 => exact (qstep_big ha hb h).2 (.inr (.inr h2))
  | toDecimalLimit ha hr hm hpr h1 => exact (dec_breaks hr.1 hm (qstep_fits ha hpr h)).1 h1
  | toDecimalLast ha hr hm hpr h0 h1 h2 => exact (dec_breaks hr.1 hm (qstep_fits ha hpr h)).2.1 ⟨h0, h1, h2⟩
  | toDecimalShortInt ha hr hm hpr h1 => exact (dec_breaks hr.1 hm (qstep_fits ha hpr h)).2.2.1 h1
  | toDecimalShortFrac ha hr hm hpr h0 h1 _ _ h2 h3 => exact (dec_breaks hr.1 hm (qstep_fits ha hpr h)).2.2.2 ⟨h0, h1, h2, h3⟩
  | @readCstring c r str hr => generalize e : QCall.readCstring c r str = cc at h; cases h <;> cases e <;> omega
  | @readCstringEnd c r str hr h0 =>
    generalize e : QCall.readCstring c r str = cc at h
    cases h <;> cases e <;> exact absurd (List.mem_of_mem_take (by assumption)) h0
  | @readCdecimal c r str hr h0 => generalize e : QCall.readCdecimal c r str = cc at h; cases h <;> cases e <;> omega
  | @readCdecimalSpace c r str hr h0 => generalize e : QCall.readCdecimal c r str = cc at h; cases h <;> cases e <;> omega
  | @readCdecimalEnd c r str hr h0 =>
    generalize e : QCall.readCdecimal c r str = cc at h
    cases h <;> cases e <;> exact absurd (List.mem_of_mem_take (by assumption)) h0
  | readString hr => cases h; omega
  | readStringEnd hr h0 => cases h; exact absurd (List.mem_of_mem_take (by assumption)) h0
  | readDecimal hr h0 => cases h; omega
  | readDecimalSpace hr h0 => cases h; omega
  | readDecimalEnd hr h0 => cases h; exact absurd (List.mem_of_mem_take (by assumption)) h0
  | readUstring hr => cases h; omega
  | readUstringEnd hr h0 => cases h; exact absurd (List.mem_of_mem_take (by assumption)) h0
  | int hb => cases h with | int hs _ => exact breaks_no_step hb hs

end Imath
