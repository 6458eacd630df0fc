import Verif.Proof.RatHistory
import Verif.SpecGmpHistory
import Verif.Proof.History
import Verif.Props.Gmp
import Verif.Props.GmpDirect
import Verif.Props.GmpStr
import Verif.Props.Prime
import Verif.Props.Rsa
import Mathlib.Data.Fintype.EquivFin

/-!
# Every admissible call of `Verif/SpecGmpHistory.lean` does what `XStep` says
-/

namespace Imath

variable {env : Env} {m : Mem} {ρ ρ' : Nat → Option Int} {c : XCall} {out : List Int}

/-! ### Arrays of words -/

theorem bytePos_surj {order endian : Int} {size count p : Nat} (hp : p < count * size) :
    ∃ k < count * size, bytePos order endian size count k = p := by
  let f : Fin (count * size) → Fin (count * size) := fun k => ⟨bytePos order endian size count k, bytePos_lt k.2⟩
  have hinj : Function.Injective f := fun a b h => Fin.ext (bytePos_inj a.2 b.2 (Fin.mk.inj_iff.1 h))
  obtain ⟨k, hk⟩ := (Finite.injective_iff_surjective.1 hinj) ⟨p, hp⟩
  exact ⟨k, k.2, congrArg Fin.val hk⟩

theorem words_unique {size n k v : Nat} (hn : v < 256 ^ (n * size)) (hn' : 256 ^ ((n - 1) * size) ≤ v)
    (hk : v < 256 ^ (k * size)) (hk' : 256 ^ ((k - 1) * size) ≤ v) (hn1 : 1 ≤ n) (hk1 : 1 ≤ k) : n = k := by
  have h1 : (n - 1) * size < k * size := (Nat.pow_lt_pow_iff_right (by norm_num)).1 (Nat.lt_of_le_of_lt hn' hk)
  have h2 : (k - 1) * size < n * size := (Nat.pow_lt_pow_iff_right (by norm_num)).1 (Nat.lt_of_le_of_lt hk' hn)
  have h1 := Nat.lt_of_mul_lt_mul_right h1
  have h2 := Nat.lt_of_mul_lt_mul_right h2
  omega

theorem encodes_unique {order endian : Int} {size count v : Nat} {b b' : Bytes} (h : Encodes order endian size count b v)
    (h' : Encodes order endian size count b' v) (hr : ∀ p, count * size ≤ p → b[p]? = b'[p]?) : b = b' := by
  refine List.ext_getElem? fun p => ?_
  by_cases hp : p < count * size
  · obtain ⟨k, hk, rfl⟩ := bytePos_surj (order := order) (endian := endian) hp
    rw [h.2 k hk, h'.2 k hk]
  · exact hr p (by omega)

theorem expWords_fit {size v : Nat} (hs : 1 ≤ size) : v < 256 ^ (((Nat.size v + 7) / 8 + (size - 1)) / size * size) := by
  have h1 : v < 2 ^ Nat.size v := Nat.lt_size_self v
  have h2 : (Nat.size v + 7) / 8 ≤ ((Nat.size v + 7) / 8 + (size - 1)) / size * size := by
    generalize (Nat.size v + 7) / 8 = t
    have h3 := Nat.div_add_mod (t + (size - 1)) size
    have h4 := Nat.mod_lt (t + (size - 1)) (show 0 < size by omega)
    rw [Nat.mul_comm] at h3
    omega
  refine Nat.lt_of_lt_of_le h1 ?_
  rw [show (256 : Nat) = 2 ^ 8 from rfl, ← Nat.pow_mul]
  exact Nat.pow_le_pow_right (by norm_num) (by omega)

theorem words_fit {order endian : Int} {size count : Nat} {b : Bytes} {x : Int} (hx : x ≠ 0) (hs : 1 ≤ size) (hc : 1 ≤ count)
    (h : Encodes order endian size count b x.natAbs) (hlow : 256 ^ ((count - 1) * size) ≤ x.natAbs) :
    ((Nat.size x.natAbs + 7) / 8 + (size - 1)) / size * size ≤ b.length := by
  have e := words_unique (n := ((Nat.size x.natAbs + 7) / 8 + (size - 1)) / size) (expWords_fit hs) (expWords_least hx hs) h.1 hlow
    (expWords_pos hx hs) hc
  rw [e]
  have hpos : 0 < count * size := Nat.mul_pos hc hs
  obtain ⟨k, hk, hp⟩ := bytePos_surj (order := order) (endian := endian) (show count * size - 1 < count * size by omega)
  have h2 := h.2 k hk
  rw [hp] at h2
  have := (List.getElem?_eq_some_iff.1 h2).1
  omega

/-! ### Text -/

theorem TextOk.good {r : Nat} {x : Int} (h : TextOk r x) : goodRadix r = true ∨ |x| < 13 ^ 5458 :=
  h.1.imp (fun h => by unfold goodRadix; exact decide_eq_true h) id

theorem gmpCase_length {radix : Int} {l : List Nat} : (gmpCase radix l).length = l.length := by unfold gmpCase; split <;> simp

theorem gmpCase_nz {radix : Int} {l : List Nat} (hl : ∀ c ∈ l, c ≠ 0) : ∀ c ∈ gmpCase radix l, c ≠ 0 := by
  unfold gmpCase
  split
  · exact hl
  · intro c hc
    rw [List.mem_map] at hc
    obtain ⟨d, hd, rfl⟩ := hc
    have := hl d hd
    split <;> omega

theorem takeWhile_nz {l r : List Nat} (hl : ∀ c ∈ l, c ≠ 0) : (l ++ 0 :: r).takeWhile (· ≠ 0) = l := by
  induction l with
  | nil => rfl
  | cons a l ih =>
    rw [List.cons_append, List.takeWhile_cons_of_pos (by simpa using hl a (by simp)), ih fun c hc => hl c (by simp [hc])]

/-! ### Calls -/

theorem gstep_sound (hd : GStep ρ c out ρ') (h : State m ρ) :
    Runs env c.exec m fun o m' => o = out ∧ State m' ρ' := by
  cases hd with
  | zInit hc => exact none' (C74_init h hc)
  | zClear hc => exact none' (C74_clear h hc)
  | zSet ha hc => exact none' (C74_set h ha hc)
  | zSetSi hc hv => exact none' (C74_set_si_partial h hc hv)
  | zSetUi hc hv => exact none' (C74_set_ui h hc hv)
  | zSwap ha hc => exact none' (C74_swap h ha hc)
  | zAbs ha hc => exact none' (C74_abs h ha hc)
  | zNeg ha hc => exact none' (C74_neg h ha hc)
  | zAdd ha hb hc => exact none' (C74_add h ha hb hc)
  | zSub ha hb hc => exact none' (C74_sub h ha hb hc)
  | zMul ha hb hc => exact none' (C74_mul h ha hb hc)
  | zAddmul ha hb hc => exact none' (C48_addmul h ha hb hc)
  | zSubmul ha hb hc => exact none' (C48_submul h ha hb hc)
  | zAddUi ha hc hu => exact none' (C48_add_ui h ha hu hc)
  | zSubUi ha hc hu => exact none' (C48_sub_ui h ha hu hc)
  | zMulUi ha hc hu => exact none' (C48_mul_ui h ha hu hc)
  | zPowUi ha hc hu => exact none' (C48_pow_ui h ha hu hc)
  | zMul2exp ha hc hu => exact none' (C48_mul_2exp_partial h ha hu hc)
  | zGcd ha hb hc => exact none' (C48_gcd h ha hb hc)
  | zLcm ha hb hc => exact none' (C48_lcm h ha hb hc)
  | zCdivQ ha hb hc hy => exact none' (C47_cdiv_q h ha hb hc hy)
  | zFdivQ ha hb hc hy => exact none' (C47_fdiv_q h ha hb hc hy)
  | zTdivQ ha hb hc hy => exact none' (C47_tdiv_q h ha hb hc hy)
  | zFdivR ha hb hc hy => exact none' (C47_fdiv_r h ha hb hc hy)
  | zFdivQUi ha hc hu hu0 =>
    exact (C47_fdiv_q_ui h ha hc hu hu0).list fun r m' hh => ⟨by rw [hh.1], hh.2.2⟩
  | zDivexact ha hb hc hy => exact none' (C48_divexact h ha hb hc hy rfl)
  | zDivexactUi ha hc hu hu0 => exact none' (C48_divexact_ui h ha hu hu0 hc rfl)
  | zDivisible ha hb =>
    refine one (.of_wp (impz_divisible_p_spec (ref_refused env) h.r2 ha hb fun _ h' => ⟨?_, h'.state⟩))
    congr
  | zCmp ha hb => exact oneS h (.of_wp (mp_int_compare_spec h.r2 ha hb ⟨rfl, rfl⟩))
  | zCmpabs ha hb => exact oneS h (.of_wp (mp_int_compare_unsigned_spec h.r2 ha hb ⟨rfl, rfl⟩))
  | zCmpSi ha hv1 hv2 =>
    exact one (.of_wp (mp_int_compare_value_spec hv1 (by omega) h.r2 ha fun m' h' => ⟨rfl, h'.state⟩))
  | zSgn ha => exact dstep_sound (.compareZero ha) h
  | zGetUi ha => exact (C48_get_ui h ha).list fun r m' hh => ⟨by rw [hh.1], hh.2⟩
  | zGetSi ha hx => exact one (C48_get_si_partial h ha hx)
  | zGetStr ha hr1 hr2 ht =>
    refine (C75_get_str_partial h ha ⟨hr1, hr2⟩ ht.good ht.2 (by simp)).list fun s m' hh => ?_
    obtain ⟨⟨rest, rfl, -⟩, hs⟩ := hh
    exact ⟨by rw [takeWhile_nz (gmpCase_nz fun c hc => (numeral_ascii hr1 hr2 c hc).2)], hs⟩
  | zGetStrBuf ha hr1 hr2 ht hb =>
    refine (C75_get_str_partial h ha ⟨hr1, hr2⟩ ht.good ht.2 (by rintro l ⟨⟩; exact hb)).list fun s m' hh => ?_
    obtain ⟨⟨rest, rfl, hr⟩, hs⟩ := hh
    exact ⟨by rw [hr _ rfl], hs⟩
  | zSetStr hc hb1 hb2 h0 hA => exact one (C75_set_str_partial h hc ⟨hb1, hb2⟩ h0 hA)
  | zSizeinbaseZero ha => exact (C75_sizeinbase_zero h ha).list fun r m' hh => ⟨by rw [hh.1]; rfl, by rw [hh.2]; exact h⟩
  | zSizeinbasePow2 ha hx hb hk1 hk2 hk3 =>
    subst hb
    exact (C75_sizeinbase_pow2_partial h ha hx ⟨hk1, hk2⟩ hk3).list fun r m' hh => ⟨by rw [hh.1], by rw [hh.2]; exact h⟩
  | zExport ha hx ho he hs1 hs2 hc henc hlow hlen =>
    refine (C49_export_partial (rop := none) h ha hx ho he hs1 hs2 (by simp)).list fun r m' hh => ?_
    obtain ⟨rfl, b, hb, h1, h2, h3, -, h5⟩ := hh
    have e := words_unique h2.1 h3 henc.1 hlow h1 hc
    have h5 := h5 rfl
    rw [e] at h2 h5
    refine ⟨?_, h⟩
    have : b = _ := encodes_unique h2 henc fun p hp => by
      rw [List.getElem?_eq_none (by omega), List.getElem?_eq_none (by omega)]
    rw [hb, e, this]; rfl
  | zExportBuf ha hx ho he hs1 hs2 hc henc hlow hlen hrest =>
    refine (C49_export_partial h ha hx ho he hs1 hs2 ?_).list fun r m' hh => ?_
    · rintro _ ⟨⟩
      rw [← hlen]
      exact words_fit hx hs1 hc henc hlow
    obtain ⟨rfl, b, hb, h1, h2, h3, h4, -⟩ := hh
    have e := words_unique h2.1 h3 henc.1 hlow h1 hc
    obtain ⟨-, h4⟩ := h4 _ rfl
    rw [e] at h2 h4
    refine ⟨?_, h⟩
    have : b = _ := encodes_unique h2 henc fun p hp => (h4 p hp).trans (hrest p hp).symm
    rw [hb, e, this]; rfl
  | zImport hc ho he hs0 hc0 hmax hop => exact none' (C49_import_partial h hc ho he hs0 hc0 hmax hop)
  | qInit hne h1 h2 => exact none' (C74_q_init h hne h1 h2)
  | qClear hc => exact none' (C74_q_clear h hc)
  | qSet ha hc sa => exact none' (C74_q_set h ha hc sa)
  | qMul ha hb hc sa sb => exact none' (C74_q_mul h ha hb hc sa sb)
  | qSetUi hc hu hv h0 => exact none' (C74_q_set_ui h hc hu hv h0)
  | qCanon hc hx hy h0 => exact none' (C74_q_canonicalize_partial h hc hx hy h0)
  | qCmp ha hb => exact one (C74_q_cmp h ha hb)
  | qSgn ha => exact oneS h (C74_q_sgn h ha)
  | @qGetStrBuf s p radix buf ha hr1 hr2 ht1 ht2 hb hc =>
    have hden : |((p.den : Nat) : Int)| = p.den := abs_of_nonneg (by omega)
    refine (C75_q_get_str_partial (str := some buf) h ha ⟨hr1, hr2⟩ ?_ ht1.2 ht2.2 (by rintro l ⟨⟩; exact ⟨hb, hc⟩)
      (by simp)).list fun s m' hh => ?_
    · rcases ht1.good with h1 | h1
      · exact .inl h1
      · rcases ht2.good with h2 | h2
        · exact .inl h2
        · exact .inr ⟨h1, by rwa [hden] at h2⟩
    · obtain ⟨⟨rest, rfl, -⟩, hs⟩ := hh
      suffices hz : ∀ c ∈ gmpText radix.natAbs p, c ≠ 0 by exact ⟨by rw [takeWhile_nz (gmpCase_nz hz)], hs⟩
      intro c hc
      have hn := fun v c (hc : c ∈ numeral radix.natAbs v) => (numeral_ascii hr1 hr2 c hc).2
      unfold gmpText at hc
      split at hc
      · exact hn _ _ hc
      · rcases List.mem_append.1 hc with hc | hc
        · exact hn _ _ hc
        · rcases List.mem_cons.1 hc with rfl | hc
          · norm_num
          · exact hn _ _ hc
  | qSetStr hc hb1 hb2 h0 hA => exact one (C75_q_set_str_partial h hc ⟨hb1, hb2⟩ h0 hA)
  | isPrime ha =>
    refine one ((C42_is_prime h ha).mono fun r m' hh => ⟨?_, hh.2⟩)
    rcases hh.1 with ⟨h1, h2⟩ | ⟨h1, h2⟩
    · rw [if_pos h1]; exact h2
    · rw [if_neg h1]; exact h2
  | findPrime ha hx hw hacc hmin =>
    refine one ((C43_find_prime_partial h ha hx).mono fun r m' hh => ?_)
    obtain ⟨e, w', h1, h2, h3, h4⟩ := hh
    have : w' = _ := le_antisymm (not_lt.1 fun hlt => h3 _ hw hlt hacc) (not_lt.1 fun hlt => hmin _ h1 hlt h2)
    exact ⟨e, by rw [← this]; exact h4⟩
  | findPrimeLow ha hx => exact one (C43_start_below_three h ha hx)
  | @rsa k a b n c x y v w ha hb hn hc hx hv hy h1 =>
    have e : rsaFn k = rsa_rsaep := by fin_cases k <;> rfl
    show Runs env (rsaFn k _ _ _ _ >>= _) m _
    rw [e]
    exact one ((C44_transform h ha hb hn hc hx hv hy h1).mono fun r m' hh => ⟨hh.1, hh.2.1⟩)
  | @rsaRange k a b n c x y v w ha hb hn hc hx =>
    have e : rsaFn k = rsa_rsaep := by fin_cases k <;> rfl
    show Runs env (rsaFn k _ _ _ _ >>= _) m _
    rw [e]
    exact oneS h (.of_wp (s_rsa_transform_spec (ref_refused env) h.r2 ha hb hn hc rfl (fun _ => ⟨rfl, rfl⟩) (fun _ _ _ => ⟨rfl, rfl⟩)
      fun h1 h2 h3 => by omega))
  | rsaMaxLen ha => exact oneS h (C45_max_message_len h ha)
  | @i2osp a x buf X ha hx hb hl hX hv =>
    have hA : (buf.take (binLen x)).length = binLen x := by simp; omega
    have := rsa_i2osp_spec (env := env) (E := Refused env) (z := .var a) (A := buf.take (binLen x)) (B := buf.drop (binLen x)) (len := binLen x)
      (Q := fun r m' => r = (MP_OK, X ++ buf.drop (binLen x)) ∧ m' = m) h.r2 ha hx (by rw [hA]) hA
      (fun Y h1 h2 _ h4 => ⟨by rw [beVal_inj (X := Y) (Y := X) h2 hX (by omega) (by omega)], rfl⟩)
    rw [List.take_append_drop] at this
    exact (Runs.of_wp this).list fun r m' hh => ⟨by rw [hh.1], by rw [hh.2]; exact h⟩
  | i2ospLonger ha hl => exact (C46_longer h ha hl).list fun r m' hh => ⟨by rw [hh.1], by rw [hh.2]; exact h⟩
  | os2ip hc hX h1 h2 => exact dstep_sound (.readBinary hc hX h1 h2) h
  | encode hf h1 h2 => exact (C45_encode hf h1 h2).list fun r m' hh => ⟨by rw [hh.1], by rw [hh.2]; exact h⟩
  | encodeRange h1 h2 h3 => exact (C45_encode_range h1 h2 h3).list fun r m' hh => ⟨by rw [hh.1], by rw [hh.2]; exact h⟩
  | decode hp h1 h2 => exact (C45_decode hp h1 h2).list fun r m' hh => ⟨by rw [hh.1]; rfl, by rw [hh.2]; exact h⟩
  | decodeBad hl hb => exact (C45_malformed_partial hl hb).list fun r m' hh => ⟨by rw [hh.1]; rfl, by rw [hh.2]; exact h⟩

theorem gnstep_sound (hn : GNStep ρ c out ρ') (h : State m ρ) :
    Runs env c.exec m fun o m' => ∃ ρ', GNStep ρ c o ρ' ∧ State m' ρ' := by
  cases hn with
  | zSizeinbase ha hx hb1 hb2 ht hr =>
    refine (C75_sizeinbase_partial h ha hx ⟨hb1, hb2⟩ ht.good ht.2).list fun r m' hh => ⟨ρ, ?_, by rw [hh.2]; exact h⟩
    exact .zSizeinbase ha hx hb1 hb2 ht hh.1

theorem xstep_sound (hs : XStep ρ c out ρ') (h : State m ρ) :
    Runs env c.exec m fun o m' => ∃ ρ', XStep ρ c o ρ' ∧ State m' ρ' := by
  cases hs with
  | lib hs => exact (step_sound hs h).mono fun _ _ ⟨_, h1, h2⟩ => ⟨_, .lib h1, h2⟩
  | rat e hs => subst e; exact (qstep_sound hs h).mono fun _ _ ⟨_, _, h1, h2⟩ => ⟨_, .rat rfl h1, h2⟩
  | det hs => exact (gstep_sound hs h).mono fun _ _ hh => ⟨_, .det (by rw [hh.1]; exact hs), hh.2⟩
  | nondet hs => exact (gnstep_sound hs h).mono fun _ _ ⟨_, h1, h2⟩ => ⟨_, .nondet h1, h2⟩

/-! ### Determinism -/

/-- What `impz_sizeinbase` returns, given how `double` arithmetic rounds. -/
def sizeVal (fl : Rat → Rat) (base v : Int) : Nat :=
  let size := sub64 ((outLen fl base.toNat v + 1 + if v < 0 then 1 else 0) % 18446744073709551616).toNat 1
  if v < 0 then sub64 size 1 else size

theorem sizeinbase_exact {a : Nat} {x base : Int} (h : State m ρ) (ha : ρ a = some x) (hx : x ≠ 0) (hb : 2 ≤ base ∧ base ≤ 36) {Q : Nat → Mem → Prop}
    (hr : Runs env (impz_sizeinbase (.var a) base) m Q) :
    Runs env (impz_sizeinbase (.var a) base) m fun r m' => Q r m' ∧ r = sizeVal env.fl base x := by
  have hw : wp env (fun _ => True) (impz_sizeinbase (.var a) base) (fun r _ => r = sizeVal env.fl base x) m := by
    have eb : intU32 base = base.toNat := by unfold intU32; omega
    unfold impz_sizeinbase
    rw [eb]
    refine wp_bind (mp_int_compare_zero_spec h.r2 ha ?_)
    refine wp_if_neg (by rw [Int.sign_eq_zero_iff_zero]; exact hx) ?_
    refine wp_bind (mp_int_string_len_exact (by omega) (by omega) h.r2 ha ?_)
    by_cases hpos : outLen env.fl base.toNat x + 1 + (if x < 0 then 1 else 0) > 0
    · refine wp_bind (CHECK_spec (wp_pure ⟨by rw [if_pos hpos]; decide, ?_⟩))
      refine wp_bind (mp_int_compare_zero_spec h.r2 ha (wp_pure ?_))
      unfold sizeVal
      simp only [Int.sign_neg_iff]
    · rw [if_neg hpos]
      exact wp_bind (wp_fault (f := .assert) rfl trivial)
  unfold Runs at hr ⊢
  unfold wp at hw
  cases hf : impz_sizeinbase (.var a) base env m with
  | ok r m' => rw [hf] at hr hw; exact ⟨hr, hw⟩
  | fault e => rw [hf] at hr; cases e <;> exact hr

/-- Of every admissible call it is determined what it returns and which values it leaves, given how `double` arithmetic
rounds. -/
theorem xstep_det (hs : XStep ρ c out ρ') : ∃ P : (Rat → Rat) → List Int → (Nat → Option Int) → Prop,
    (∀ fl o o' ρ₁ ρ₂, P fl o ρ₁ → P fl o' ρ₂ → o = o' ∧ ρ₁ = ρ₂) ∧ (∀ fl o ρ₁, P fl o ρ₁ → XStep ρ c o ρ₁) ∧
    ∀ env m, State m ρ → Runs env c.exec m fun o m' => ∃ ρ₁, P env.fl o ρ₁ ∧ State m' ρ₁ := by
  cases hs with
  | lib hs =>
    obtain ⟨P, h1, h2, h3⟩ := step_det hs
    exact ⟨P, h1, fun fl o ρ₁ h => .lib (h2 fl o ρ₁ h), h3⟩
  | rat e hs =>
    subst e
    obtain ⟨P, h1, h2, h3⟩ := qstep_det hs
    refine ⟨fun fl o ρ₁ => ∃ κ₁ ι₁, P fl o κ₁ ι₁ ∧ ρ₁ = flat κ₁ ι₁, ?_, ?_, ?_⟩
    · rintro fl o o' _ _ ⟨κ₁, ι₁, p1, rfl⟩ ⟨κ₂, ι₂, p2, rfl⟩
      obtain ⟨rfl, rfl, rfl⟩ := h1 fl o o' _ _ _ _ p1 p2
      exact ⟨rfl, rfl⟩
    · rintro fl o _ ⟨κ₁, ι₁, p1, rfl⟩
      exact .rat rfl (h2 _ _ _ _ p1)
    · exact fun env m h => (h3 env m h).mono fun o m' ⟨κ₁, ι₁, p1, h'⟩ => ⟨_, ⟨κ₁, ι₁, p1, rfl⟩, h'⟩
  | det hs =>
    refine ⟨fun _ o ρ₁ => o = out ∧ ρ₁ = ρ', fun _ o o' ρ₁ ρ₂ h1 h2 => ⟨h1.1.trans h2.1.symm, h1.2.trans h2.2.symm⟩, ?_, ?_⟩
    · rintro _ o ρ₁ ⟨rfl, rfl⟩; exact .det hs
    · intro env m h
      exact (gstep_sound hs h).mono fun _ _ hh => ⟨_, ⟨hh.1, rfl⟩, hh.2⟩
  | nondet hs =>
    cases hs with
    | @zSizeinbase a x r base ha hx hb1 hb2 ht hr =>
      refine ⟨fun fl o ρ₁ => o = [(sizeVal fl base x : Int)] ∧ ρ₁ = ρ ∧ GNStep ρ (.zSizeinbase a base) o ρ,
        fun _ o o' ρ₁ ρ₂ h1 h2 => ⟨h1.1.trans h2.1.symm, h1.2.1.trans h2.2.1.symm⟩, ?_, ?_⟩
      · rintro _ o ρ₁ ⟨-, rfl, h⟩; exact .nondet h
      · intro env m h
        refine (sizeinbase_exact h ha hx ⟨hb1, hb2⟩ (C75_sizeinbase_partial h ha hx ⟨hb1, hb2⟩ ht.good ht.2)).list fun r m' hh => ?_
        obtain ⟨⟨h1, rfl⟩, h3⟩ := hh
        exact ⟨ρ, ⟨by rw [h3], rfl, .zSizeinbase ha hx hb1 hb2 ht h1⟩, h⟩

theorem xprog_det {env env' : Env} {p : XProg} (hfl : env.fl = env'.fl) (hp : XAdmissible ρ p) :
    ∀ {m₁ m₂ m₁' m₂' : Mem} {o₁ o₂ : List (List Int)},
    State m₁ ρ → State m₂ ρ → p.exec env m₁ = .ok o₁ m₁' → p.exec env' m₂ = .ok o₂ m₂' →
    o₁ = o₂ ∧ ∃ ρ', XLeads ρ p o₁ ρ' ∧ State m₁' ρ' ∧ State m₂' ρ' := by
  induction hp with
  | done =>
    intro m₁ m₂ m₁' m₂' o₁ o₂ h1 h2 r1 r2
    cases r1; cases r2
    exact ⟨rfl, _, .done, h1, h2⟩
  | @call ρ c k hex _ ih =>
    intro m₁ m₂ m₁' m₂' o₁ o₂ h1 h2 r1 r2
    obtain ⟨o, ρ1, hs⟩ := hex
    obtain ⟨P, hfun, hstep, hrun⟩ := xstep_det hs
    obtain ⟨a1, n1, e1, r1⟩ := bind_ok r1
    obtain ⟨a2, n2, e2, r2⟩ := bind_ok r2
    obtain ⟨b1, k1, f1, r1⟩ := bind_ok r1
    obtain ⟨b2, k2, f2, r2⟩ := bind_ok r2
    cases r1; cases r2
    have s1 := hrun env m₁ h1
    have s2 := hrun env' m₂ h2
    unfold Runs at s1 s2
    rw [e1] at s1
    rw [e2] at s2
    obtain ⟨ρ₁, p1, s1⟩ := s1
    obtain ⟨ρ₂, p2, s2⟩ := s2
    rw [← hfl] at p2
    obtain ⟨rfl, rfl⟩ := hfun _ _ _ _ _ p1 p2
    obtain ⟨rfl, ρ', hl, t1, t2⟩ := ih a1 ρ₁ (hstep _ _ _ p1) s1 s2 f1 f2
    exact ⟨rfl, ρ', .call (hstep _ _ _ p1) hl, t1, t2⟩

theorem xprog_sound {p : XProg} (hp : XAdmissible ρ p) : ∀ {m : Mem}, State m ρ →
    Runs env p.exec m fun outs m' => ∃ ρ', XLeads ρ p outs ρ' ∧ State m' ρ' := by
  induction hp with
  | done => intro m h; exact ⟨_, .done, h⟩
  | @call ρ c k hex _ ih =>
    intro m h
    obtain ⟨o, ρ1, hs⟩ := hex
    refine (xstep_sound hs h).seq fun o m1 ⟨ρ1, hs1, h1⟩ => ?_
    exact (ih o ρ1 hs1 h1).list fun outs m' ⟨ρ', hl, h'⟩ => ⟨ρ', .call hs1 hl, h'⟩

theorem xdprog_sound {p : XProg} {outs : List (List Int)} (hp : XDLeads ρ p outs ρ') : ∀ {m : Mem}, State m ρ →
    Runs env p.exec m fun o m' => o = outs ∧ State m' ρ' := by
  induction hp with
  | done => intro m h; exact ⟨rfl, h⟩
  | lib hs _ ih =>
    intro m h
    refine (dstep_sound hs h).seq fun o m1 ⟨e, h1⟩ => ?_
    subst e
    exact (ih h1).list fun outs m' ⟨e, h'⟩ => ⟨by rw [e], h'⟩
  | rat e hs hi _ ih =>
    intro m h
    subst e
    refine Runs.seq (qstep_exact hs hi h) fun o m1 ⟨e, h1⟩ => ?_
    subst e
    exact (ih h1).list fun outs m' ⟨e, h'⟩ => ⟨by rw [e], h'⟩
  | call hs _ ih =>
    intro m h
    refine (gstep_sound hs h).seq fun o m1 ⟨e, h1⟩ => ?_
    subst e
    exact (ih h1).list fun outs m' ⟨e, h'⟩ => ⟨by rw [e], h'⟩

end Imath
