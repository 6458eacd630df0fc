import Verif.Proof.Verdict1
import Mathlib.Data.List.Range

/-! # The test driver: inputs and outputs -/

namespace Imath

variable {env : Env} {E : Fault → Prop} {m : Mem} {σ σ0 : Id → Option Int} {x y w v : Int}

/-- The registers exist, and nothing else has changed. -/
def Inv (σ0 σ : Id → Option Int) : Prop :=
  (∀ i, i < 48 → ∃ v, σ (.var i) = some v) ∧ ∀ z, (∀ i, i < 48 → z ≠ .var i) → σ z = σ0 z

theorem Inv.upd {i : Nat} (h : Inv σ0 σ) (hi : i < 48) (v : Int) : Inv σ0 (upd σ (.var i) (some v)) := by
  refine ⟨fun j hj => ?_, fun z hz => ?_⟩
  · by_cases e : j = i
    · subst e; exact ⟨v, upd_self ..⟩
    · rw [upd_ne _ _ (by simpa using e)]; exact h.1 j hj
  · rw [upd_ne _ _ (hz i hi)]; exact h.2 z hz

/-- Texts that can be read. -/
def OkTexts (ts : List Bytes) : Prop := ∀ t ∈ ts, 0 ∉ t ∧ t.length ≤ 800000000

/-- How registers of one kind are used: `r i` is the `i`-th one, and `H σ (r i) v` says that it has the value `v`. -/
structure Regs (α β : Type) (env : Env) (E : Fault → Prop) (σ0 : Id → Option Int) where
  r : Nat → α
  H : (Id → Option Int) → α → β → Prop
  reg : Nat → M α
  rdv : α → Bytes → M Int
  zero : α → M Unit
  rd : List Nat → Option β
  z : β
  reg_lt : ∀ i, i < 16 → reg i = pure (r i)
  reg_ge : ∀ i, 16 ≤ i → reg i = fail .ub
  rdv_spec : ∀ {m σ i s R} {Q : Int → Mem → Prop}, i < 16 → 0 ∉ s → s.length ≤ 800000000 → R2 m σ → Inv σ0 σ →
    (∀ e m' σ', R2 m' σ' → Inv σ0 σ' → (∀ j, j < 16 → j ≠ i → ∀ v, H σ (r j) v → H σ' (r j) v) →
      (rd s = none → e ≠ MP_OK) → (∀ v, rd s = some v → e = MP_OK ∧ H σ' (r i) v) → Q e m') →
    wp env E (rdv (r i) (s ++ 0 :: R)) Q m
  zero_spec : ∀ {m σ i} {Q : Unit → Mem → Prop}, i < 16 → R2 m σ → Inv σ0 σ →
    (∀ m' σ', R2 m' σ' → Inv σ0 σ' → (∀ j, j < 16 → j ≠ i → ∀ v, H σ (r j) v → H σ' (r j) v) → H σ' (r i) z → Q () m') →
    wp env E (zero (r i)) Q m

variable {α β : Type} (K : Regs α β env E σ0)

/-- The registers have these values. -/
def Regs.Vals (K : Regs α β env E σ0) (σ : Id → Option Int) (vs : List β) : Prop := ∀ i v, vs[i]? = some v → K.H σ (K.r i) v

theorem Regs.Vals.keep {K : Regs α β env E σ0} {σ σ' : Id → Option Int} {vs : List β} {n : Nat} (h : K.Vals σ vs) (hn : vs.length ≤ n) (hn' : n < 16)
    (hk : ∀ j, j < 16 → j ≠ n → ∀ v, K.H σ (K.r j) v → K.H σ' (K.r j) v) : K.Vals σ' vs := by
  intro i v hi
  have : i < vs.length := (List.getElem?_eq_some_iff.1 hi).1
  exact hk i (by omega) (by omega) v (h i v hi)

theorem Regs.Vals.snoc {K : Regs α β env E σ0} {σ σ' : Id → Option Int} {vs : List β} {u : β} (h : K.Vals σ vs) (hn : vs.length < 16)
    (hk : ∀ j, j < 16 → j ≠ vs.length → ∀ v, K.H σ (K.r j) v → K.H σ' (K.r j) v) (hu : K.H σ' (K.r vs.length) u) :
    K.Vals σ' (vs ++ [u]) := by
  intro i v hi
  by_cases hl : i < vs.length
  · rw [List.getElem?_append_left hl] at hi
    exact hk i (by omega) (by omega) v (h i v hi)
  · rw [List.getElem?_append_right (by omega)] at hi
    have h0 : i - vs.length = 0 := by
      by_contra h0
      rw [List.getElem?_eq_none (by simp; omega)] at hi
      simp at hi
    rw [h0] at hi
    obtain rfl : u = v := by simpa using hi
    rw [show i = vs.length by omega]; exact hu

theorem readIns_ok {rd : List Nat → Option β} : ∀ (ts : List Bytes) (ss : List Nat) (vs : List β) {ss' : List Nat} {vs' : List β},
    readIns rd ts ss vs = .ok (ss', vs') → vs.length ≤ 16 → (∀ s ∈ ss, s < vs.length) →
    ss'.length = ss.length + ts.length ∧ vs'.length ≤ 16 ∧ vs'.length ≤ vs.length + ts.length ∧ ∀ s ∈ ss', s < vs'.length
  | [], ss, vs, ss', vs', h, h1, h2 => by
    simp only [readIns, Parse.ok.injEq, Prod.mk.injEq] at h
    obtain ⟨rfl, rfl⟩ := h
    exact ⟨rfl, h1, le_rfl, h2⟩
  | t :: ts, ss, vs, ss', vs', h, h1, h2 => by
    unfold readIns at h
    split at h
    · dsimp only at h
      split at h
      · simp at h
      split at h
      · simp at h
      split at h
      · simp at h
      · rename_i s hs
        have hm : s ∈ ss := List.mem_of_getElem? hs
        obtain ⟨k1, k2, k3, k4⟩ := readIns_ok ts (ss ++ [s]) vs h h1 (by
          intro u hu
          rcases List.mem_append.1 hu with hu | hu
          · exact h2 u hu
          · obtain rfl : u = s := by simpa using hu
            exact h2 u hm)
        simp only [List.length_append, List.length_cons, List.length_nil] at k1 k3 ⊢
        exact ⟨by omega, k2, by omega, k4⟩
    · split at h
      · simp at h
      split at h
      · simp at h
      · rename_i v hv
        obtain ⟨k1, k2, k3, k4⟩ := readIns_ok ts (ss ++ [vs.length]) (vs ++ [v]) h (by simp; omega) (by
          intro u hu
          rcases List.mem_append.1 hu with hu | hu
          · have := h2 u hu; simp; omega
          · obtain rfl : u = vs.length := by simpa using hu
            simp)
        simp only [List.length_append, List.length_cons, List.length_nil] at k1 k3 ⊢
        exact ⟨by omega, k2, by omega, k4⟩

theorem readOuts_ok {rd : List Nat → Option β} {zero : β} {out rval : Bool} : ∀ (ts : List Bytes) (pos : Nat) (os : List β) (e : Int)
    {os' : List β} {e' : Int}, readOuts rd zero out rval ts pos os e = .ok (os', e') → pos ≤ 16 →
    os'.length = os.length + ts.length ∧ pos + ts.length ≤ 16
  | [], pos, os, e, os', e', h, hp => by
    simp only [readOuts, Parse.ok.injEq, Prod.mk.injEq] at h
    obtain ⟨rfl, rfl⟩ := h
    exact ⟨rfl, hp⟩
  | t :: ts, pos, os, e, os', e', h, hp => by
    have fin : ∀ u e1, readOuts rd zero out rval ts (pos + 1) (os ++ [u]) e1 = .ok (os', e') → ¬ 16 ≤ pos →
        os'.length = os.length + (t :: ts).length ∧ pos + (t :: ts).length ≤ 16 := by
      intro u e1 hh hp
      obtain ⟨k1, k2⟩ := readOuts_ok ts (pos + 1) (os ++ [u]) e1 hh (by omega)
      simp only [List.length_append, List.length_cons, List.length_nil] at k1 k2 ⊢
      omega
    unfold readOuts at h
    split at h
    · simp at h
    rename_i hp
    split at h
    · exact fin _ _ h hp
    · split at h
      · simp at h
      split at h
      · exact fin _ _ h hp
      · simp at h
    · split at h
      · split at h
        · simp at h
        · exact fin _ _ h hp
      · exact fin _ _ h hp

theorem readIns_ref {rd : List Nat → Option β} {t k : Bytes} {ts : List Bytes} {ss : List Nat} {vs : List β} (h : trimmed t = 61 :: k) :
    readIns rd (t :: ts) ss vs = if 2 ^ 31 ≤ (scanInt 10 k).1.natAbs then .crash
      else if (scanInt 10 k).1.natAbs = 0 then .bad
      else match ss[(scanInt 10 k).1.natAbs - 1]? with
        | none => .bad
        | some s => readIns rd ts (ss ++ [s]) vs := by
  rw [readIns, h]; rfl

theorem readIns_val {rd : List Nat → Option β} {t u : Bytes} {ts : List Bytes} {ss : List Nat} {vs : List β} (h : trimmed t = u)
    (hu : ¬ ∃ k, u = 61 :: k) :
    readIns rd (t :: ts) ss vs = if 16 ≤ vs.length then .crash
      else match rd u with
        | none => .bad
        | some v => readIns rd ts (ss ++ [vs.length]) (vs ++ [v]) := by
  rw [readIns, h]
  split
  · rename_i k; exact absurd ⟨k, rfl⟩ hu
  · rfl

theorem readOuts_q {rd : List Nat → Option β} {zero : β} {out rval : Bool} {t : Bytes} {ts : List Bytes} {pos : Nat} {os : List β} {e : Int}
    (hp : ¬ 16 ≤ pos) (h : trimmed t = [63]) :
    readOuts rd zero out rval (t :: ts) pos os e = readOuts rd zero out rval ts (pos + 1) (os ++ [zero]) e := by
  rw [readOuts, if_neg hp, h]; rfl

theorem readOuts_code {rd : List Nat → Option β} {zero : β} {out rval : Bool} {t k : Bytes} {ts : List Bytes} {pos : Nat} {os : List β} {e : Int}
    (hp : ¬ 16 ≤ pos) (h : trimmed t = 36 :: k) :
    readOuts rd zero out rval (t :: ts) pos os e = match codeOf k with
      | none => .bad
      | some e' => if rval then readOuts rd zero out rval ts (pos + 1) (os ++ [zero]) e' else .bad := by
  rw [readOuts, if_neg hp, h]; rfl

theorem readOuts_val {rd : List Nat → Option β} {zero : β} {out rval : Bool} {t u : Bytes} {ts : List Bytes} {pos : Nat} {os : List β} {e : Int}
    (hp : ¬ 16 ≤ pos) (h : trimmed t = u) (hq : u ≠ [63]) (hd : ¬ ∃ k, u = 36 :: k) :
    readOuts rd zero out rval (t :: ts) pos os e = if out then
        match rd u with
        | none => .bad
        | some v => readOuts rd zero out rval ts (pos + 1) (os ++ [v]) e
      else readOuts rd zero out rval ts (pos + 1) (os ++ [zero]) e := by
  rw [readOuts, if_neg hp, h]
  split
  · exact absurd rfl hq
  · rename_i k; exact absurd ⟨k, rfl⟩ hd
  · rfl

theorem parseIns_spec : ∀ (ts ls : List Bytes) (ss : List Nat) (vs : List β) {m : Mem} {σ : Id → Option Int}
    {Q : Bool × List α × Nat × List Bytes → Mem → Prop}, Arrays ls ts → OkTexts ts → R2 m σ → Inv σ0 σ → K.Vals σ vs → vs.length ≤ 16 →
    (∀ s ∈ ss, s < vs.length) →
    (readIns K.rd ts ss vs = .crash → E .ub) →
    (readIns K.rd ts ss vs = .bad → ∀ p m' σ', R2 m' σ' → Inv σ0 σ' → p.1 = false → Q p m') →
    (∀ ss' vs', readIns K.rd ts ss vs = .ok (ss', vs') → ∀ ls' m' σ', R2 m' σ' → Inv σ0 σ' → K.Vals σ' vs' → Arrays ls' (ts.map trimmed) →
      Q (true, ss'.map K.r, vs'.length, ls') m') →
    wp env E (parseIns K.reg K.rdv ls (ss.map K.r) vs.length) Q m
  | [], ls, ss, vs, m, σ, Q, ha, ht, h, hi, hv, hl, hs, hc, hb, hQ => by
    cases ha
    exact wp_pure (hQ ss vs rfl [] m σ h hi hv .nil)
  | t :: ts, ls, ss, vs, m, σ, Q, ha, ht, h, hi, hv, hl, hs, hc, hb, hQ => by
    cases ha with
    | cons h1 ha =>
      obtain ⟨R, rfl⟩ := h1
      unfold parseIns
      have ht0 := ht t (by simp)
      have hts : OkTexts ts := fun u hu => ht u (by simp [hu])
      refine wp_bind (trim_line_spec ht0.1 fun R' _ => ?_)
      have hz := zero_notMem_trimmed ht0.1
      have hlen := trimmed_length_le t
      have hmap : (t :: ts).map trimmed = trimmed t :: ts.map trimmed := rfl
      rw [hmap] at hQ
      obtain ⟨u, eu⟩ : ∃ u, trimmed t = u := ⟨_, rfl⟩
      rw [eu] at hQ hz hlen ⊢
      by_cases hu : ∃ k, u = 61 :: k
      · obtain ⟨k, rfl⟩ := hu
        rw [readIns_ref eu] at hc hb
        simp only [readIns_ref eu] at hQ
        refine wp_bind (wp_bget (x := 61) rfl (wp_if_pos rfl ?_))
        refine wp_bind (backRef_spec 61 (fun e => hz (by simp [e])) (fun hn => hc (if_pos hn)) fun hn => ?_)
        rw [if_neg (by omega)] at hc hb
        by_cases hn0 : (scanInt 10 k).1.natAbs = 0
        · rw [if_pos hn0] at hb
          exact wp_if_pos (by omega) (wp_pure (hb rfl _ m σ h hi rfl))
        rw [if_neg hn0] at hc hb
        cases hg : ss[(scanInt 10 k).1.natAbs - 1]? with
        | none =>
          rw [hg] at hb
          have := List.getElem?_eq_none_iff.1 hg
          exact wp_if_pos (by rw [List.length_map]; omega) (wp_pure (hb rfl _ m σ h hi rfl))
        | some s =>
          rw [hg] at hc hb
          dsimp only at hc hb
          have hlt := (List.getElem?_eq_some_iff.1 hg).1
          refine wp_if_neg (by rw [List.length_map]; omega) ?_
          have e : (ss.map K.r)[(((scanInt 10 k).1.natAbs : Int) - 1).toNat]? = some (K.r s) := by
            rw [show (((scanInt 10 k).1.natAbs : Int) - 1).toNat = (scanInt 10 k).1.natAbs - 1 by omega, List.getElem?_map, hg]; rfl
          rw [e]
          show wp env E (parseIns K.reg K.rdv _ (ss.map K.r ++ [K.r s]) _ >>= _) _ _
          rw [show ss.map K.r ++ [K.r s] = (ss ++ [s]).map K.r by simp]
          refine wp_bind (parseIns_spec ts _ (ss ++ [s]) vs ha hts h hi hv hl ?_ hc ?_ ?_)
          · intro x hx
            rcases List.mem_append.1 hx with hx | hx
            · exact hs x hx
            · obtain rfl : x = s := by simpa using hx
              exact hs x (List.mem_of_getElem? hg)
          · intro hh p m' σ' k1 k2 k3
            exact wp_pure (hb hh _ m' σ' k1 k2 k3)
          · intro ss' vs' hh ls' m' σ' k1 k2 k3 k4
            refine wp_pure (hQ ss' vs' ?_ _ m' σ' k1 k2 k3 (.cons ⟨_, rfl⟩ k4))
            rw [if_neg (by omega), if_neg hn0, hg]
            exact hh
      · rw [readIns_val eu hu] at hc hb
        simp only [readIns_val eu hu] at hQ
        obtain ⟨c, hcg, hcne⟩ : ∃ c, (u ++ 0 :: R')[0]? = some c ∧ c ≠ 61 := by
          cases u with
          | nil => exact ⟨0, rfl, by omega⟩
          | cons a b => exact ⟨a, rfl, fun e => hu ⟨b, by rw [e]⟩⟩
        refine wp_bind (wp_bget hcg (wp_if_neg hcne ?_))
        by_cases h16 : 16 ≤ vs.length
        · rw [if_pos h16] at hc
          rw [K.reg_ge _ h16]
          exact wp_bind (wp_fault (f := .ub) rfl (hc rfl))
        rw [if_neg h16] at hc hb
        simp only [if_neg h16] at hQ
        rw [K.reg_lt _ (by omega)]
        refine wp_bind (wp_pure ?_)
        refine wp_bind (K.rdv_spec (by omega) hz (by omega) h hi fun e m1 σ1 h1 hi1 hk1 hn hsome => ?_)
        cases hrd : K.rd u with
        | none =>
          rw [hrd] at hb
          exact wp_if_pos (hn hrd) (wp_pure (hb rfl _ m1 σ1 h1 hi1 rfl))
        | some v =>
          rw [hrd] at hb hc
          simp only [hrd] at hQ
          dsimp only at hb hc
          obtain ⟨he, hH⟩ := hsome v hrd
          refine wp_if_neg (by simpa using he) ?_
          rw [show ss.map K.r ++ [K.r vs.length] = (ss ++ [vs.length]).map K.r by simp]
          rw [show vs.length + 1 = (vs ++ [v]).length by simp]
          refine wp_bind (parseIns_spec ts _ (ss ++ [vs.length]) (vs ++ [v]) ha hts h1 hi1 (hv.snoc (by omega) hk1 hH) (by simp; omega) ?_ hc ?_ ?_)
          · intro x hx
            rcases List.mem_append.1 hx with hx | hx
            · have := hs x hx; simp; omega
            · obtain rfl : x = vs.length := by simpa using hx
              simp
          · intro hh p m' σ' k1 k2 k3
            exact wp_pure (hb hh _ m' σ' k1 k2 k3)
          · intro ss' vs' hh ls' m' σ' k1 k2 k3 k4
            exact wp_pure (hQ ss' vs' hh _ m' σ' k1 k2 k3 (.cons ⟨_, rfl⟩ k4))

theorem parseOuts_spec (vs : List β) (out rval : Bool) : ∀ (ts ls : List Bytes) (os : List β) (e : Int) {m : Mem} {σ : Id → Option Int}
    {Q : Bool × List α × Int × List Bytes → Mem → Prop}, Arrays ls ts → OkTexts ts → R2 m σ → Inv σ0 σ → K.Vals σ vs →
    (out = true → K.Vals σ (vs ++ os)) →
    (readOuts K.rd K.z out rval ts (vs.length + os.length) os e = .crash → E .ub) →
    (readOuts K.rd K.z out rval ts (vs.length + os.length) os e = .bad → ∀ p m' σ', R2 m' σ' → Inv σ0 σ' → p.1 = false → Q p m') →
    (∀ os' e', readOuts K.rd K.z out rval ts (vs.length + os.length) os e = .ok (os', e') → ∀ ls' m' σ', R2 m' σ' → Inv σ0 σ' → K.Vals σ' vs →
      (out = true → K.Vals σ' (vs ++ os')) → Arrays ls' (ts.map trimmed) →
      Q (true, if out then (List.range' vs.length os'.length).map K.r else [], e', ls') m') →
    wp env E (parseOuts K.reg K.rdv K.zero out rval ls (if out then (List.range' vs.length os.length).map K.r else []) (vs.length + os.length) e) Q m
  | [], ls, os, e, m, σ, Q, ha, ht, h, hi, hv, ho, hc, hb, hQ => by
    cases ha
    exact wp_pure (hQ os e rfl [] m σ h hi hv ho .nil)
  | t :: ts, ls, os, e, m, σ, Q, ha, ht, h, hi, hv, ho, hc, hb, hQ => by
    cases ha with
    | @cons _ _ lr _ h1 ha =>
      obtain ⟨R, rfl⟩ := h1
      unfold parseOuts
      have ht0 := ht t (by simp)
      have hts : OkTexts ts := fun u hu => ht u (by simp [hu])
      have hz := zero_notMem_trimmed ht0.1
      have hlen := trimmed_length_le t
      have hmap : (t :: ts).map trimmed = trimmed t :: ts.map trimmed := rfl
      rw [hmap] at hQ
      by_cases h16 : 16 ≤ vs.length + os.length
      · rw [readOuts, if_pos h16] at hc
        rw [K.reg_ge _ h16]
        exact wp_bind (wp_fault (f := .ub) rfl (hc rfl))
      rw [K.reg_lt _ (by omega)]
      refine wp_bind (wp_pure ?_)
      refine wp_bind (trim_line_spec ht0.1 fun R' _ => ?_)
      obtain ⟨u, eu⟩ : ∃ u, trimmed t = u := ⟨_, rfl⟩
      rw [eu] at hQ hz hlen ⊢
      refine wp_bind (cstr_spec hz ?_)
      -- what is left to do after this one
      have next : ∀ (v : β) (e1 : Int) (m1 : Mem) (σ1 : Id → Option Int), R2 m1 σ1 → Inv σ0 σ1 → K.Vals σ1 vs →
          (out = true → K.Vals σ1 (vs ++ (os ++ [v]))) →
          (readOuts K.rd K.z out rval ts (vs.length + os.length + 1) (os ++ [v]) e1 = .crash → E .ub) →
          (readOuts K.rd K.z out rval ts (vs.length + os.length + 1) (os ++ [v]) e1 = .bad →
            ∀ p m' σ', R2 m' σ' → Inv σ0 σ' → p.1 = false → Q p m') →
          (∀ os' e', readOuts K.rd K.z out rval ts (vs.length + os.length + 1) (os ++ [v]) e1 = .ok (os', e') →
            ∀ ls' m' σ', R2 m' σ' → Inv σ0 σ' → K.Vals σ' vs → (out = true → K.Vals σ' (vs ++ os')) → Arrays ls' (u :: ts.map trimmed) →
            Q (true, if out then (List.range' vs.length os'.length).map K.r else [], e', ls') m') →
          wp env E (do
            let r ← parseOuts K.reg K.rdv K.zero out rval lr (if out = true then (if out = true then (List.range' vs.length os.length).map K.r else []) ++
              [K.r (vs.length + os.length)] else if out = true then (List.range' vs.length os.length).map K.r else []) (vs.length + os.length + 1) e1
            pure (r.1, r.2.1, r.2.2.1, (u ++ 0 :: R') :: r.2.2.2)) Q m1 := by
        intro v e1 m1 σ1 k1 k2 k3 k4 k5 k6 k7
        have ee : (if out = true then (if out = true then (List.range' vs.length os.length).map K.r else []) ++
              [K.r (vs.length + os.length)] else if out = true then (List.range' vs.length os.length).map K.r else []) =
            if out = true then (List.range' vs.length (os ++ [v]).length).map K.r else [] := by
          by_cases ho : out = true
          · simp only [if_pos ho]
            rw [List.length_append, List.length_singleton, List.range'_1_concat]; simp
          · simp only [if_neg ho]
        rw [ee]
        have el : vs.length + os.length + 1 = vs.length + (os ++ [v]).length := by simp; omega
        rw [el] at k5 k6 k7 ⊢
        refine wp_bind (parseOuts_spec vs out rval ts _ (os ++ [v]) e1 ha hts k1 k2 k3 k4 k5 ?_ ?_)
        · intro hh p m' σ' j1 j2 j3
          exact wp_pure (k6 hh _ m' σ' j1 j2 j3)
        · intro os' e' hh ls' m' σ' j1 j2 j3 j4 j5
          exact wp_pure (k7 os' e' hh _ m' σ' j1 j2 j3 j4 (.cons ⟨_, rfl⟩ j5))
      -- a new value in the register
      have keep : ∀ (v : β) (σ1 : Id → Option Int), (∀ j, j < 16 → j ≠ vs.length + os.length → ∀ v, K.H σ (K.r j) v → K.H σ1 (K.r j) v) →
          (out = true → K.H σ1 (K.r (vs.length + os.length)) v) → K.Vals σ1 vs ∧ (out = true → K.Vals σ1 (vs ++ (os ++ [v]))) := by
        intro v σ1 hk hH
        refine ⟨hv.keep (by omega) (by omega) hk, fun hout => ?_⟩
        rw [← List.append_assoc]
        have := ho hout
        refine this.snoc (by simp; omega) (by rw [List.length_append]; exact hk) ?_
        rw [List.length_append]; exact hH hout
      by_cases hq : u = [63]
      · subst hq
        rw [readOuts_q h16 eu] at hc hb
        simp only [readOuts_q h16 eu] at hQ
        refine wp_bind (wp_bget (x := 63) rfl (wp_if_pos rfl ?_))
        refine wp_bind (K.zero_spec (by omega) h hi fun m1 σ1 h1 hi1 hk1 hH => ?_)
        obtain ⟨k1, k2⟩ := keep K.z σ1 hk1 fun _ => hH
        exact next K.z e m1 σ1 h1 hi1 k1 k2 hc hb hQ
      by_cases hd : ∃ k, u = 36 :: k
      · obtain ⟨k, rfl⟩ := hd
        rw [readOuts_code h16 eu] at hc hb
        simp only [readOuts_code h16 eu] at hQ
        refine wp_bind (wp_bget (x := 36) rfl (wp_if_neg hq (wp_if_pos rfl ?_)))
        refine wp_bind (parse_result_code_spec 36 (fun e => hz (by simp [e])) ?_)
        cases hk : codeOf k with
        | none =>
          rw [hk] at hb
          exact wp_pure (hb rfl _ m σ h hi rfl)
        | some e' =>
          rw [hk] at hb hc
          simp only [hk] at hQ
          dsimp only at hb hc
          show wp env E (if rval = false then _ else _) _ _
          by_cases hr : rval = true
          · rw [if_pos hr] at hb hc
            simp only [if_pos hr] at hQ
            refine wp_if_neg (by simp [hr]) ?_
            refine wp_bind (K.zero_spec (by omega) h hi fun m1 σ1 h1 hi1 hk1 hH => ?_)
            obtain ⟨k1, k2⟩ := keep K.z σ1 hk1 fun _ => hH
            exact next K.z e' m1 σ1 h1 hi1 k1 k2 hc hb hQ
          · rw [if_neg hr] at hb
            exact wp_if_pos (by simpa using hr) (wp_pure (hb rfl _ m σ h hi rfl))
      · rw [readOuts_val h16 eu hq hd] at hc hb
        simp only [readOuts_val h16 eu hq hd] at hQ
        obtain ⟨c, hcg, hcne⟩ : ∃ c, (u ++ 0 :: R')[0]? = some c ∧ c ≠ 36 := by
          cases u with
          | nil => exact ⟨0, rfl, by omega⟩
          | cons a b => exact ⟨a, rfl, fun e => hd ⟨b, by rw [e]⟩⟩
        refine wp_bind (wp_bget hcg (wp_if_neg hq (wp_if_neg hcne ?_)))
        by_cases ho1 : out = true
        · rw [if_pos ho1] at hc hb
          simp only [if_pos ho1] at hQ
          refine wp_bind (wp_cif (fun _ => K.rdv_spec (by omega) hz (by omega) h hi fun e1 m1 σ1 h1 hi1 hk1 hn hsome => ?_) fun k => absurd ho1 k)
          cases hrd : K.rd u with
          | none =>
            rw [hrd] at hb
            exact wp_if_pos (hn hrd) (wp_pure (hb rfl _ m1 σ1 h1 hi1 rfl))
          | some v =>
            rw [hrd] at hb hc
            simp only [hrd] at hQ
            dsimp only at hb hc
            obtain ⟨he, hH⟩ := hsome v hrd
            refine wp_if_neg (by simpa using he) ?_
            obtain ⟨k1, k2⟩ := keep v σ1 hk1 fun _ => hH
            exact next v e m1 σ1 h1 hi1 k1 k2 hc hb (by simpa only [if_pos ho1] using hQ)
        · rw [if_neg ho1] at hc hb
          simp only [if_neg ho1] at hQ
          refine wp_bind (wp_cif (fun k => absurd k ho1) fun _ => wp_pure (wp_if_neg (by simp) ?_))
          obtain ⟨k1, k2⟩ := keep K.z σ (fun j _ _ v hh => hh) fun k => absurd k ho1
          exact next K.z e m σ h hi k1 k2 hc hb (by simpa only [if_neg ho1] using hQ)

/-- The slots of the inputs have these values. -/
def Regs.Slots (K : Regs α β env E σ0) (σ : Id → Option Int) (ss : List Nat) (xs : List β) : Prop :=
  List.Forall₂ (fun s x => K.H σ (K.r s) x) ss xs

/-- What is known when inputs and outputs have been read. -/
structure Regs.Read (K : Regs α β env E σ0) (p : Parsed α) (ss : List Nat) (n : Nat) (xs os : List β) (e : Int) (inn out : Bool)
    (t : Test) (ti tq : List Bytes) (σ : Id → Option Int) : Prop where
  inv : Inv σ0 σ
  ins : p.ins = ss.map K.r
  len : inn = true → ss.length = ti.length
  lt : ∀ s ∈ ss, s < n
  nle : n ≤ ti.length
  nin : inn = false → n = 0
  n16 : n + tq.length ≤ 16
  slots : K.Slots σ ss xs
  expect : p.expect = e
  outs : out = true → p.outs = (List.range' n os.length).map K.r
  oslots : out = true → K.Slots σ (List.range' n os.length) os
  olen : os.length = tq.length
  code : p.t.code = t.code
  line : p.t.line = t.line
  input : Arrays p.t.input (if inn then ti.map trimmed else ti)
  output : Arrays p.t.output (tq.map trimmed)

theorem parseValues_spec {t : Test} {inn out rval : Bool} {ti tq : List Bytes} {Q : Parsed α → Mem → Prop} {V : List Nat → List β → List β → Int → Verdict}
    {P : Verdict → Prop} (hi : Arrays t.input ti) (ho : Arrays t.output tq) (hti : OkTexts ti) (hto : OkTexts tq)
    (h : R2 m σ) (hI : Inv σ0 σ) (hV : P (withVals K.rd K.z inn out rval ti tq V))
    (hc : P (.crash .ub) → E .ub)
    (hb : P (.error MP_BADARG) → ∀ p m' σ', R2 m' σ' → Inv σ0 σ' → p.ok = false → Q p m')
    (hQ : ∀ p ss n xs os e m' σ', P (V ss xs os e) → R2 m' σ' → K.Read p ss n xs os e inn out t ti tq σ' → p.ok = true → Q p m') :
    wp env E (parseValues K.reg K.rdv K.zero t inn out rval) Q m := by
  unfold parseValues
  unfold withVals at hV
  have part2 : ∀ (ss : List Nat) (vs : List β) ls' m1 σ1, (inn = true → ss.length = ti.length) → (∀ s ∈ ss, s < vs.length) → vs.length ≤ ti.length →
      (inn = false → vs.length = 0) → vs.length ≤ 16 →
      P (match readOuts K.rd K.z out rval tq vs.length [] MP_OK with
        | .bad => .error MP_BADARG
        | .crash => .crash .ub
        | .ok (os, e) => V ss (ss.map fun s => vs.getD s K.z) os e) → R2 m1 σ1 → Inv σ0 σ1 → K.Vals σ1 vs →
      Arrays ls' (if inn then ti.map trimmed else ti) →
      wp env E (do
        let q ← parseOuts K.reg K.rdv K.zero out rval t.output [] vs.length MP_OK
        pure (⟨q.1, ss.map K.r, q.2.1, q.2.2.1, { t with input := ls', output := q.2.2.2 }⟩ : Parsed α)) Q m1 := by
    intro ss vs ls' m1 σ1 k1 k2 k3 kn k16 k4 k5 k6 k7 k8
    have := parseOuts_spec K vs out rval tq t.output [] MP_OK (m := m1) (σ := σ1)
      (Q := fun q m' => wp env E (pure (⟨q.1, ss.map K.r, q.2.1, q.2.2.1, { t with input := ls', output := q.2.2.2 }⟩ : Parsed α)) Q m')
      ho hto k5 k6 k7 (fun _ => by simpa using k7) ?_ ?_ ?_
    · refine wp_bind ?_
      simpa using this
    · intro hh
      rw [List.length_nil, Nat.add_zero] at hh
      rw [hh] at k4
      exact hc k4
    · intro hh p m' σ' j1 j2 j3
      rw [List.length_nil, Nat.add_zero] at hh
      rw [hh] at k4
      exact wp_pure (hb k4 _ m' σ' j1 j2 j3)
    · intro os' e' hh lo m' σ' j1 j2 j3 j4 j5
      rw [List.length_nil, Nat.add_zero] at hh
      rw [hh] at k4
      dsimp only at k4
      obtain ⟨l1, l2⟩ := readOuts_ok tq _ _ _ hh k16
      refine wp_pure (hQ _ ss vs.length _ os' e' m' σ' k4 j1 ⟨j2, rfl, k1, k2, k3, kn, by simpa using l2, ?_, rfl, ?_, ?_, by simpa using l1, rfl, rfl, k8, j5⟩ rfl)
      · unfold Regs.Slots
        rw [List.forall₂_map_right_iff, List.forall₂_same]
        intro s hs
        have hlt := k2 s hs
        refine j3 s _ ?_
        rw [List.getD_eq_getElem?_getD, List.getElem?_eq_getElem hlt]; rfl
      · intro ho; simp only [if_pos ho]
      · intro ho
        unfold Regs.Slots
        refine List.forall₂_iff_get.2 ⟨by simp, fun i g1 g2 => ?_⟩
        simp only [List.get_eq_getElem, List.getElem_range', Nat.one_mul]
        refine j4 ho _ _ ?_
        rw [List.getElem?_append_right (by omega)]
        simp
  by_cases hin : inn = true
  · rw [if_pos hin] at hV
    refine wp_bind (wp_cif (fun _ => ?_) fun k => absurd hin k)
    refine parseIns_spec K ti t.input [] [] hi hti h hI (fun i v hh => by simp at hh) (by simp) (by simp) ?_ ?_ ?_
    · intro hh; rw [hh] at hV; exact hc hV
    · intro hh p m' σ' j1 j2 j3
      rw [hh] at hV
      exact wp_if_pos j3 (wp_pure (hb hV _ m' σ' j1 j2 rfl))
    · intro ss' vs' hh ls' m' σ' j1 j2 j3 j4
      rw [hh] at hV
      obtain ⟨l1, l2, l3, l4⟩ := readIns_ok ti [] [] hh (by simp) (by simp)
      refine wp_if_neg (by simp) ?_
      exact part2 ss' vs' ls' m' σ' (fun _ => by simpa using l1) l4 (by simpa using l3) (fun k => by rw [hin] at k; simp at k) l2 hV j1 j2 j3 (by rw [if_pos hin]; exact j4)
  · rw [if_neg hin] at hV
    refine wp_bind (wp_cif (fun k => absurd k hin) fun _ => wp_pure (wp_if_neg (by simp) ?_))
    exact part2 [] [] t.input m σ (fun k => absurd k hin) (by simp) (by simp) (fun _ => rfl) (by simp) hV h hI (fun i v hh => by simp at hh) (by rw [if_neg hin]; exact hi)

end Imath
