import Verif.Proof.Bridge

/-!
# Concrete executions

For a list of integers `memOf l` is a memory in which variable `n` holds the `n`-th integer.  `outcome`
runs a modelled function there.  Results of `outcome` on concrete arguments are computed by the
kernel (`decide +kernel`); they serve as counterexamples and as tests of the model, never as proofs
of a general statement.
-/

namespace Imath

/-- The digits of `n`, least significant first (at most the given number of them). -/
def digitsOf : Nat → Nat → List Nat
  | 0, _ => []
  | f + 1, n => if n < 4294967296 then [n] else n % 4294967296 :: digitsOf f (n / 4294967296)

/-- A memory in which variable `n` holds the `n`-th element of the list. -/
def memOf (l : List Int) : Mem where
  dig := fun
    | .heap n => (l[n]?).map fun v => digitsOf 100 v.natAbs
    | .single (.var _) => some [0]
    | _ => none
  int := fun
    | .var n => match l[n]? with
      | some v => some ⟨some ⟨.heap n, 0⟩, (digitsOf 100 v.natAbs).length, (digitsOf 100 v.natAbs).length, decide (v < 0)⟩
      | none => some ⟨none, 0, 0, false⟩
    | _ => none
  next := l.length
  defPrec := 8
  mulThr := 32

/-- An allocator that grants every request up to the limit; `double` arithmetic is exact. -/
def env0 : Env where
  grant := fun _ n => decide (n ≤ MAXD)
  junk := fun _ _ => 0
  fl := id
  fl_err := by
    intro x hx
    have : 0 ≤ x / 9007199254740992 := by positivity
    simp only [id]; constructor <;> linarith
  grant_le := by intro j n h; simpa using h

/-- The value a variable appears to have (without checking that it is canonical). -/
def valueAt (m : Mem) (n : Nat) : Option Int := do
  let Z ← m.int (.var n)
  let p ← Z.digits
  let l ← m.dig p.base
  some ((if Z.neg then -1 else 1) * (Nat.ofDigits 4294967296 (l.take Z.used) : Nat))

/-- The members `used`, `sign == MP_NEG` and the digits of a variable. -/
def rawAt (m : Mem) (n : Nat) : Option (Nat × Bool × List Nat) := do
  let Z ← m.int (.var n)
  let p ← Z.digits
  let l ← m.dig p.base
  some (Z.used, Z.neg, l.take Z.used)

/-- The result of a function, and the values of the variables afterwards; `none` is a fault. -/
def outcome {α : Type} (f : M α) (l : List Int) : Option (α × List (Option Int)) :=
  match f env0 (memOf l) with
  | .ok r m => some (r, (List.range l.length).map (valueAt m))
  | .fault _ => none

/-- The blocks of the heap that are in use after a function has returned, and those that are used by variables. -/
def blocksAfter {α : Type} (f : M α) (l : List Int) : Option (List Nat × List (Option Base)) :=
  match f env0 (memOf l) with
  | .ok _ m => some ((List.range m.next).filter fun k => (m.dig (.heap k)).isSome,
      (List.range l.length).map fun n => ((m.int (.var n)).bind Mpz.digits).map Ptr.base)
  | .fault _ => none

/-- The fault in which a function ends. -/
def faultOf {α : Type} (f : M α) (l : List Int) : Option Fault :=
  match f env0 (memOf l) with
  | .ok _ _ => none
  | .fault e => some e

theorem digitsOf_spec (f n : Nat) (h : n < (2 ^ 32) ^ (f + 1)) :
    (∀ d ∈ digitsOf (f + 1) n, d < 2 ^ 32) ∧ 1 ≤ (digitsOf (f + 1) n).length ∧ (digitsOf (f + 1) n).length ≤ f + 1 ∧
    Nat.ofDigits (2 ^ 32) (digitsOf (f + 1) n) = n ∧ ((digitsOf (f + 1) n)[(digitsOf (f + 1) n).length - 1]? = some 0 → n = 0) := by
  induction f generalizing n with
  | zero =>
    have : n < 4294967296 := by simpa using h
    simp only [digitsOf, this, if_true]
    simp [Nat.ofDigits_singleton]
    exact this
  | succ f ih =>
    rw [digitsOf]
    split
    · next hn => simp [Nat.ofDigits_singleton]; exact hn
    · next hn =>
      have hlt : n / 4294967296 < (2 ^ 32) ^ (f + 1) := by
        rw [Nat.div_lt_iff_lt_mul (by norm_num)]
        rw [Nat.pow_succ] at h; norm_num at h ⊢; exact h
      obtain ⟨h1, h2, h3, h4, h5⟩ := ih (n / 4294967296) hlt
      refine ⟨?_, by simp, by simp; omega, ?_, ?_⟩
      · intro d hd
        rcases List.mem_cons.1 hd with rfl | hd
        · exact Nat.mod_lt _ (by norm_num)
        · exact h1 d hd
      · rw [Nat.ofDigits_cons, h4]; exact Nat.mod_add_div n 4294967296
      · rw [List.length_cons, Nat.add_sub_cancel]
        obtain ⟨k, hk⟩ : ∃ k, (digitsOf (f + 1) (n / 4294967296)).length = k + 1 := ⟨_, (Nat.sub_add_cancel h2).symm⟩
        rw [hk, List.getElem?_cons_succ]
        rw [hk, Nat.add_sub_cancel] at h5
        intro h0
        have := h5 h0
        have hd : 1 ≤ n / 4294967296 := (Nat.one_le_div_iff (by norm_num)).2 (by omega)
        omega

/-- `memOf l` is a memory as the theorems require it. -/
theorem memOf_state (l : List Int) (h : ∀ v ∈ l, v.natAbs < (2 ^ 32) ^ 100) : State (memOf l) (fun n => l[n]?) := by
  have mem : ∀ {n : Nat} {v : Int}, l[n]? = some v → v ∈ l := fun hv => List.mem_of_getElem? hv
  have int : ∀ {n : Nat} {v : Int}, l[n]? = some v → (memOf l).int (.var n) =
      some ⟨some ⟨.heap n, 0⟩, (digitsOf 100 v.natAbs).length, (digitsOf 100 v.natAbs).length, decide (v < 0)⟩ := by
    intro n v hv; simp only [memOf, hv]
  refine ⟨?_, ?_, ?_, ?_, ?_, ?_, ⟨by simp [memOf], by simp [memOf]⟩, by simp [memOf]⟩
  · intro n v hv
    obtain ⟨h1, h2, h3, h4, h5⟩ := digitsOf_spec 99 v.natAbs (h v (mem hv))
    refine ⟨_, _, digitsOf 100 v.natAbs, int hv, rfl, rfl, by simp only [memOf, hv, Option.map_some], rfl, Nat.le_trans h3 (by norm_num), h1, h2, Nat.le_refl _, ?_, ?_, ?_⟩
    · intro hl h0
      have hz := h5 h0
      rw [hz] at hl
      simp [digitsOf] at hl
    · simp only [List.take_length, h4, decide_eq_true_eq]
      split <;> omega
    · simp only [decide_eq_true_eq]; omega
  · intro n v Z p hv hZ hp
    rw [int hv] at hZ; cases hZ; cases hp
    exact .inr ⟨n, rfl⟩
  · intro n v Z p n' v' Z' p' hv hZ hp hv' hZ' hp' hb
    rw [int hv] at hZ; cases hZ; cases hp
    rw [int hv'] at hZ'; cases hZ'; cases hp'
    simpa using hb
  · intro k d hd
    simp only [memOf, Option.map_eq_some_iff] at hd
    obtain ⟨v, hv, _⟩ := hd
    exact ⟨k, v, _, _, hv, int hv, rfl, rfl⟩
  · intro n
    refine ⟨?_, 0, rfl⟩
    cases hv : l[n]? with
    | none => exact ⟨⟨none, 0, 0, false⟩, by simp only [memOf, hv]⟩
    | some v => exact ⟨_, int hv⟩
  · intro k hk
    have : l[k]? = none := List.getElem?_eq_none hk
    simp [memOf, this]


end Imath
