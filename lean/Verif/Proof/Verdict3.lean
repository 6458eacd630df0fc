import Verif.Proof.Verdict2

/-! # The test driver: tests whose result is a number -/

namespace Imath

variable {env : Env} {E : Fault → Prop} {m : Mem} {σ σ0 : Id → Option Int} {x y w v : Int} {d : Drv}

/-- The buffers have the size they are declared with. -/
def Buf (d : Drv) : Prop := d.g_output.length = 2048 ∧ d.g_bin1.length = 2048 ∧ d.g_bin2.length = 2048

/-- What a verdict means for the driver. -/
def VPost (E : Fault → Prop) (σ0 : Id → Option Int) (d : Drv) (Q : Bool × Drv → Mem → Prop) : Verdict → Prop
  | .ok t => ∀ d' m' σ', R2 m' σ' → Inv σ0 σ' → Buf d' → d'.out = d.out ++ t → Q (true, d') m'
  | .error e => ∀ d' m' σ', R2 m' σ' → Inv σ0 σ' → Buf d' → d'.out = d.out → d'.errno = e → Q (false, d') m'
  | .failed msg => ∀ d' m' σ', R2 m' σ' → Inv σ0 σ' → Buf d' → d'.out = d.out → d'.errno < MP_BADARG → 0 ∉ msg →
      (∃ R, d'.g_output = msg ++ 0 :: R) → Q (false, d') m'
  | .crash f => E f
  | .unknown => False

/-- The registers of integers. -/
def intRegs (hE : Ref env E) (σ0 : Id → Option Int) : Regs Id Int env E σ0 where
  r := .var
  H σ z v := σ z = some v
  reg := g_zreg
  rdv := read_int_value
  zero := mp_int_zero
  rd := readValue
  z := 0
  reg_lt i hi := by unfold g_zreg NUM_REGS; rw [if_pos hi]
  reg_ge i hi := by unfold g_zreg NUM_REGS; rw [if_neg (by omega)]
  rdv_spec := by
    intro m σ i s R Q hi h0 hl h hI hQ
    obtain ⟨w, hw⟩ := hI.1 i (by omega)
    have key : ∀ v, ∀ j, j < 16 → j ≠ i → ∀ u, σ (.var j) = some u → upd σ (.var i) (some v) (.var j) = some u := by
      intro v j _ hj u hu
      rw [upd_ne _ _ (by simpa using hj)]; exact hu
    refine read_int_value_spec hE h0 hl h hw rfl ?_ ?_
    · intro hn e v m' he hh
      exact hQ e m' _ hh (hI.upd (by omega) v) (key v) (fun _ => he) fun v hv => by rw [hn] at hv; simp at hv
    · intro v hv m' hh
      refine hQ _ m' _ hh (hI.upd (by omega) v) (key v) (fun hn => by rw [hn] at hv; simp at hv) ?_
      intro v' hv'
      obtain rfl : v = v' := by rw [hv] at hv'; simpa using hv'
      exact ⟨rfl, upd_self ..⟩
  zero_spec := by
    intro m σ i Q hi h hI hQ
    obtain ⟨w, hw⟩ := hI.1 i (by omega)
    refine mp_int_zero_spec h hw fun m' hh => hQ m' _ hh (hI.upd (by omega) 0) ?_ (upd_self ..)
    intro j _ hj u hu
    rw [upd_ne _ _ (by simpa using hj)]; exact hu

theorem withInts_spec {t : Test} {inn out rval : Bool} {ti tq : List Bytes} {k : Parsed Id → M (Bool × Drv)} {Q : Bool × Drv → Mem → Prop}
    {V : List Nat → List Int → List Int → Int → Verdict} (hE : Ref env E) (hd : Buf d)
    (hi : Arrays t.input ti) (ho : Arrays t.output tq) (hti : OkTexts ti) (htq : OkTexts tq)
    (h : R2 m σ) (hI : Inv σ0 σ) (hV : VPost E σ0 d Q (withVals readValue 0 inn out rval ti tq V))
    (hk : ∀ p ss n xs os e m' σ', VPost E σ0 d Q (V ss xs os e) → R2 m' σ' →
      (intRegs hE σ0).Read p ss n xs os e inn out t ti tq σ' → wp env E (k p) Q m') :
    wp env E (withInts t d inn out rval k) Q m := by
  unfold withInts parse_int_values
  refine wp_bind (parseValues_spec (intRegs hE σ0) (V := V) (P := VPost E σ0 d Q) hi ho hti htq h hI hV (fun k => k) ?_ ?_)
  · intro hv p m' σ' k1 k2 k3
    unfold FAIL
    exact wp_if_neg (by simp [k3]) (wp_pure (hv _ m' σ' k1 k2 hd rfl rfl))
  · intro p ss n xs os e m' σ' k1 k2 k3 k4
    exact wp_if_pos k4 (hk p ss n xs os e m' σ' k1 k2 k3)

/-- What an operation under test may change: only registers below `n`. -/
structure RegStep (σ0 : Id → Option Int) (n : Nat) (σ σ' : Id → Option Int) : Prop where
  inv : Inv σ0 σ'
  same : ∀ i, n ≤ i → σ' (.var i) = σ (.var i)

theorem RegStep.refl {n : Nat} (h : Inv σ0 σ) : RegStep σ0 n σ σ := ⟨h, fun _ _ => rfl⟩

theorem RegStep.upd {n i : Nat} {σ' : Id → Option Int} (h : RegStep σ0 n σ σ') (hi : i < n) (hn : n ≤ 16) (v : Int) :
    RegStep σ0 n σ (upd σ' (.var i) (some v)) :=
  ⟨h.inv.upd (by omega) v, fun j hj => by rw [upd_ne _ _ (by simp; omega)]; exact h.same j hj⟩

/-- What the result of an operation under test means for the driver; the results are in `zs`. -/
def OpPost (E : Fault → Prop) (σ0 : Id → Option Int) (n : Nat) (zs : List Id) (σ : Id → Option Int) (Q : Int → Mem → Prop) : OpRes → Prop
  | .done vs => ∀ m' σ', R2 m' σ' → RegStep σ0 n σ σ' → List.Forall₂ (fun z v => σ' z = some v) zs vs → Q MP_OK m'
  | .fails e => ∀ m' σ', R2 m' σ' → RegStep σ0 n σ σ' → Q e m'
  | .stop _ => True
  | .crash f => E f
  | .unknown => False

/-- `x` does what `r` says. -/
def Does (env : Env) (E : Fault → Prop) (σ0 : Id → Option Int) (n : Nat) (zs : List Id) (σ : Id → Option Int) (x : M Int) (m : Mem) (r : OpRes) : Prop :=
  ∀ Q : Int → Mem → Prop, OpPost E σ0 n zs σ Q r → wp env E x Q m

theorem OpPost.put {n i : Nat} {Q : Int → Mem → Prop} {m' : Mem} (h : OpPost E σ0 n [.var i] σ Q (val1 v)) (hI : Inv σ0 σ) (hi : i < n) (hn : n ≤ 16)
    (hh : R2 m' (upd σ (.var i) (some v))) : Q MP_OK m' :=
  h m' _ hh ((RegStep.refl hI).upd hi hn v) (.cons (upd_self ..) .nil)

theorem OpPost.keep {n : Nat} {Q : Int → Mem → Prop} {m' : Mem} {zs : List Id} {e : Int} (h : OpPost E σ0 n zs σ Q (.fails e)) (hI : Inv σ0 σ)
    (hh : R2 m' σ) : Q e m' := h m' _ hh (RegStep.refl hI)

/-- The test failed, and the number is the message. -/
theorem fail_one {z : Id} {Q : Bool × Drv → Mem → Prop} (hE : Ref env E) (hd : Buf d) (h : R2 m σ) (hI : Inv σ0 σ) (hz : σ z = some v)
    (hV : VPost E σ0 d Q (wrong [v])) :
    wp env E (do
      let s ← mp_int_to_string z 10 d.g_output OUTPUT_LIMIT
      FAIL { d with g_output := s.2 } OTHER_ERROR) Q m := by
  unfold wrong joined at hV
  rw [if_neg (by omega)] at hV
  dsimp only at hV
  unfold OUTPUT_LIMIT FAIL
  by_cases hl : 2048 ≤ (numeral 10 v).length
  · rw [if_pos hl] at hV
    exact wp_bind (mp_int_to_string_fault hE hV (by omega) (by omega) (by norm_num) (by rw [hd.1]; push_cast; omega) h hz)
  · rw [if_neg hl, if_pos rfl] at hV
    refine wp_bind (mp_int_to_string_spec hE (by omega) (by omega) (by norm_num) (by rw [hd.1]; push_cast; omega) h hz ?_ ?_)
    · intro m1 h1 _
      refine wp_pure (hV _ m1 σ h1 hI ⟨?_, hd.2⟩ rfl (by show OTHER_ERROR < MP_BADARG; decide) (numeral_zero_notin (by omega) (by omega) v) ⟨_, rfl⟩)
      simp [hd.1]; omega
    · intro m1 s' h1 hl'; push_cast at hl'; omega

theorem expectInt_spec {p : Parsed Id} {z o : Id} {Q : Bool × Drv → Mem → Prop} {u : Int} (hE : Ref env E) (hd : Buf d) (h : R2 m σ) (hI : Inv σ0 σ)
    (hz : σ z = some v) (he : p.expect = MP_OK) (ho : p.outs = [o]) (hu : σ o = some u) (hV : VPost E σ0 d Q (judge MP_OK (val1 v) [u])) :
    wp env E (expectInt d p z) Q m := by
  unfold judge val1 at hV
  dsimp only at hV
  rw [if_neg (by simp)] at hV
  unfold expectInt nth
  refine wp_if_pos he ?_
  rw [ho]
  refine wp_bind (wp_pure (wp_bind (mp_int_compare_spec h hz hu ?_)))
  by_cases hc : v = u
  · rw [if_pos (by rw [hc])] at hV
    exact wp_if_neg (by rw [not_not]; exact cmpZ_eq_zero.2 hc) (wp_pure (hV d m σ h hI hd (by simp)))
  · rw [if_neg (by simpa using hc)] at hV
    exact wp_if_pos (fun k => hc (cmpZ_eq_zero.1 k)) (fail_one hE hd h hI hz hV)

theorem expectInt_other {p : Parsed Id} {z : Id} {Q : Bool × Drv → Mem → Prop} (hd : Buf d) (h : R2 m σ) (hI : Inv σ0 σ)
    (he : p.expect ≠ MP_OK) (hV : VPost E σ0 d Q (.ok [])) : wp env E (expectInt d p z) Q m := by
  unfold expectInt
  exact wp_if_neg he (wp_pure (hV d m σ h hI hd (by simp)))

/-- A test with one result. -/
theorem vcheck_one {x : M Int} {p : Parsed Id} {z : Id} {n : Nat} {Q : Bool × Drv → Mem → Prop} {u e : Int} {r : OpRes} (hE : Ref env E) (hd : Buf d)
    (hI : Inv σ0 σ) (he : p.expect = e) (ho : p.outs = [.var n]) (hu : σ (.var n) = some u)
    (hx : Does env E σ0 n [z] σ x m r) (hne : ∀ c, r = .fails c → c ≠ MP_OK) (hV : VPost E σ0 d Q (judge e r [u])) :
    wp env E (VCHECK d x p.expect (expectInt d p z)) Q m := by
  unfold VCHECK
  unfold judge at hV
  cases r with
  | done vs =>
    refine wp_bind (hx _ ?_)
    intro m' σ' h' hs hf
    dsimp only at hV
    obtain ⟨v, vs', hv, hf', rfl⟩ := List.forall₂_cons_left_iff.1 hf
    cases hf'
    by_cases he0 : e = MP_OK
    · rw [if_neg (by simpa using he0)] at hV
      subst he0
      refine wp_if_neg (by simp [he]) (expectInt_spec hE hd h' hs.inv hv he ho ((hs.same n le_rfl).trans hu) ?_)
      unfold judge val1; dsimp only; rw [if_neg (by simp)]; exact hV
    · rw [if_pos he0] at hV
      exact wp_if_pos (by rw [he]; exact fun k => he0 k.symm) (wp_pure (hV _ m' σ' h' hs.inv hd rfl rfl))
  | fails c =>
    refine wp_bind (hx _ ?_)
    intro m' σ' h' hs
    dsimp only at hV
    by_cases hc : c = e
    · rw [if_pos hc] at hV
      have := hne c rfl
      refine wp_if_neg (by rw [he, not_not]; exact hc) (expectInt_other hd h' hs.inv (by rw [he, ← hc]; exact this) hV)
    · rw [if_neg hc] at hV
      exact wp_if_pos (by rw [he]; exact hc) (wp_pure (hV _ m' σ' h' hs.inv hd rfl rfl))
  | stop c => exact wp_bind (wp_mono (hx (fun _ _ => False) trivial) fun _ _ k => k.elim)
  | crash f => exact wp_bind (hx _ hV)
  | unknown => exact hV.elim

/-- The test with this code does what the reference says. -/
def Tests (env : Env) (E : Fault → Prop) (σ0 : Id → Option Int) (call : Test → Drv → M (Bool × Drv)) (code : String) (ni no : Nat)
    (ref : List (List Nat) → List (List Nat) → Verdict) : Prop :=
  ∀ (t : Test) (d : Drv) (ti tq : List Bytes) (m : Mem) (σ : Id → Option Int) (Q : Bool × Drv → Mem → Prop) (R : Bytes),
    Buf d → Arrays t.input ti → Arrays t.output tq → OkTexts ti → OkTexts tq → R2 m σ → Inv σ0 σ → t.code = txt code ++ 0 :: R →
    ti.length = ni → tq.length = no → VPost E σ0 d Q (ref ti tq) → wp env E (call t d) Q m

/-- Registers below `n` with values. -/
structure Reg (σ : Id → Option Int) (n i : Nat) (x : Int) : Prop where
  lt : i < n
  val : σ (.var i) = some x

section
variable {hE : Ref env E} {p : Parsed Id} {ss : List Nat} {n : Nat} {xs os : List Int} {e : Int} {inn out : Bool} {t : Test} {ti tq : List Bytes}

theorem Regs.Read.le16 (h : (intRegs hE σ0).Read p ss n xs os e inn out t ti tq σ) : n ≤ 16 := by have := h.n16; omega

theorem Regs.Read.one (h : (intRegs hE σ0).Read p ss n xs os e inn out t ti tq σ) (hi : inn = true) (hl : ti.length = 1) :
    ∃ i x, ss = [i] ∧ xs = [x] ∧ p.ins = [.var i] ∧ Reg σ n i x := by
  have h1 := h.len hi
  have h2 := h.slots
  have h3 := h.lt
  have h4 := h.ins
  unfold Regs.Slots at h2
  rw [hl] at h1
  obtain ⟨i, rfl⟩ := List.length_eq_one_iff.1 h1
  obtain _ | ⟨k1, hf⟩ := h2
  cases hf
  exact ⟨i, _, rfl, rfl, h4, h3 i (by simp), k1⟩

theorem Regs.Read.two (h : (intRegs hE σ0).Read p ss n xs os e inn out t ti tq σ) (hi : inn = true) (hl : ti.length = 2) :
    ∃ i j x y, ss = [i, j] ∧ xs = [x, y] ∧ p.ins = [.var i, .var j] ∧ Reg σ n i x ∧ Reg σ n j y := by
  have h1 := h.len hi
  have h2 := h.slots
  have h3 := h.lt
  have h4 := h.ins
  unfold Regs.Slots at h2
  rw [hl] at h1
  obtain ⟨i, j, rfl⟩ := List.length_eq_two.1 h1
  obtain _ | ⟨k1, hf⟩ := h2
  obtain _ | ⟨k2, hf⟩ := hf
  cases hf
  exact ⟨i, j, _, _, rfl, rfl, h4, ⟨h3 i (by simp), k1⟩, ⟨h3 j (by simp), k2⟩⟩

theorem Regs.Read.three (h : (intRegs hE σ0).Read p ss n xs os e inn out t ti tq σ) (hi : inn = true) (hl : ti.length = 3) :
    ∃ i j k x y z, ss = [i, j, k] ∧ xs = [x, y, z] ∧ p.ins = [.var i, .var j, .var k] ∧ Reg σ n i x ∧ Reg σ n j y ∧ Reg σ n k z := by
  have h1 := h.len hi
  have h2 := h.slots
  have h3 := h.lt
  have h4 := h.ins
  unfold Regs.Slots at h2
  rw [hl] at h1
  obtain ⟨i, j, k, rfl⟩ := List.length_eq_three.1 h1
  obtain _ | ⟨k1, hf⟩ := h2
  obtain _ | ⟨k2, hf⟩ := hf
  obtain _ | ⟨k3, hf⟩ := hf
  cases hf
  exact ⟨i, j, k, _, _, _, rfl, rfl, h4, ⟨h3 i (by simp), k1⟩, ⟨h3 j (by simp), k2⟩, ⟨h3 k (by simp), k3⟩⟩

theorem Regs.Read.four (h : (intRegs hE σ0).Read p ss n xs os e inn out t ti tq σ) (hi : inn = true) (hl : ti.length = 4) :
    ∃ i j k l x y z u, ss = [i, j, k, l] ∧ xs = [x, y, z, u] ∧ p.ins = [.var i, .var j, .var k, .var l] ∧ Reg σ n i x ∧ Reg σ n j y ∧
      Reg σ n k z ∧ Reg σ n l u := by
  have h1 := h.len hi
  have h2 := h.slots
  have h3 := h.lt
  have h4 := h.ins
  unfold Regs.Slots at h2
  rw [hl] at h1
  obtain _ | ⟨i, _ | ⟨j, _ | ⟨k, _ | ⟨l, _ | ⟨_, _⟩⟩⟩⟩⟩ := ss <;> simp at h1
  obtain _ | ⟨k1, hf⟩ := h2
  obtain _ | ⟨k2, hf⟩ := hf
  obtain _ | ⟨k3, hf⟩ := hf
  obtain _ | ⟨k4, hf⟩ := hf
  cases hf
  exact ⟨i, j, k, l, _, _, _, _, rfl, rfl, h4, ⟨h3 i (by simp), k1⟩, ⟨h3 j (by simp), k2⟩, ⟨h3 k (by simp), k3⟩, ⟨h3 l (by simp), k4⟩⟩

theorem Regs.Read.out1 (h : (intRegs hE σ0).Read p ss n xs os e inn out t ti tq σ) (hi : out = true) (hl : tq.length = 1) :
    ∃ u, os = [u] ∧ p.outs = [.var n] ∧ σ (.var n) = some u := by
  have h1 := h.outs hi
  have h2 := h.oslots hi
  have h3 := h.olen
  unfold Regs.Slots at h2
  rw [hl] at h3
  obtain ⟨u, rfl⟩ := List.length_eq_one_iff.1 h3
  obtain ⟨_, _, k1, hf, hh⟩ := List.forall₂_cons_left_iff.1 h2
  simp only [List.cons.injEq] at hh
  obtain ⟨rfl, rfl⟩ := hh
  exact ⟨u, rfl, h1, k1⟩

end

theorem test1_spec {op : Id → Id → M Int} {f : Int → OpRes} {code : String} (hE : Ref env E)
    (hop : ∀ {m σ n i j x w}, R2 m σ → Inv σ0 σ → Reg σ n i x → Reg σ n j w → n ≤ 16 → Does env E σ0 n [.var j] σ (op (.var i) (.var j)) m (f x))
    (hne : ∀ x c, f x = .fails c → c ≠ MP_OK) : Tests env E σ0 (test1 op) code 2 1 (numTest (op1 f)) := by
  intro t d ti tq m σ Q R hd hi ho hti htq h hI hcode li lo hV
  unfold test1 nth
  refine withInts_spec hE hd hi ho hti htq h hI hV fun p ss n xs os e m' σ' hV h' hr => ?_
  obtain ⟨i, j, x, w, rfl, rfl, hp, hx, hw⟩ := hr.two rfl li
  obtain ⟨u, rfl, hpo, hu⟩ := hr.out1 rfl lo
  rw [hp]
  refine wp_bind (wp_pure (wp_bind (wp_pure ?_)))
  exact vcheck_one hE hd hr.inv hr.expect hpo hu (hop h' hr.inv hx hw hr.le16) (hne x) hV

theorem test2_spec {op : Id → Id → Id → M Int} {f : List Nat → List Int → OpRes} {code : String} (hE : Ref env E)
    (hop : ∀ {m σ n i j k x y w}, R2 m σ → Inv σ0 σ → Reg σ n i x → Reg σ n j y → Reg σ n k w → n ≤ 16 →
      Does env E σ0 n [.var k] σ (op (.var i) (.var j) (.var k)) m (f [i, j, k] [x, y, w]))
    (hne : ∀ ss xs c, f ss xs = .fails c → c ≠ MP_OK) : Tests env E σ0 (test2 op) code 3 1 (numTest f) := by
  intro t d ti tq m σ Q R hd hi ho hti htq h hI hcode li lo hV
  unfold test2 nth
  refine withInts_spec hE hd hi ho hti htq h hI hV fun p ss n xs os e m' σ' hV h' hr => ?_
  obtain ⟨i, j, k, x, y, w, rfl, rfl, hp, hx, hy, hw⟩ := hr.three rfl li
  obtain ⟨u, rfl, hpo, hu⟩ := hr.out1 rfl lo
  rw [hp]
  refine wp_bind (wp_pure (wp_bind (wp_pure (wp_bind (wp_pure ?_)))))
  exact vcheck_one hE hd hr.inv hr.expect hpo hu (hop h' hr.inv hx hy hw hr.le16) (hne _ _) hV

/-- A number as an operand. -/
theorem checkLong {b : Id} {k : Int → M (Bool × Drv)} {e : Int} {os : List Int} {r : OpRes} {Q : Bool × Drv → Mem → Prop} (hd : Buf d) (h : R2 m σ)
    (hI : Inv σ0 σ) (hb : σ b = some y) (hV : VPost E σ0 d Q (judge e (asLong y r) os))
    (hk : ∀ m', R2 m' σ → SMALL_MIN < y → y ≤ SMALL_MAX → VPost E σ0 d Q (judge e r os) → wp env E (k y) Q m') :
    wp env E (CHECKV d (mp_int_to_int b) k) Q m := by
  unfold CHECKV
  unfold asLong at hV
  by_cases h0 : y = -2 ^ 63
  · rw [if_pos h0] at hV
    exact wp_bind (mp_int_to_int_fault hV h (by rw [hb, h0]; rfl))
  rw [if_neg h0] at hV
  refine wp_bind (mp_int_to_int_spec h hb (by intro hh; apply h0; rw [hh]; norm_num) ?_ ?_)
  · intro hh m1 h1
    rw [if_pos (by rcases hh with hh | hh <;> [left; right] <;> norm_num <;> omega)] at hV
    exact wp_if_pos (by decide) (wp_pure (hV _ m1 σ h1 hI hd rfl rfl))
  · intro k1 k2 m1 h1
    rw [if_neg (by norm_num; omega)] at hV
    exact wp_if_neg (by simp) (hk m1 h1 k1 k2 hV)

theorem test2v_spec {op : Id → Int → Id → M Int} {f : Int → Int → OpRes} {code : String} (hE : Ref env E)
    (hop : ∀ {m σ n i k x y w}, R2 m σ → Inv σ0 σ → Reg σ n i x → Reg σ n k w → n ≤ 16 → SMALL_MIN < y → y ≤ SMALL_MAX →
      Does env E σ0 n [.var k] σ (op (.var i) y (.var k)) m (f x y))
    (hne : ∀ x y c, f x y = .fails c → c ≠ MP_OK) :
    Tests env E σ0 (test2v op) code 3 1 (numTest (op2 fun x y => asLong y (f x y))) := by
  intro t d ti tq m σ Q R hd hi ho hti htq h hI hcode li lo hV
  unfold test2v nth
  refine withInts_spec hE hd hi ho hti htq h hI hV fun p ss n xs os e m' σ' hV h' hr => ?_
  obtain ⟨i, j, k, x, y, w, rfl, rfl, hp, hx, hy, hw⟩ := hr.three rfl li
  obtain ⟨u, rfl, hpo, hu⟩ := hr.out1 rfl lo
  rw [hp]
  refine wp_bind (wp_pure (wp_bind (wp_pure (wp_bind (wp_pure ?_)))))
  refine checkLong hd h' hr.inv hy.val hV fun m1 h1 k1 k2 hV => ?_
  exact vcheck_one hE hd hr.inv hr.expect hpo hu (hop h1 hr.inv hx hw hr.le16 k1 k2) (hne _ _) hV

theorem does1 {n i : Nat} {x : M Int} (hI : Inv σ0 σ) (hi : i < n) (hn : n ≤ 16)
    (h : ∀ Q : Int → Mem → Prop, (∀ m', R2 m' (upd σ (.var i) (some v)) → Q MP_OK m') → wp env E x Q m) :
    Does env E σ0 n [.var i] σ x m (val1 v) := fun Q hQ => h Q fun _ hh => OpPost.put hQ hI hi hn hh

end Imath
