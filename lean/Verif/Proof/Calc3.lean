import Verif.Proof.Calc2
import Verif.Proof.Overrun
import Verif.Proof.ConvBin2
import Verif.Proof.Keygen
import Verif.Proof.Examples
import Verif.Props.RatLen

/-! # The commands of the calculator: factorial and output -/

namespace Imath

variable {env : Env} {E : Fault → Prop} {m : Mem} {s : Id → Option Cell} {σ σ0 σ' : Id → Option Int} {a b c : Id} {x y w v : Int}
  {S K : List (Id × Int)} {V : List (Bytes × Id × Int)} {sp sp' : Calc} {Q : Int × Calc → Mem → Prop}
  {L : Lib} {r : Nat}

/-! ### Room for text -/

theorem room_facts (env : Env) (hr2 : 2 ≤ r) (hr : r ≤ 36) (hs : Nat.size v.natAbs ≤ 2147483584) :
    ((numeral r v).length : Int) ≤ (libOf env).room r v ∧
    (LenOk r v.natAbs → ((numeral r v).length : Int) + 1 ≤ (libOf env).room r v) ∧
    (0 < v → ((libOf env).room r v - 1) * 1000000000 < (Nat.size v.natAbs * s_log2.getD r 0 + 1000000000 : Nat)) := by
  have hv : v.natAbs < (2 ^ 32) ^ MAXD := by
    rw [← Nat.pow_mul]
    exact Nat.size_le.1 hs
  obtain ⟨m, hm⟩ := exists_state (put (fun _ => none) 0 v) 1 (fun n hn => by simp [put]; omega) (fun n u hu => by
    unfold put at hu
    split at hu
    · cases hu; exact hv
    · simp at hu)
  have h2 := hm.r2
  have hz : lift (put (fun _ => none) 0 v) (.var 0) = some v := by simp [lift, put]
  have e1 := mp_int_string_len_exact (env := env) (E := fun _ => False) (Q := fun o _ => o = (libOf env).room r v) hr2 hr h2 hz rfl
  have e2 := mp_int_string_len_spec (env := env) (E := fun _ => False) (Q := fun o _ => ((numeral r v).length : Int) ≤ o ∧
      (LenOk r v.natAbs → ((numeral r v).length : Int) + 1 ≤ o) ∧
      (0 < v → (o - 1) * 1000000000 < (Nat.size v.natAbs * s_log2.getD r 0 + 1000000000 : Nat))) hr2 hr h2 hz
    fun o k1 k2 k3 => ⟨k1, k2, k3⟩
  unfold wp at e1 e2
  cases hh : mp_int_string_len (.var 0) r env m with
  | ok o m' =>
    rw [hh] at e1 e2
    dsimp only at e1 e2
    rw [← e1]
    exact e2
  | fault f => rw [hh] at e1; exact e1.elim

theorem libOf_sound (env : Env) : (libOf env).Sound where
  bez := bezOf_bezout
  room r v hr2 hr hs := (room_facts env hr2 hr hs).1
  fits r v hr2 hr hs hx := .inr (by
    have h1 := (room_facts env hr2 hr hs).2.1 (len_ok ⟨hr2, hr⟩ hs (hx.imp (fun h => by simpa [goodRadix] using h) id))
    omega)

/-! ### Binary output -/

theorem byte_digits {X : Bytes} (hb : Byte X) : X = (List.range X.length).map fun i => beVal X / 256 ^ (X.length - 1 - i) % 256 := by
  induction X using List.reverseRecOn with
  | nil => rfl
  | append_singleton X x ih =>
    have hx : x < 256 := hb x (by simp)
    have ih := ih fun b hb' => hb b (by simp [hb'])
    rw [List.length_append, List.length_singleton, List.range_succ, List.map_append, beVal_append_single]
    congr 1
    · conv_lhs => rw [ih]
      refine List.map_congr_left fun i hi => ?_
      have hi := List.mem_range.1 hi
      rw [show X.length + 1 - 1 - i = (X.length - 1 - i) + 1 by omega, Nat.pow_succ', ← Nat.div_div_eq_div_mul]
      rw [show (256 * beVal X + x) / 256 = beVal X by omega]
    · simp; omega

theorem twosBytes_eq {X : Bytes} (hb : Byte X) (hl : X.length = binLen v) (hv : twosVal X = v) : X = twosBytes v := by
  conv_lhs => rw [byte_digits hb]
  unfold twosBytes
  rw [hl]
  refine List.map_congr_left fun i hi => ?_
  have hi := List.mem_range.1 hi
  obtain ⟨k, hk⟩ : ∃ k : Int, (beVal X : Int) = v + k * 256 ^ binLen v := by
    unfold twosVal at hv
    rw [hl] at hv
    split at hv
    · exact ⟨1, by omega⟩
    · exact ⟨0, by omega⟩
  have hp : (256 : Int) ^ binLen v = 256 ^ (binLen v - 1 - i) * (256 * 256 ^ i) := by
    rw [← pow_succ', ← pow_add]; congr 1; omega
  have h0 : (256 : Int) ^ (binLen v - 1 - i) ≠ 0 := pow_ne_zero _ (by norm_num)
  have : ((beVal X / 256 ^ (binLen v - 1 - i) % 256 : Nat) : Int) = (v / 256 ^ (binLen v - 1 - i)) % 256 := by
    push_cast
    rw [hk, hp, show v + k * (256 ^ (binLen v - 1 - i) * (256 * 256 ^ i)) = v + 256 ^ (binLen v - 1 - i) * (256 * (k * 256 ^ i)) by ring,
      Int.add_mul_ediv_left _ _ h0, Int.add_mul_emod_self_left]
  rw [← this, Int.toNat_natCast]

theorem hexLoop_spec {Q : Bytes → Mem → Prop} {X R P : Bytes} {x : Nat} {out : Bytes} (hX : P ++ x :: X = R)
    (hQ : Q (out ++ List.intercalate [46] ((x :: X).map hex2) ++ [10]) m) (T : Bytes) : wp env E (hexLoop (R ++ T) X.length P.length out) Q m := by
  induction X generalizing P x out with
  | nil =>
    unfold hexLoop
    refine wp_bind (wp_bget (x := x) (by rw [← hX]; simp) (wp_pure ?_))
    have e : fmt02x x = hex2 x := rfl
    rw [e]
    simpa [List.intercalate] using hQ
  | cons y X ih =>
    unfold hexLoop
    refine wp_bind (wp_bget (x := x) (by rw [← hX]; simp) ?_)
    have := ih (P := P ++ [x]) (x := y) (out := out ++ fmt02x x ++ [46]) (by rw [← hX]; simp) ?_
    · simpa using this
    · have e : fmt02x x = hex2 x := rfl
      rw [e]
      simpa [List.intercalate] using hQ

/-! ### Values -/

theorem print_value_spec {Q : Bytes → Mem → Prop} (hE : Ref env E) (hr : r = 0 ∨ (2 ≤ r ∧ r ≤ 36)) (h : R2 m σ) (ha : σ a = some x)
    (hu : ¬ Fits (libOf env) r x → E .ub) (hQ : Fits (libOf env) r x → ∀ m', R2 m' σ → Q (line r x) m') :
    wp env E (print_value r a) Q m := by
  unfold print_value
  refine wp_ite (fun h0 => ?_) fun h0 => ?_
  · subst h0
    refine wp_bind (mp_int_binary_len_spec h ha ?_)
    refine wp_bind (mallocB_spec hE h fun buf m1 hl h1 => ?_)
    rw [Int.toNat_natCast] at hl
    refine wp_bind (mp_int_to_binary_spec (by omega) h1 ha (by rw [hl]; simp) (fun X _ l1 l2 l3 => ?_) fun X l1 => absurd l1 (by omega))
    have e := twosBytes_eq l2 (by rw [l1]; rfl) l3
    rcases X with _ | ⟨z, X⟩
    · simp at l1
    · have := hexLoop_spec (env := env) (E := E) (m := m1) (Q := Q) (P := []) (x := z) (X := X) (out := []) rfl ?_ (buf.drop (z :: X).length)
      · rw [List.length_cons] at l1
        rw [show (((Nat.size x.natAbs / 8 + 1 : Nat) : Int) - 1).toNat = X.length by omega]
        exact this
      · have := hQ (.inl rfl) m1 h1
        rw [e]
        simpa [line] using this
  · have hr := hr.resolve_left h0
    refine wp_bind (mp_int_string_len_exact hr.1 hr.2 h ha ?_)
    rw [show outLen env.fl r x + 1 + (if x < 0 then 1 else 0) = (libOf env).room r x from rfl]
    have f := room_facts env hr.1 hr.2 (h.size_le ha)
    have n0 : 1 ≤ (numeral r x).length := by
      have := numeralN_pos r x.natAbs hr.1
      unfold numeral; rw [List.length_append]; omega
    refine wp_bind (mallocB_spec hE h fun buf m1 hl h1 => ?_)
    by_cases hf : Fits (libOf env) r x
    · have hf' := hf.resolve_left h0
      refine wp_bind (mp_int_to_string_spec hE hr.1 hr.2 (by omega) (by rw [hl]; omega) h1 ha (fun m2 h2 _ => ?_) fun _ _ _ hlt => absurd hlt (by omega))
      refine wp_bind (cstr_spec (numeral_zero_notin hr.1 hr.2 x) (wp_pure ?_))
      have := hQ hf m2 h2
      rwa [line, if_neg h0] at this
    · have hf' : (libOf env).room r x ≤ (numeral r x).length := not_lt.1 fun e => hf (.inr e)
      have n2 : 2 ≤ (numeral r x).length := by
        by_contra hc
        have hx : |x| < 36 := by
          have : (numeralN r x.natAbs).length ≤ 1 := by
            have : (numeralN r x.natAbs).length ≤ (numeral r x).length := by unfold numeral; rw [List.length_append]; omega
            omega
          unfold numeralN at this
          split at this
          · next h0 => rw [Int.natAbs_eq_zero.1 h0]; simp
          · rw [List.length_reverse, List.length_map, Nat.digits_length_le_iff (by omega)] at this
            rw [pow_one] at this; rw [Int.abs_eq_natAbs]; omega
        have h5 := f.2.1 (len_ok hr (h.size_le ha) (.inr (lt_trans hx (by decide +kernel))))
        omega
      refine wp_bind (mp_int_to_string_fault hE (hu hf) hr.1 hr.2 (by omega) (by rw [hl]; omega) h1 ha)

theorem cf_pprint_spec (hE : Ref env E) (h : R2 m σ) (g : CR σ0 ((a, x) :: S) V sp σ)
    (hQ : ActOK E σ0 sp Q (Cmd.act (libOf env) .show (absA ((a, x) :: S) V sp))) : wp env E (cf_pprint sp) Q m := by
  unfold cf_pprint
  have e : Cmd.act (libOf env) .show (absA ((a, x) :: S) V sp) = if Fits (libOf env) sp.radix x then
      .ok MP_OK { absA ((a, x) :: S) V sp with stack := S.map Prod.snd } (line sp.radix x) else .crash .ub := rfl
  rw [e] at hQ
  refine wp_bind (elt_spec g rfl (wp_bind (print_value_spec hE g.radix h g.get0 (fun hf => ?_) fun hf m1 h1 => ?_)))
  · rw [if_neg hf] at hQ; exact hQ
  · rw [if_pos hf] at hQ
    have g1 : CR σ0 ((a, x) :: S) V { sp with out := sp.out ++ line sp.radix x } σ := ⟨g.elts, g.mem, g.radix, g.buf, g.len, g.own⟩
    exact wp_bind (popped_spec h1 g1 fun m2 h2 => wp_pure (hQ.fin h2 g1.pop rfl rfl rfl))

theorem cf_print_spec (hE : Ref env E) (h : R2 m σ) (g : CR σ0 ((a, x) :: S) V sp σ)
    (hQ : ActOK E σ0 sp Q (Cmd.act (libOf env) .peek (absA ((a, x) :: S) V sp))) : wp env E (cf_print sp) Q m := by
  unfold cf_print
  have e : Cmd.act (libOf env) .peek (absA ((a, x) :: S) V sp) = if Fits (libOf env) sp.radix x then
      .ok MP_OK (absA ((a, x) :: S) V sp) (line sp.radix x) else .crash .ub := rfl
  rw [e] at hQ
  refine wp_bind (elt_spec g rfl (wp_bind (print_value_spec hE g.radix h g.get0 (fun hf => ?_) fun hf m1 h1 => ?_)))
  · rw [if_neg hf] at hQ; exact hQ
  · rw [if_pos hf] at hQ
    have g1 : CR σ0 ((a, x) :: S) V { sp with out := sp.out ++ line sp.radix x } σ := ⟨g.elts, g.mem, g.radix, g.buf, g.len, g.own⟩
    exact wp_pure (hQ.fin h1 g1 rfl rfl rfl)

theorem fmt2d_eq (n : Nat) : fmt2d n = width2 n := by
  unfold fmt2d width2
  congr 1
  have h1 := numeralN_pos 10 n (by norm_num)
  split
  · next h =>
    have : (numeralN 10 n).length ≤ 1 := by
      unfold numeralN
      split
      · simp
      · rw [List.length_reverse, List.length_map, Nat.digits_length_le_iff (by norm_num)]; omega
    rw [show 2 - (numeralN 10 n).length = 1 by omega]; rfl
  · next h =>
    have : ¬ (numeralN 10 n).length ≤ 1 := by
      unfold numeralN
      rw [if_neg (by omega), List.length_reverse, List.length_map, Nat.digits_length_le_iff (by norm_num)]; omega
    rw [show 2 - (numeralN 10 n).length = 0 by omega]; rfl

theorem pstackLoop_spec {Q : Bytes → Mem → Prop} (hE : Ref env E) (hr : r = 0 ∨ (2 ≤ r ∧ r ≤ 36)) {S : List (Id × Int)} {ix : Nat} (h : R2 m σ)
    (hv : ∀ p ∈ S, σ p.1 = some p.2)
    (hu : ¬ (∀ p ∈ S, Fits (libOf env) r p.2) → E .ub)
    (hQ : (∀ p ∈ S, Fits (libOf env) r p.2) → ∀ m', R2 m' σ →
      Q (((S.map Prod.snd).zipIdx ix).map fun p => width2 p.2 ++ [58, 32] ++ line r p.1).flatten m') :
    wp env E (pstackLoop r (S.map Prod.fst) ix) Q m := by
  induction S generalizing ix m Q with
  | nil => exact wp_pure (hQ (by simp) m h)
  | cons p S ih =>
    simp only [List.map_cons]
    unfold pstackLoop
    refine wp_bind (print_value_spec hE hr h (hv p (by simp)) (fun hf => hu fun hh => hf (hh p (by simp))) fun hf m1 h1 => ?_)
    refine wp_bind (ih (ix := ix + 1) h1 (fun q hq => hv q (by simp [hq])) (fun hn => hu fun hh => hn fun q hq => hh q (by simp [hq])) fun hh m2 h2 => wp_pure ?_)
    rw [fmt2d_eq]
    have := hQ (by intro q hq; rcases List.mem_cons.1 hq with rfl | hq; exacts [hf, hh q hq]) m2 h2
    simpa [List.zipIdx_cons] using this

theorem cf_pstack_spec (hE : Ref env E) (h : R2 m σ) (g : CR σ0 S V sp σ)
    (hQ : ActOK E σ0 sp Q (Cmd.act (libOf env) .list (absA S V sp))) : wp env E (cf_pstack sp) Q m := by
  unfold cf_pstack
  have e : Cmd.act (libOf env) .list (absA S V sp) = if ∀ x ∈ S.map Prod.snd, Fits (libOf env) sp.radix x then
      .ok MP_OK (absA S V sp) (stackText sp.radix (S.map Prod.snd)) else .crash .ub := by simp only [Cmd.act, absA]; congr
  have fin : ∀ t m', stackText sp.radix (S.map Prod.snd) = t → R2 m' σ → (∀ x ∈ S.map Prod.snd, Fits (libOf env) sp.radix x) →
      Q (MP_OK, { sp with out := sp.out ++ t }) m' := by
    intro t m' ht h' hf
    rw [e, if_pos hf] at hQ
    exact hQ.fin (sp' := { sp with out := sp.out ++ t }) h' ⟨g.elts, g.mem, g.radix, g.buf, g.len, g.own⟩ rfl (by rw [ht]) rfl
  refine wp_bind (wp_cif (fun hc => wp_pure (wp_pure ?_)) fun hc => ?_)
  · have hS : S = [] := by rw [g.elts] at hc; simpa using hc
    subst hS
    exact fin _ m rfl h (by simp)
  · have hS : S.map Prod.snd ≠ [] := by rw [g.elts] at hc; simpa using hc
    have e2 : pstackLoop sp.radix sp.elts 0 = pstackLoop sp.radix (S.map Prod.fst) 0 := by rw [g.elts]
    rw [e2]
    refine pstackLoop_spec hE g.radix h (fun p hp => g.own.val p (by simp [hp])) (fun hn => ?_) fun hh m1 h1 => wp_pure ?_
    · rw [e, if_neg fun hc => hn fun p hp => hc _ (List.mem_map_of_mem hp)] at hQ; exact hQ
    · refine fin _ m1 (by unfold stackText; rw [if_neg hS]) h1 fun x hx => ?_
      obtain ⟨p, hp, rfl⟩ := List.mem_map.1 hx
      exact hh p hp

theorem pmemLoop_spec {Q : Bytes → Mem → Prop} (hE : Ref env E) (hr : r = 0 ∨ (2 ≤ r ∧ r ≤ 36)) {k : Nat} (h : R2 m σ)
    (hv : ∀ p ∈ V, σ p.2.1 = some p.2.2)
    (hu : ¬ (∀ p ∈ V, Fits (libOf env) r p.2.2) → E .ub)
    (hQ : (∀ p ∈ V, Fits (libOf env) r p.2.2) → ∀ m', R2 m' σ →
      Q ((V.map fun p => (p.1, p.2.2)).map fun p => p.1 ++ [58] ++ List.replicate (k - p.1.length) 32 ++ line r p.2).flatten m') :
    wp env E (pmemLoop r k (V.map fun p => (p.1, p.2.1))) Q m := by
  induction V generalizing m Q with
  | nil => exact wp_pure (hQ (by simp) m h)
  | cons p V ih =>
    simp only [List.map_cons]
    unfold pmemLoop
    refine wp_bind (print_value_spec hE hr h (hv p (by simp)) (fun hf => hu fun hh => hf (hh p (by simp))) fun hf m1 h1 => ?_)
    refine wp_bind (ih h1 (fun q hq => hv q (by simp [hq])) (fun hn => hu fun hh => hn fun q hq => hh q (by simp [hq])) fun hh m2 h2 => wp_pure ?_)
    have := hQ (by intro q hq; rcases List.mem_cons.1 hq with rfl | hq; exacts [hf, hh q hq]) m2 h2
    simpa using this

theorem maxLen_eq {α : Type} (f : α → Nat) (l : List α) (n : Nat) :
    l.foldl (fun n e => if f e > n then f e else n) n = max n ((l.map f).foldr max 0) := by
  induction l generalizing n with
  | nil => simp
  | cons e l ih =>
    rw [List.foldl_cons, ih, List.map_cons, List.foldr_cons]
    split <;> omega

theorem cf_pmem_spec (hE : Ref env E) (h : R2 m σ) (g : CR σ0 S V sp σ)
    (hQ : ActOK E σ0 sp Q (Cmd.act (libOf env) .vars (absA S V sp))) : wp env E (cf_pmem sp) Q m := by
  unfold cf_pmem
  have e : Cmd.act (libOf env) .vars (absA S V sp) = if ∀ p ∈ V.map fun p => (p.1, p.2.2), Fits (libOf env) sp.radix p.2 then
      .ok MP_OK (absA S V sp) (varsText sp.radix (V.map fun p => (p.1, p.2.2))) else .crash .ub := by simp only [Cmd.act, absA]; congr
  have fin : ∀ t m', varsText sp.radix (V.map fun p => (p.1, p.2.2)) = t → R2 m' σ →
      (∀ p ∈ V.map fun p => (p.1, p.2.2), Fits (libOf env) sp.radix p.2) →
      Q (MP_OK, { sp with out := sp.out ++ t }) m' := by
    intro t m' ht h' hf
    rw [e, if_pos hf] at hQ
    exact hQ.fin (sp' := { sp with out := sp.out ++ t }) h' ⟨g.elts, g.mem, g.radix, g.buf, g.len, g.own⟩ rfl (by rw [ht]) rfl
  dsimp only
  refine wp_bind (wp_cif (fun hc => wp_pure (wp_pure ?_)) fun hc => ?_)
  · have hV : V = [] := by rw [g.mem] at hc; simpa using hc
    subst hV
    exact fin _ m rfl h (by simp)
  · have hV : V.map (fun p => (p.1, p.2.2)) ≠ [] := by rw [g.mem] at hc; simpa using hc
    have e2 : ∀ k, pmemLoop sp.radix k sp.mem = pmemLoop sp.radix k (V.map fun p => (p.1, p.2.1)) := fun k => by rw [g.mem]
    rw [maxLen_eq (fun e : Bytes × Id => e.1.length), e2]
    refine pmemLoop_spec hE g.radix h (fun p hp => g.own.val p.2 (by simp; exact .inr ⟨_, hp⟩)) (fun hn => ?_) fun hh m1 h1 => wp_pure ?_
    · have hn' : ¬ ∀ p ∈ V.map fun p => (p.1, p.2.2), Fits (libOf env) sp.radix p.2 :=
        fun hc => hn fun p hp => hc (p.1, p.2.2) (List.mem_map.2 ⟨p, hp, rfl⟩)
      rw [e, if_neg hn'] at hQ; exact hQ
    · refine fin _ m1 ?_ h1 fun x hx => by
        obtain ⟨p, hp, rfl⟩ := List.mem_map.1 hx
        exact hh p hp
      unfold varsText
      rw [if_neg hV, g.mem]
      simp only [List.map_map, Function.comp_def, Nat.zero_max]

/-! ### Factorial -/

theorem factLoop_spec {Q : Int → Mem → Prop} {n f : Nat} {t : Id} {T : Int} (hE : Ref env E) (h : R2 m σ) (ha : σ a = some (n : Int)) (ht : σ t = some T)
    (hat : a ≠ t) (oa : a.own = true) (ot : t.own = true) (hf : n < f)
    (hQ : ∀ m' T', R2 m' (upd (upd σ t (some T')) a (some (T * n.factorial))) → Q MP_OK m') : wp env E (factLoop a t f) Q m := by
  induction f generalizing n T σ m with
  | zero => omega
  | succ f ih =>
    unfold factLoop
    refine wp_bind (mp_int_compare_value_spec (by decide) (by decide) h ha fun m1 h1 => ?_)
    refine wp_ite (fun hc => ?_) fun hc => ?_
    · rw [cmpZ_pos] at hc
      obtain ⟨n, rfl⟩ : ∃ k, n = k + 1 := ⟨n - 1, by omega⟩
      refine wp_require (mp_int_mul_spec hE h1 ht ha ht ot fun m2 h2 => ⟨rfl, ?_⟩)
      have ha2 : upd σ t (some (T * ((n + 1 : Nat) : Int))) a = some ((n + 1 : Nat) : Int) := by rw [upd_ne _ _ hat]; exact ha
      refine wp_require (mp_int_sub_value_spec hE (by decide) (by decide) h2 ha2 ha2 oa fun m3 h3 => ⟨rfl, ?_⟩)
      refine ih (n := n) (T := T * ((n + 1 : Nat) : Int)) h3 (by rw [upd_self]; push_cast; congr 1; ring) (by rw [upd_ne _ _ hat.symm, upd_self]) (by omega) fun m' T' h' => hQ m' T' ?_
      have e : upd (upd (upd (upd σ t (some (T * ((n + 1 : Nat) : Int)))) a (some (((n + 1 : Nat) : Int) - 1))) t (some T')) a (some (T * ((n + 1 : Nat) : Int) * (n.factorial : Int)))
          = upd (upd σ t (some T')) a (some (T * ((n + 1).factorial : Nat))) := by
        rw [Nat.factorial_succ]
        push_cast
        funext i
        unfold upd
        split_ifs <;> first | rfl | (congr 1; ring)
      rw [e] at h'
      exact h'
    · rw [cmpZ_pos] at hc
      have hn : n.factorial = 1 := by
        have : n = 0 ∨ n = 1 := by omega
        rcases this with rfl | rfl <;> rfl
      refine mp_int_copy_spec hE h1 ht ha oa fun m2 h2 => hQ m2 T ?_
      rw [upd_same σ ht, hn]
      simpa using h2

theorem mp_int_init_value_tmp {Q : Int → Mem → Prop} {t : Id} (hE : Ref env E)
    (hv1 : SMALL_MIN < v) (hv2 : v ≤ SMALL_MAX) (h : R2 m σ) (hd : Decl m t) (hz : σ t = none)
    (hQ : ∀ m', R2 m' (upd σ t (some v)) → Q MP_OK m') :
    wp env E (mp_int_init_value t v) Q m := by
  obtain ⟨s, hr, hg⟩ := h
  unfold mp_int_init_value withFake
  refine fake_frame_decl (pack := fun z p => s_fake z v p) (v := v) hr (s_fake_spec hv1 hv2) ?_
  intro f m1 C hf hfo h1 gC hdecl
  have hft : f ≠ t := by intro he; rw [he, hd.own] at hfo; simp at hfo
  have hr1 : R2 m1 (upd σ f (some v)) := ⟨_, h1, hg.upd gC⟩
  refine mp_int_init_copy_spec hE hr1 (hdecl t hd) (by rw [upd_ne _ _ (Ne.symm hft)]; exact hz) (upd_self _ _ _)
    fun m2 h2 => ?_
  obtain ⟨s2, hr2, hg2⟩ := h2
  obtain ⟨D, hD, -⟩ := hg2.get (z := f) (v := v) (by rw [upd_ne _ _ hft, upd_self])
  refine ⟨s2, D, hr2, hD, fun m3 h3 => hQ m3 ?_⟩
  have h4 : R2 m3 _ := ⟨_, h3, hg2.upd_none⟩
  rwa [upd_tmp _ (hg.none_iff.1 hf) hft] at h4

theorem cf_fact_spec (hE : Ref env E) (h : R2 m σ) (g : CR σ0 ((a, x) :: S) V sp σ)
    (hQ : ActOK E σ0 sp Q (Cmd.act L .fact (absA ((a, x) :: S) V sp))) : wp env E (cf_fact sp) Q m := by
  unfold cf_fact
  have e : Cmd.act L .fact (absA ((a, x) :: S) V sp) = if x < 0 then .ok MP_UNDEF (absA ((a, x) :: S) V sp) [] else
      .ok MP_OK { absA ((a, x) :: S) V sp with stack := (x.toNat.factorial : Int) :: S.map Prod.snd } [] := rfl
  rw [e] at hQ
  refine wp_bind (elt_spec g rfl (wp_bind (mp_int_compare_zero_spec h g.get0 ?_)))
  refine wp_ite (fun hc => ?_) fun hc => ?_
  · rw [if_pos (Int.sign_neg_iff.1 hc)] at hQ
    exact wp_pure (hQ.same h g)
  · have hx : 0 ≤ x := not_lt.1 fun h => hc (Int.sign_neg_iff.2 h)
    rw [if_neg (by omega)] at hQ
    have h' := h
    obtain ⟨s, hr, hg⟩ := h'
    obtain ⟨C, hC, gC⟩ := hg.get g.get0
    have hlt : x.toNat < 𝔹 ^ C.used + 1 := by
      have h1 : C.mag < 𝔹 ^ C.used := by
        have := val_lt (xs := C.buf.take C.used) fun d hd => hr.okd hC d (List.mem_of_mem_take hd)
        rw [List.length_take, min_eq_left gC.norm.le] at this
        exact this
      have := gC.natAbs
      omega
    refine wp_bind (wp_USED hr hC (wp_bind ?_))
    refine wp_mono (withUnchk_spec (Q := fun r m' => r = MP_OK ∧ R2 m' (upd σ a (some (x.toNat.factorial : Int)))) (v := 1) h
      (Tmps.nil σ (fun _ => .tmp 0) fun _ => 0) (fun t m1 P h1 hd' hn ho hP => mp_int_init_value_tmp hE (by decide) (by decide) h1 hd' hn hP)
      fun t m1 gt h1 => ?_) fun r m' hd => ?_
    · have ht := gt.get 0
      have hne := gt.ne g.get0 0 (by decide)
      simp only [nset_apply, if_true] at ht hne
      refine factLoop_spec (n := x.toNat) hE h1 (by rw [upd_ne _ _ hne.symm, g.get0, Int.toNat_of_nonneg hx]) ht hne.symm g.ow0 (gt.ow 0) hlt fun m2 T' h2 => ?_
      rw [one_mul, upd_upd] at h2
      have gf : Tmps (upd σ a (some (x.toNat.factorial : Int))) 1 (nset (fun _ => .tmp 0) 0 t) (nset (fun _ => 0) 0 T') (upd (upd σ t (some T')) a (some (x.toNat.factorial : Int))) := by
        have g3 := (gt.upd 0 T').upd_out g.get0 (x.toNat.factorial : Int)
        simp only [nset_apply, if_true] at g3
        rw [upd_upd] at g3
        exact g3.congr (fun _ _ => rfl) fun i hi => by simp [show i = 0 by omega]
      exact .mk gf h2 fun m3 h3 => ⟨rfl, h3⟩
    · obtain ⟨rfl, h2⟩ := hd.elim
      exact wp_pure (hQ.fin h2 (g.set0 _) rfl (by simp) rfl)

end Imath
