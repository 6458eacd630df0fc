import Verif.Proof.Calc4

/-! # The calculator: variables, commands and sessions -/

namespace Imath

variable {env : Env} {E : Fault → Prop} {m : Mem} {σ σ0 σ' : Id → Option Int} {a b c : Id} {x y w v : Int}
  {S K : List (Id × Int)} {V : List (Bytes × Id × Int)} {sp sp' : Calc} {Q : Int × Calc → Mem → Prop} {r : Nat}

/-! ### Variables -/

theorem split_first {n : Bytes} (V : List (Bytes × Id × Int)) :
    (∃ V1 e V2, V = V1 ++ e :: V2 ∧ e.1 = n ∧ ∀ p ∈ V1, p.1 ≠ n) ∨ ∀ p ∈ V, p.1 ≠ n := by
  induction V with
  | nil => exact .inr (by simp)
  | cons e V ih =>
    by_cases he : e.1 = n
    · exact .inl ⟨[], e, V, rfl, he, by simp⟩
    · rcases ih with ⟨V1, e', V2, rfl, h1, h2⟩ | h
      · exact .inl ⟨e :: V1, e', V2, rfl, h1, by simpa [he] using fun a b c h => h2 (a, b, c) h⟩
      · exact .inr (by simpa [he] using fun a b c h' => h (a, b, c) h')

theorem setVar_mid {n : Bytes} {V1 V2 : List (List Nat × Int)} {e : List Nat × Int} (h1 : e.1 = n) (h2 : ∀ p ∈ V1, p.1 ≠ n) :
    setVar n x (V1 ++ e :: V2) = V1 ++ (n, x) :: V2 := by
  induction V1 with
  | nil => simp [setVar, h1]
  | cons p V1 ih =>
    rw [List.cons_append, setVar, if_neg (h2 p (by simp)), ih fun q hq => h2 q (by simp [hq])]; rfl

theorem setVar_end {n : Bytes} {V : List (List Nat × Int)} (h : ∀ p ∈ V, p.1 ≠ n) : setVar n x V = V ++ [(n, x)] := by
  induction V with
  | nil => rfl
  | cons p V ih => rw [setVar, if_neg (h p (by simp)), ih fun q hq => h q (by simp [hq])]; rfl

theorem findIdx_mid {α : Type} {p : α → Bool} {V1 V2 : List α} {e : α} (h1 : p e = true) (h2 : ∀ q ∈ V1, p q = false) :
    (V1 ++ e :: V2).findIdx p = V1.length := by
  induction V1 with
  | nil => simp [List.findIdx_cons, h1]
  | cons q V1 ih =>
    rw [List.cons_append, List.findIdx_cons, h2 q (by simp), ih fun q hq => h2 q (by simp [hq])]; rfl

theorem mem_insert_spec {n : Bytes} (hE : Ref env E) (h : R2 m σ) (g : CR σ0 ((a, x) :: S) V sp σ)
    (hQ : ∀ V' sp' σ' m', R2 m' σ' → CR σ0 ((a, x) :: S) V' sp' σ' → V'.map (fun p => (p.1, p.2.2)) = setVar n x (V.map fun p => (p.1, p.2.2)) →
      sp'.out = sp.out → sp'.inp = sp.inp → sp'.radix = sp.radix → Q (MP_OK, sp') m') :
    wp env E (mem_insert sp n a) Q m := by
  unfold mem_insert
  dsimp only
  rcases split_first (n := n) V with ⟨V1, e, V2, rfl, h1, h2⟩ | hv
  · have em : sp.mem = V1.map (fun p => (p.1, p.2.1)) ++ (e.1, e.2.1) :: V2.map (fun p => (p.1, p.2.1)) := by rw [g.mem]; simp
    have ef : sp.mem.findIdx (fun e => decide (e.1 = n)) = V1.length := by
      rw [em, findIdx_mid (by simpa using h1)]
      · simp
      · intro q hq
        obtain ⟨p, hp, rfl⟩ := List.mem_map.1 hq
        simpa using h2 p hp
    have eg : sp.mem[V1.length]? = some (e.1, e.2.1) := by rw [em]; simp
    rw [ef, eg]
    dsimp only
    obtain ⟨en, ez, ev⟩ := e
    have pm : ((a, x) :: S ++ (V1 ++ (en, ez, ev) :: V2).map Prod.snd).Perm ((ez, ev) :: (((a, x) :: S) ++ (V1.map Prod.snd ++ V2.map Prod.snd))) := by
      simp only [List.map_append, List.map_cons, ← List.append_assoc]
      exact List.perm_middle
    have go := g.own.perm pm
    refine wp_bind (mp_int_free_spec h (go.get (z := ez) (x := ev) (by simp)) (go.own (ez, ev) (by simp)) (go.tmp (ez, ev) (by simp)) fun m1 h1' _ => ?_)
    have go1 := go.drop
    refine wp_bind (mp_int_alloc_spec hE h1' fun z m2 hz ho hn h2' => ?_)
    have go2 := go1.new hz ho hn 0
    refine wp_bind (mp_int_copy_spec hE h2' (go2.get (z := a) (x := x) (by simp)) (upd_self _ _ _) ho fun m3 h3 => wp_pure ?_)
    have go3 := go2.set x
    have pm2 : ((a, x) :: S ++ (V1 ++ (en, z, x) :: V2).map Prod.snd).Perm ((z, x) :: (((a, x) :: S) ++ (V1.map Prod.snd ++ V2.map Prod.snd))) := by
      simp only [List.map_append, List.map_cons, ← List.append_assoc]
      exact List.perm_middle
    refine hQ (V1 ++ (en, z, x) :: V2) _ _ m3 h3 ⟨g.elts, ?_, g.radix, g.buf, by simpa using g.len, go3.perm pm2.symm⟩ ?_ rfl rfl rfl
    · show sp.mem.set V1.length (en, z) = _
      rw [em, List.set_append_right _ _ (by simp)]
      simp
    · simp only [List.map_append, List.map_cons]
      have h1 : en = n := h1
      rw [setVar_mid h1, h1]
      intro p hp
      obtain ⟨q, hq, rfl⟩ := List.mem_map.1 hp
      exact h2 q hq
  · have ef : sp.mem[sp.mem.findIdx (fun e => decide (e.1 = n))]? = none := by
      rw [List.getElem?_eq_none_iff, List.findIdx_eq_length.2]
      intro q hq
      rw [g.mem] at hq
      obtain ⟨p, hp, rfl⟩ := List.mem_map.1 hq
      simpa using hv p hp
    rw [ef]
    dsimp only
    have hal : sp.mem.length < if sp.mem.length ≥ sp.mslots then 2 * sp.mslots else sp.mslots := by
      obtain ⟨-, -, h1, h2⟩ := g.len
      have hl : sp.mem.length = V.length := by rw [g.mem, List.length_map]
      split <;> omega
    have fin : ∀ m1, R2 m1 σ → wp env E (do
        request ((n.length + 4) / 4)
        let z ← mp_int_alloc
        let res ← mp_int_copy a z
        pure (res, { sp with mem := sp.mem ++ [(n, z)], mslots := if sp.mem.length ≥ sp.mslots then 2 * sp.mslots else sp.mslots })) Q m1 := by
      intro m1 h1
      refine wp_bind (request_spec hE h1 fun m2 h2 => ?_)
      refine wp_bind (mp_int_alloc_spec hE h2 fun z m3 hz ho hn h3 => ?_)
      have go2 := g.own.new hz ho hn 0
      refine wp_bind (mp_int_copy_spec hE h3 (go2.get (z := a) (x := x) (by simp)) (upd_self _ _ _) ho fun m4 h4 => wp_pure ?_)
      have go3 := go2.set x
      refine hQ (V ++ [(n, z, x)]) _ _ m4 h4 ⟨g.elts, ?_, g.radix, g.buf, ⟨g.len.1, g.len.2.1, ?_⟩, go3.perm ?_⟩ ?_ rfl rfl rfl
      · show sp.mem ++ [(n, z)] = _
        rw [g.mem]; simp
      · have hl : sp.mem.length = V.length := by rw [g.mem, List.length_map]
        rw [hl] at hal ⊢
        simp only [List.length_append, List.length_singleton]
        omega
      · rw [List.map_append, ← List.append_assoc]
        exact (List.perm_append_singleton _ _).symm
      · rw [setVar_end]
        · simp
        · intro p hp
          obtain ⟨q, hq, rfl⟩ := List.mem_map.1 hp
          exact hv q hq
    exact wp_bind (wp_cwhen (fun _ => wp_bind (request_spec hE h fun m1 h1 => request_spec hE h1 fun m2 h2 => wp_bind (inArray_spec hal (fin m2 h2)))) fun _ => wp_bind (inArray_spec hal (fin m h)))

theorem find_vars {n : Bytes} (V : List (Bytes × Id × Int)) :
    (∃ e ∈ V, e.1 = n ∧ ((V.map fun p => (p.1, p.2.1)).find? fun e => decide (e.1 = n)) = some (e.1, e.2.1) ∧ getVar n (V.map fun p => (p.1, p.2.2)) = some e.2.2) ∨
    ((∀ p ∈ V, p.1 ≠ n) ∧ ((V.map fun p => (p.1, p.2.1)).find? fun e => decide (e.1 = n)) = none ∧ getVar n (V.map fun p => (p.1, p.2.2)) = none) := by
  induction V with
  | nil => exact .inr ⟨by simp, rfl, rfl⟩
  | cons e V ih =>
    by_cases he : e.1 = n
    · refine .inl ⟨e, by simp, he, ?_, ?_⟩
      · simp [he]
      · simp [getVar, he]
    · rcases ih with ⟨e', hm, h1, h2, h3⟩ | ⟨h1, h2, h3⟩
      · refine .inl ⟨e', by simp [hm], h1, ?_, ?_⟩
        · rw [List.map_cons, List.find?_cons, h2]; simp [he]
        · unfold getVar at h3 ⊢
          rw [List.map_cons, List.find?_cons]; simpa [he] using h3
      · refine .inr ⟨by simpa [he] using fun a b c h' => h1 (a, b, c) h', ?_, ?_⟩
        · rw [List.map_cons, List.find?_cons, h2]; simp [he]
        · unfold getVar at h3 ⊢
          rw [List.map_cons, List.find?_cons]; simpa [he] using h3

theorem cf_qrecall_spec {t R : Bytes} (hE : Ref env E) (h : R2 m σ) (g : CR σ0 S V sp σ) (hb : sp.ibuf = t ++ 0 :: R)
    (hQ : ActOK E σ0 sp Q (.ok (recallVar (absA S V sp) (cut t)).1 (recallVar (absA S V sp) (cut t)).2 [])) : wp env E (cf_qrecall sp) Q m := by
  unfold cf_qrecall
  refine wp_bind (mp_int_alloc_spec hE h fun z m1 hz ho hn h1 => ?_)
  rw [show cstr sp.ibuf = cstr (t ++ 0 :: R) by rw [hb]]
  refine wp_bind (cstr_cut ?_)
  unfold mem_recall
  rw [g.mem]
  unfold recallVar at hQ
  have go := g.own.new hz ho hn 0
  rcases find_vars (n := cut t) V with ⟨e, hm, e1, e2, e3⟩ | ⟨-, e2, e3⟩
  · rw [show (absA S V sp).vars = V.map fun p => (p.1, p.2.2) from rfl, e3] at hQ
    rw [e2]
    dsimp only at hQ ⊢
    refine wp_bind (mp_int_copy_spec hE h1 (go.get (z := e.2.1) (x := e.2.2) ?_) (upd_self _ _ _) ho fun m2 h2 => ?_)
    · exact List.mem_cons_of_mem _ (List.mem_append_right _ (List.mem_map.2 ⟨e, hm, rfl⟩))
    · refine wp_if_neg (by decide) (stack_push_spec hE h2 g z fun al m3 hal h3 => ?_)
      rw [upd_upd] at h3
      exact hQ.fin h3 (g.push hz ho hn e.2.2 hal) rfl (by simp) rfl
  · rw [show (absA S V sp).vars = V.map fun p => (p.1, p.2.2) from rfl, e3] at hQ
    rw [e2]
    dsimp only at hQ ⊢
    refine wp_bind (wp_pure (wp_if_pos (by decide) ?_))
    refine wp_bind (mp_int_free_spec h1 (upd_self _ _ _) ho hn fun m2 h2 _ => wp_pure ?_)
    rw [upd_upd, upd_same σ hz] at h2
    exact hQ.fin h2 g rfl (by simp) rfl

/-! ### Commands -/

/-- The function that performs a command. -/
def handlerOf : Cmd → Calc → M (Int × Calc)
  | .abs => cf_abs | .neg => cf_neg | .add => cf_add | .sub => cf_sub | .mul => cf_mul | .divmod => cf_divmod | .div => cf_div
  | .mod => cf_mod | .expt => cf_expt | .emod => cf_exptmod | .sqr => cf_square | .inv => cf_invmod | .gcd => cf_gcd | .xgcd => cf_xgcd
  | .sqrt => cf_sqrt | .root => cf_root | .lt => cf_cmplt | .gt => cf_cmpgt | .le => cf_cmple | .ge => cf_cmpge | .eq => cf_cmpeq
  | .ne => cf_cmpne | .inc => cf_inc | .dec => cf_dec | .fact => cf_fact | .show => cf_pprint | .peek => cf_print | .list => cf_pstack
  | .cls => cf_clstk | .drop => cf_pop | .dup => cf_dup | .copy => cf_copy | .swap => cf_swap | .rot => cf_rot | .pick => cf_pick
  | .store => cf_store | .recall => cf_recall | .clm => cf_cmem | .vars => cf_pmem | .out => cf_setr | .bin => cf_setbin | .help => cf_help

theorem g_ops_eq : g_ops = Cmd.all.flatMap fun c => c.info.2.map fun n => ⟨n, c.info.1, handlerOf c⟩ := rfl

theorem names_lower : ∀ c ∈ Cmd.all, ∀ n ∈ c.info.2, n.map tolower = n := by decide

theorem caseEq_iff {s n : Bytes} (h : n.map tolower = n) : caseEq s n = decide (n = s.map lower) := by
  unfold caseEq
  rw [h, show tolower = lower from rfl]
  exact decide_eq_decide.2 eq_comm

theorem find_ops (s : Bytes) {l : List Cmd} (hl : ∀ c ∈ l, ∀ n ∈ c.info.2, n.map tolower = n) :
    (∃ c n, l.find? (fun c => c.info.2.any fun n => n = s.map lower) = some c ∧
      (l.flatMap fun c => c.info.2.map fun n => (⟨n, c.info.1, handlerOf c⟩ : CalcOp)).find? (fun op => caseEq s op.name) = some ⟨n, c.info.1, handlerOf c⟩) ∨
    (l.find? (fun c => c.info.2.any fun n => n = s.map lower) = none ∧
      (l.flatMap fun c => c.info.2.map fun n => (⟨n, c.info.1, handlerOf c⟩ : CalcOp)).find? (fun op => caseEq s op.name) = none) := by
  induction l with
  | nil => exact .inr ⟨rfl, rfl⟩
  | cons c l ih =>
    have hc := hl c (by simp)
    rw [List.find?_cons, List.flatMap_cons, List.find?_append, List.find?_map]
    have e : (fun n => caseEq s n) = ((fun op : CalcOp => caseEq s op.name) ∘ fun n => (⟨n, c.info.1, handlerOf c⟩ : CalcOp)) := rfl
    rw [← e]
    rcases hf : c.info.2.find? (fun n => caseEq s n) with _ | n
    · have : (c.info.2.any fun n => decide (n = s.map lower)) = false := by
        rw [List.any_eq_false]
        intro n hn
        have := List.find?_eq_none.1 hf n hn
        rwa [caseEq_iff (hc n hn)] at this
      rw [this]
      simpa using ih fun c hc => hl c (by simp [hc])
    · have hn := List.mem_of_find?_eq_some hf
      have hp := List.find?_some hf
      rw [caseEq_iff (hc n hn)] at hp
      have : (c.info.2.any fun n => decide (n = s.map lower)) = true := List.any_eq_true.2 ⟨n, hn, hp⟩
      rw [this]
      exact .inl ⟨c, n, rfl, rfl⟩

theorem find_command_spec {Q : Option CalcOp → Mem → Prop} {t R : Bytes} (g : CR σ0 S V sp σ) (hb : sp.ibuf = t ++ 0 :: R)
    (hQ1 : ∀ c n, command (cut t) = some c → Q (some ⟨n, c.info.1, handlerOf c⟩) m)
    (hQ2 : command (cut t) = none → (getVar (cut t) (absA S V sp).vars).isSome = true → Q (some ⟨[], 0, cf_qrecall⟩) m)
    (hQ3 : command (cut t) = none → ¬ (getVar (cut t) (absA S V sp).vars).isSome = true → Q none m) :
    wp env E (find_command sp) Q m := by
  unfold find_command
  rw [hb]
  refine wp_bind (cstr_cut ?_)
  rw [g_ops_eq]
  rcases find_ops (cut t) names_lower with ⟨c, n, e1, e2⟩ | ⟨e1, e2⟩
  · rw [e2]
    exact wp_pure (hQ1 c n e1)
  · rw [e2, g.mem]
    dsimp only
    rcases find_vars (n := cut t) V with ⟨e, hm, h1, -, h3⟩ | ⟨h1, -, h3⟩
    · refine wp_if_pos ?_ (wp_pure (hQ2 e1 (by unfold absA; rw [h3]; rfl)))
      exact List.any_eq_true.2 ⟨(e.1, e.2.1), List.mem_map.2 ⟨e, hm, rfl⟩, by simpa using h1⟩
    · refine wp_if_neg ?_ (wp_pure (hQ3 e1 (by unfold absA; rw [h3]; simp)))
      rw [List.any_eq_true]
      rintro ⟨q, hq, hp⟩
      obtain ⟨p, hp', rfl⟩ := List.mem_map.1 hq
      exact h1 p hp' (by simpa using hp)

theorem one_le {l : List (Id × Int)} (h : 1 ≤ l.length) : ∃ a x l', l = (a, x) :: l' := by
  rcases l with _ | ⟨⟨a, x⟩, l⟩
  · simp at h
  · exact ⟨a, x, l, rfl⟩

theorem two_le {l : List (Id × Int)} (h : 2 ≤ l.length) : ∃ a x b y l', l = (a, x) :: (b, y) :: l' := by
  rcases l with _ | ⟨⟨a, x⟩, _ | ⟨⟨b, y⟩, l⟩⟩
  · simp at h
  · simp at h
  · exact ⟨a, x, b, y, l, rfl⟩

theorem three_le {l : List (Id × Int)} (h : 3 ≤ l.length) : ∃ a x b y c z l', l = (a, x) :: (b, y) :: (c, z) :: l' := by
  rcases l with _ | ⟨⟨a, x⟩, _ | ⟨⟨b, y⟩, _ | ⟨⟨c, z⟩, l⟩⟩⟩
  · simp at h
  · simp at h
  · simp at h
  · exact ⟨a, x, b, y, c, z, l, rfl⟩

theorem handler_spec (hE : Ref env E) (h : R2 m σ) (g : CR σ0 S V sp σ) (c : Cmd) (hs : c ≠ .store) (hr : c ≠ .recall) (hl : c.info.1 ≤ S.length)
    (hQ : ActOK E σ0 sp Q (c.act (libOf env) (absA S V sp))) : wp env E (handlerOf c sp) Q m := by
  cases c
  case store => exact absurd rfl hs
  case recall => exact absurd rfl hr
  case list => exact cf_pstack_spec hE h g hQ
  case vars => exact cf_pmem_spec hE h g hQ
  case cls => exact cf_clstk_spec h g hQ
  case clm => exact cf_cmem_spec h g hQ
  case bin => exact cf_setbin_spec h g hQ
  case help => exact cf_help_spec h g hQ
  case abs => obtain ⟨a, x, S, rfl⟩ := one_le hl; exact cf_abs_spec hE h g hQ
  case neg => obtain ⟨a, x, S, rfl⟩ := one_le hl; exact cf_neg_spec hE h g hQ
  case sqr => obtain ⟨a, x, S, rfl⟩ := one_le hl; exact cf_square_spec hE h g hQ
  case sqrt => obtain ⟨a, x, S, rfl⟩ := one_le hl; exact cf_sqrt_spec hE h g hQ
  case inc => obtain ⟨a, x, S, rfl⟩ := one_le hl; exact cf_inc_spec hE h g hQ
  case dec => obtain ⟨a, x, S, rfl⟩ := one_le hl; exact cf_dec_spec hE h g hQ
  case fact => obtain ⟨a, x, S, rfl⟩ := one_le hl; exact cf_fact_spec hE h g hQ
  case «show» => obtain ⟨a, x, S, rfl⟩ := one_le hl; exact cf_pprint_spec hE h g hQ
  case peek => obtain ⟨a, x, S, rfl⟩ := one_le hl; exact cf_print_spec hE h g hQ
  case drop => obtain ⟨a, x, S, rfl⟩ := one_le hl; exact cf_pop_spec h g hQ
  case dup => obtain ⟨a, x, S, rfl⟩ := one_le hl; exact cf_dup_spec hE h g hQ
  case copy => obtain ⟨a, x, b, y, S, rfl⟩ := two_le hl; exact cf_copy_spec hE h g hQ
  case pick => obtain ⟨a, x, b, y, S, rfl⟩ := two_le hl; exact cf_pick_spec hE h g hQ
  case out => obtain ⟨a, x, S, rfl⟩ := one_le hl; exact cf_setr_spec h g hQ
  case add => obtain ⟨a, x, b, y, S, rfl⟩ := two_le hl; exact cf_add_spec hE h g hQ
  case sub => obtain ⟨a, x, b, y, S, rfl⟩ := two_le hl; exact cf_sub_spec hE h g hQ
  case mul => obtain ⟨a, x, b, y, S, rfl⟩ := two_le hl; exact cf_mul_spec hE h g hQ
  case divmod => obtain ⟨a, x, b, y, S, rfl⟩ := two_le hl; exact cf_divmod_spec hE h g hQ
  case div => obtain ⟨a, x, b, y, S, rfl⟩ := two_le hl; exact cf_div_spec hE h g hQ
  case mod => obtain ⟨a, x, b, y, S, rfl⟩ := two_le hl; exact cf_mod_spec hE h g hQ
  case expt => obtain ⟨a, x, b, y, S, rfl⟩ := two_le hl; exact cf_expt_spec hE h g hQ
  case inv => obtain ⟨a, x, b, y, S, rfl⟩ := two_le hl; exact cf_invmod_spec hE h g hQ
  case gcd => obtain ⟨a, x, b, y, S, rfl⟩ := two_le hl; exact cf_gcd_spec hE h g hQ
  case xgcd => obtain ⟨a, x, b, y, S, rfl⟩ := two_le hl; exact cf_xgcd_spec hE h g hQ
  case root => obtain ⟨a, x, b, y, S, rfl⟩ := two_le hl; exact cf_root_spec hE h g hQ
  case lt => obtain ⟨a, x, b, y, S, rfl⟩ := two_le hl; exact cf_cmplt_spec hE h g hQ
  case gt => obtain ⟨a, x, b, y, S, rfl⟩ := two_le hl; exact cf_cmpgt_spec hE h g hQ
  case le => obtain ⟨a, x, b, y, S, rfl⟩ := two_le hl; exact cf_cmple_spec hE h g hQ
  case ge => obtain ⟨a, x, b, y, S, rfl⟩ := two_le hl; exact cf_cmpge_spec hE h g hQ
  case eq => obtain ⟨a, x, b, y, S, rfl⟩ := two_le hl; exact cf_cmpeq_spec hE h g hQ
  case ne => obtain ⟨a, x, b, y, S, rfl⟩ := two_le hl; exact cf_cmpne_spec hE h g hQ
  case swap => obtain ⟨a, x, b, y, S, rfl⟩ := two_le hl; exact cf_swap_spec h g hQ
  case emod => obtain ⟨a, x, b, y, c, z, S, rfl⟩ := three_le hl; exact cf_exptmod_spec hE h g hQ
  case rot => obtain ⟨a, x, b, y, c, z, S, rfl⟩ := three_le hl; exact cf_rot_spec h g hQ

theorem CR.read {B s : Bytes} (g : CR σ0 S V sp σ) (hB : B.length = 16384) : CR σ0 S V { sp with ibuf := B, inp := s } σ :=
  ⟨g.elts, g.mem, g.radix, hB, g.len, g.own⟩

theorem cf_store_spec (hE : Ref env E) (h : R2 m σ) (g : CR σ0 S V sp σ) (hl : 1 ≤ S.length)
    (hQ0 : nextTok1 sp.inp = none → ∀ sp', CR σ0 S V sp' σ → absA S V sp' = absA S V sp → sp'.inp = [] → sp'.out = sp.out → Q (BAD_INPUT, sp') m)
    (hQ1 : ∀ t s, nextTok1 sp.inp = some (t, s) → ∀ S' V' sp' σ' m', R2 m' σ' → CR σ0 S' V' sp' σ' →
      absA S' V' sp' = (withName .store (absA S V sp) t).2 → sp'.out = sp.out → sp'.inp = s → Q ((withName .store (absA S V sp) t).1, sp') m') :
    wp env E (cf_store sp) Q m := by
  unfold cf_store
  obtain ⟨a, x, S, rfl⟩ := one_le hl
  refine wp_bind (nextTok_spec g (fun hn B hB => ?_) (fun t s hn R hR _ => ?_) (fun t s hn R hR => ?_) fun s hn B hB => ?_)
  · exact wp_if_pos (by decide) (wp_pure (hQ0 hn _ (g.read hB) rfl rfl rfl))
  · exact wp_if_pos (by decide) (wp_pure (hQ1 _ s hn _ _ _ _ m h (g.read hR) rfl rfl rfl))
  · refine wp_if_neg (by decide) (wp_bind (cstr_cut ?_))
    have g1 : CR σ0 ((a, x) :: S) V { sp with ibuf := t ++ 0 :: R, inp := s } σ := g.read hR
    refine wp_bind (elt_spec g1 rfl (wp_bind (mem_insert_spec hE h g1 fun V' sp' σ' m' h' g' hV ho hi hr => ?_)))
    refine wp_if_neg (by decide) (cf_pop_spec (L := libOf env) h' g' ?_)
    intro S2 V2 sp2 σ2 m2 h2 g2 hA ho2 hi2
    have hA2 : absA S2 V2 sp2 = (withName .store (absA ((a, x) :: S) V sp) (.sym t)).2 := by
      rw [hA]
      unfold absA withName
      simp only [if_true]
      rw [hV, hr]
      rfl
    exact hQ1 (.sym t) s hn S2 V2 sp2 σ2 m2 h2 g2 hA2 (by rw [ho2, ho]; simp) (by rw [hi2, hi])
  · exact wp_if_pos (by decide) (wp_pure (hQ1 _ s hn _ _ _ _ m h (g.read hB) rfl rfl rfl))

theorem cf_recall_spec (hE : Ref env E) (h : R2 m σ) (g : CR σ0 S V sp σ)
    (hQ0 : nextTok1 sp.inp = none → ∀ sp', CR σ0 S V sp' σ → absA S V sp' = absA S V sp → sp'.inp = [] → sp'.out = sp.out → Q (BAD_INPUT, sp') m)
    (hQ1 : ∀ t s, nextTok1 sp.inp = some (t, s) → ∀ S' V' sp' σ' m', R2 m' σ' → CR σ0 S' V' sp' σ' →
      absA S' V' sp' = (withName .recall (absA S V sp) t).2 → sp'.out = sp.out → sp'.inp = s → Q ((withName .recall (absA S V sp) t).1, sp') m') :
    wp env E (cf_recall sp) Q m := by
  unfold cf_recall
  refine wp_bind (nextTok_spec g (fun hn B hB => ?_) (fun t s hn R hR _ => ?_) (fun t s hn R hR => ?_) fun s hn B hB => ?_)
  · exact wp_if_pos (by decide) (wp_pure (hQ0 hn _ (g.read hB) rfl rfl rfl))
  · exact wp_if_pos (by decide) (wp_pure (hQ1 _ s hn _ _ _ _ m h (g.read hR) rfl rfl rfl))
  · refine wp_if_neg (by decide) ?_
    have g1 : CR σ0 S V { sp with ibuf := t ++ 0 :: R, inp := s } σ := g.read hR
    refine cf_qrecall_spec hE h g1 rfl ?_
    intro S2 V2 sp2 σ2 m2 h2 g2 hA ho2 hi2
    exact hQ1 (.sym t) s hn S2 V2 sp2 σ2 m2 h2 g2 hA (by rw [ho2]; simp) hi2
  · exact wp_if_pos (by decide) (wp_pure (hQ1 _ s hn _ _ _ _ m h (g.read hB) rfl rfl rfl))

/-! ### Sessions -/

/-- `Q` holds after a session of the reference calculator. -/
def SessOK (E : Fault → Prop) (σ0 : Id → Option Int) (pre : Bytes) (Q : Int × Calc → Mem → Prop) : Outcome → Prop
  | .done c txt A left => ∀ S V sp' σ' m', R2 m' σ' → CR σ0 S V sp' σ' → absA S V sp' = A → sp'.out = pre ++ txt → tokens sp'.inp = left →
      Q (c, sp') m'
  | .crash f => E f

theorem SessOK.after {pre txt : Bytes} {o : Outcome} (h : SessOK E σ0 pre Q (o.after txt)) : SessOK E σ0 (pre ++ txt) Q o := by
  cases o with
  | done c t A => intro S V sp' σ' m' h1 h2 h3 h4; exact h S V sp' σ' m' h1 h2 h3 (by rw [h4, List.append_assoc])
  | crash f => exact h

theorem CR.len_eq (g : CR σ0 S V sp σ) : (absA S V sp).stack.length = S.length := by unfold absA; simp

theorem runLoop_spec (hE : Ref env E) (n : Nat) {S : List (Id × Int)} {V : List (Bytes × Id × Int)} {sp : Calc} {σ : Id → Option Int} {m : Mem} {code : Int}
    (h : R2 m σ) (g : CR σ0 S V sp σ) (hn : sp.inp.length < n)
    (hQ : SessOK E σ0 sp.out Q (session (libOf env) (absA S V sp) code (tokens sp.inp))) :
    wp env E (runLoop n sp code) Q m := by
  induction n generalizing S V sp σ m code with
  | zero => omega
  | succ n ih =>
    unfold runLoop
    refine wp_bind (nextTok_spec g (fun ht B hB => ?_) (fun t s ht R hR hne => ?_) (fun t s ht R hR => ?_) fun s ht B hB => ?_)
    · rw [tokens_none ht] at hQ
      exact wp_pure (hQ S V _ σ m h (g.read hB) rfl (by simp) rfl)
    · have hlt := nextTok1_lt ht
      rw [tokens_some ht, session] at hQ
      have g1 : CR σ0 S V { sp with ibuf := t ++ 0 :: R, inp := s } σ := g.read hR
      have hl : t.length ≤ 16384 := by rw [List.length_append] at hR; omega
      refine wp_bind (read_number_spec hE h hne hl (fun v hv z m1 hz ho hnv h1 => ?_) fun e he m1 h1 => ?_)
      · rw [hv] at hQ
        refine wp_bind (stack_push_spec hE h1 g1 z fun al m2 hal h2 => ?_)
        refine wp_if_neg (by decide) ?_
        exact ih h2 (g1.push hz ho hnv v hal) (by show s.length < n; omega) hQ
      · rw [he] at hQ
        exact ih h1 g1 (by show s.length < n; omega) hQ
    · have hlt := nextTok1_lt ht
      rw [tokens_some ht, session] at hQ
      have g1 : CR σ0 S V { sp with ibuf := t ++ 0 :: R, inp := s } σ := g.read hR
      refine wp_bind (find_command_spec g1 rfl (fun c nm hc => ?_) (fun hc hv => ?_) fun hc hv => ?_)
      · rw [hc] at hQ
        dsimp only at hQ ⊢
        have el : sp.elts.length = S.length := by rw [g.elts]; simp
        refine wp_ite (fun hlen => ?_) fun hlen => ?_
        · rw [if_pos (by rw [g.len_eq]; omega)] at hQ
          exact ih h g1 (by show s.length < n; omega) hQ
        · rw [if_neg (by rw [g.len_eq]; omega)] at hQ
          have hl : c.info.1 ≤ S.length := by omega
          have nm : ∀ c', c' = .store ∨ c' = .recall → c = c' → wp env E (handlerOf c' { sp with ibuf := t ++ 0 :: R, inp := s } >>= fun r => runLoop n r.2 r.1) Q m := by
            rintro c' hc' rfl
            rw [if_pos hc'] at hQ
            have k0 : nextTok1 s = none → ∀ sp', CR σ0 S V sp' σ → absA S V sp' = absA S V { sp with ibuf := t ++ 0 :: R, inp := s } → sp'.inp = [] → sp'.out = sp.out →
                wp env E (runLoop n sp' BAD_INPUT) Q m := by
              intro hk sp' g' hA hi ho
              rw [tokens_none hk] at hQ
              refine ih h g' (by rw [hi]; simp; omega) ?_
              rw [hi, hA, ho]
              exact hQ
            have k1 : ∀ u s', nextTok1 s = some (u, s') → ∀ S' V' sp' σ' m', R2 m' σ' → CR σ0 S' V' sp' σ' →
                absA S' V' sp' = (withName c (absA S V { sp with ibuf := t ++ 0 :: R, inp := s }) u).2 → sp'.out = sp.out → sp'.inp = s' →
                wp env E (runLoop n sp' (withName c (absA S V { sp with ibuf := t ++ 0 :: R, inp := s }) u).1) Q m' := by
              intro u s' hk S' V' sp' σ' m' h' g' hA ho hi
              have := nextTok1_lt hk
              rw [tokens_some hk] at hQ
              refine ih h' g' (by rw [hi]; omega) ?_
              rw [hi, hA, ho]
              exact hQ
            rcases hc' with rfl | rfl
            · exact wp_bind (cf_store_spec hE h g1 hl k0 k1)
            · exact wp_bind (cf_recall_spec hE h g1 k0 k1)
          by_cases hs : c = .store
          · subst hs; exact nm _ (.inl rfl) rfl
          by_cases hr : c = .recall
          · subst hr; exact nm _ (.inr rfl) rfl
          rw [if_neg (by tauto)] at hQ
          refine wp_bind (handler_spec hE h g1 c hs hr hl ?_)
          have eA : absA S V { sp with ibuf := t ++ 0 :: R, inp := s } = absA S V sp := rfl
          rw [eA]
          rcases hact : c.act (libOf env) (absA S V sp) with ⟨code', A, txt⟩ | f
          · rw [hact] at hQ
            intro S' V' sp' σ' m' h' g' hA ho hi
            have hi : sp'.inp = s := hi
            refine ih h' g' (by rw [hi]; omega) ?_
            rw [hi, hA, ho]
            exact SessOK.after hQ
          · rw [hact] at hQ; exact hQ
      · have hv' : (getVar (cut t) (absA S V sp).vars).isSome = true := hv
        rw [hc] at hQ
        dsimp only at hQ ⊢
        rw [if_pos hv'] at hQ
        refine wp_if_neg (by simp) (wp_bind (cf_qrecall_spec hE h g1 rfl ?_))
        intro S' V' sp' σ' m' h' g' hA ho hi
        have hi : sp'.inp = s := hi
        refine ih h' g' (by rw [hi]; omega) ?_
        rw [hi, hA, ho, List.append_nil]
        exact hQ
      · have hv' : ¬ (getVar (cut t) (absA S V sp).vars).isSome = true := hv
        rw [hc] at hQ
        dsimp only at hQ ⊢
        rw [if_neg hv'] at hQ
        exact ih h g1 (by show s.length < n; omega) hQ
    · rw [tokens_some ht, session] at hQ
      exact wp_pure (hQ S V _ σ m h (g.read hB) rfl (by simp) rfl)

theorem run_file_spec {inp : Bytes} (hE : Ref env E) (h : R2 m σ) (g : CR σ0 S V sp σ)
    (hQ : SessOK E σ0 sp.out Q (session (libOf env) (absA S V sp) MP_OK (tokens inp))) : wp env E (run_file inp sp) Q m := by
  unfold run_file
  exact runLoop_spec hE _ h (sp := { sp with inp := inp }) ⟨g.elts, g.mem, g.radix, g.buf, g.len, g.own⟩ (Nat.lt_succ_self _) hQ

theorem state_init_spec {Q : Calc → Mem → Prop} (hE : Ref env E) (h : R2 m σ)
    (hQ : ∀ sp m', R2 m' σ → CR σ [] [] sp σ → absA [] [] sp = .start → sp.out = [] → Q sp m') : wp env E state_init Q m := by
  unfold state_init
  refine wp_bind (request_spec hE h fun m1 h1 => wp_bind (request_spec hE h1 fun m2 h2 => wp_bind (request_spec hE h2 fun m3 h3 => ?_)))
  refine wp_bind (mallocB_spec hE h3 fun buf m4 hb h4 => wp_pure (hQ _ m4 h4 ?_ rfl rfl))
  exact ⟨rfl, rfl, .inr ⟨by norm_num, by norm_num⟩, hb, ⟨rfl, ⟨Nat.zero_le _, Nat.one_pos⟩, Nat.zero_le _, Nat.one_pos⟩, Own.nil⟩

theorem state_clear_spec {Q : Unit → Mem → Prop} (h : R2 m σ) (g : CR σ0 S V sp σ) (hQ : ∀ m', R2 m' σ0 → Q () m') :
    wp env E (state_clear sp) Q m := by
  unfold state_clear
  rw [g.elts, g.mem, ← List.map_reverse]
  refine wp_bind (clearAll_spec (K := V.map Prod.snd) h (g.own.perm (List.Perm.append_right _ (List.reverse_perm S).symm)) fun m1 σ1 h1 g1 => ?_)
  rw [List.map_map]
  have e : V.map (Prod.snd ∘ fun p => (p.1, p.2.1)) = (V.map Prod.snd).map Prod.fst := by rw [List.map_map]; rfl
  rw [e]
  refine freeAll_spec (K := []) (L := V.map Prod.snd) h1 (by simpa using g1) fun m2 σ2 h2 g2 => hQ m2 ?_
  rw [← g2.empty]; exact h2

/-- `Q` holds after the sessions of the reference calculator with several inputs. -/
def FilesOK (E : Fault → Prop) (σ0 : Id → Option Int) (pre : Bytes) (all : Prop) (Q : Option Nat × Calc → Mem → Prop) : Outcome → Prop
  | .done c txt _ _ => ∀ S V sp' σ' m' e, R2 m' σ' → CR σ0 S V sp' σ' → sp'.out = pre ++ txt → (e = none → c = 1 ∧ ¬ all) →
      (∀ k, e = some k → c = if k > 0 then 1 else 0) → Q (e, sp') m'
  | .crash f => E f

theorem FilesOK.after {pre txt : Bytes} {all : Prop} {Q : Option Nat × Calc → Mem → Prop} {o : Outcome} (h : FilesOK E σ0 pre all Q (o.after txt)) :
    FilesOK E σ0 (pre ++ txt) all Q o := by
  cases o with
  | done c t A => intro S V sp' σ' m' e h1 h2 h3; exact h S V sp' σ' m' e h1 h2 (by rw [h3, List.append_assoc])
  | crash f => exact h

/-- The source for an argument of the program. -/
def srcOf (files : Bytes → Option Bytes) (first a : Bytes) : Source :=
  if a = [45] then .stdin else match files first with
    | none => .missing
    | some s => .text s

theorem filesLoop_spec {Q : Option Nat × Calc → Mem → Prop} {files : Bytes → Option Bytes} {first cur : Bytes} {args : List Bytes} {errs : Nat} {all : Prop}
    (hE : Ref env E) (h : R2 m σ) (g : CR σ0 S V sp σ)
    (hall : all → .missing ∉ args.map (srcOf files first))
    (hQ : FilesOK E σ0 sp.out all Q (sessions (libOf env) (absA S V sp) errs (tokens cur) (args.map (srcOf files first)))) :
    wp env E (filesLoop files first args cur sp errs) Q m := by
  induction args generalizing S V sp σ m errs cur with
  | nil =>
    unfold filesLoop
    refine wp_pure (hQ S V sp σ m (some errs) h g (by simp) (by simp) ?_)
    intro k hk
    rw [Option.some.inj hk]
  | cons arg args ih =>
    have hall' : all → .missing ∉ args.map (srcOf files first) := fun ha hm =>
      hall ha (by rw [List.map_cons]; exact List.mem_cons_of_mem _ hm)
    have ce : ∀ c : Int, (if c ≠ MP_OK then errs + 1 else errs) = if c = MP_OK then errs else errs + 1 := fun c => by
      split_ifs <;> first | rfl | contradiction
    unfold filesLoop
    refine wp_ite (fun ha => ?_) fun ha => ?_
    · rw [List.map_cons, srcOf, if_pos ha, sessions] at hQ
      refine wp_bind (run_file_spec hE h g ?_)
      rcases hses : session (libOf env) (absA S V sp) MP_OK (tokens cur) with ⟨c, txt, A, left⟩ | f
      · rw [hses] at hQ
        intro S' V' sp' σ' m' h' g' hA ho hl
        refine ih h' g' hall' ?_
        rw [hA, ho, hl]
        dsimp only at hQ ⊢
        rw [ce]
        exact FilesOK.after hQ
      · rw [hses] at hQ; exact hQ
    · rcases hf : files first with _ | inp
      · rw [List.map_cons, srcOf, if_neg ha, hf, sessions] at hQ
        refine wp_pure (hQ S V sp σ m none h g (by simp) (fun _ => ⟨rfl, fun hx => hall hx ?_⟩) (by simp))
        rw [List.map_cons, srcOf, if_neg ha, hf]
        exact List.mem_cons_self
      · rw [List.map_cons, srcOf, if_neg ha, hf, sessions] at hQ
        refine wp_bind (run_file_spec hE h g ?_)
        rcases hses : session (libOf env) (absA S V sp) MP_OK (tokens inp) with ⟨c, txt, A, left⟩ | f
        · rw [hses] at hQ
          intro S' V' sp' σ' m' h' g' hA ho hl
          refine ih h' g' hall' ?_
          rw [hA, ho]
          dsimp only at hQ ⊢
          rw [ce]
          exact FilesOK.after hQ
        · rw [hses] at hQ; exact hQ

theorem imcalcMain_spec {Q : Nat × Bytes → Mem → Prop} {files : Bytes → Option Bytes} {stdin : Bytes} {args : List Bytes}
    (hE : Ref env E) (h : R2 m σ)
    (hQ : match sessions (libOf env) .start 0 (tokens stdin) (inputs files args) with
      | .done c txt _ _ => ∀ m', (.missing ∉ inputs files args → R2 m' σ) → Q (c.toNat, txt) m'
      | .crash f => E f) : wp env E (imcalcMain files args stdin) Q m := by
  unfold imcalcMain
  refine wp_bind (state_init_spec hE h fun sp m1 h1 g1 hA ho => ?_)
  rcases args with _ | ⟨first, args⟩
  · refine wp_bind (run_file_spec hE h1 g1 ?_)
    rw [hA]
    rcases hses : session (libOf env) .start MP_OK (tokens stdin) with ⟨c, txt, A, left⟩ | f
    · simp only [inputs, sessions, hses] at hQ
      intro S' V' sp' σ' m' h' g' _ ho' _
      refine wp_bind (state_clear_spec h' g' fun m2 h2 => wp_pure ?_)
      have := hQ m2 fun _ => h2
      rw [ho', ho]
      by_cases hk : c = MP_OK <;> simpa [hk, Outcome.after] using this
    · simp only [inputs, sessions, hses] at hQ; exact hQ
  · have ei : inputs files (first :: args) = (first :: args).map (srcOf files first) := rfl
    rw [ei] at hQ
    refine wp_bind (filesLoop_spec (all := .missing ∉ (first :: args).map (srcOf files first)) hE h1 g1 id ?_)
    rw [hA]
    rcases hses : sessions (libOf env) .start 0 (tokens stdin) ((first :: args).map (srcOf files first)) with ⟨c, txt, A, left⟩ | f
    · rw [hses] at hQ
      intro S' V' sp' σ' m' e h' g' ho' he1 he2
      rcases e with _ | k
      · refine wp_pure ?_
        have := hQ m' fun hx => absurd hx (he1 rfl).2
        rw [(he1 rfl).1] at this
        rw [ho', ho]
        simpa using this
      · refine wp_bind (state_clear_spec h' g' fun m2 h2 => wp_pure ?_)
        have := hQ m2 fun _ => h2
        rw [he2 k rfl] at this
        rw [ho', ho]
        by_cases hk : k > 0 <;> simpa [hk] using this
    · rw [hses] at hQ; exact hQ

end Imath
