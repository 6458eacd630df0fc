import Verif.Proof.VerdictQ2
import Verif.Proof.VerdictMeta

/-! # The test driver: running a test -/

namespace Imath

variable {env : Env} {E : Fault → Prop} {m : Mem} {σ σ0 : Id → Option Int} {d : Drv}

theorem tests_unknown {call : Test → Drv → M (Bool × Drv)} {code : String} {ni no : Nat} : Tests env E σ0 call code ni no fun _ _ => .unknown :=
  fun _ _ _ _ _ _ _ _ _ _ _ _ _ _ _ _ _ _ hV => hV.elim

/-- What the table says about a test. -/
def Info (env : Env) (E : Fault → Prop) (σ0 : Id → Option Int) (i : TestInfo) : Prop :=
  ∃ (ni no : Nat) (ref : List (List Nat) → List (List Nat) → Verdict), i.num_inputs = ni ∧ i.num_outputs = no ∧ Tests env E σ0 i.call i.code ni no ref ∧
    ∀ line ins outs, verdictOf (libOf env) line (txt i.code) ins outs = if ins.length = ni ∧ outs.length = no then some (ref ins outs) else none

theorem table_names (L : Lib) : ((table L).map fun p => chars p.1) =
    (["setu", "setv", "neg", "abs", "add", "addv", "sub", "subv", "mul", "mulp2", "mulv", "sqr", "div", "divp2", "divv", "expt", "exptv", "exptf",
      "mod", "gcd", "egcd", "lcm", "sqrt", "root", "invmod", "emod", "emodev", "emodbv", "cmp", "cmpu", "cmpz", "cmpv", "cmpuv", "tostr", "tobin",
      "readbin", "to-uns", "readuns", "to-int", "to-uint", "isprime", "initu", "initv", "qneg", "qrecip", "qabs", "qadd", "qsub", "qmul", "qdiv",
      "qaddz", "qsubz", "qmulz", "qdivz", "qexpt", "qtostr", "qtodec", "qrdec"].map chars) := rfl

theorem find_nodup {α : Type} {f : α → List Nat} : ∀ {l : List α} {k : Nat} {p : α}, (l.map f).Nodup → l[k]? = some p →
    (l.find? fun q => f q = f p) = some p
  | [], k, p, _, h => by simp at h
  | q :: l, 0, p, _, h => by
    simp at h; subst h; simp
  | q :: l, k + 1, p, hn, h => by
    rw [List.map_cons, List.nodup_cons] at hn
    have hp : p ∈ l := List.mem_of_getElem? (by simpa using h)
    rw [List.find?_cons_of_neg]
    · exact find_nodup hn.2 (by simpa using h)
    · simp only [decide_eq_true_eq]
      intro e
      exact hn.1 (by rw [e]; exact List.mem_map_of_mem hp)

theorem Info.at {i : TestInfo} {ni no : Nat} {ref : List (List Nat) → List (List Nat) → Verdict} (k : Nat) (h1 : i.num_inputs = ni)
    (h2 : i.num_outputs = no) (hT : Tests env E σ0 i.call i.code ni no ref) (hm : (txt i.code = chars "meta") = False)
    (hk : (table (libOf env))[k]? = some (i.code, ni, no, ref)) : Info env E σ0 i := by
  refine ⟨ni, no, ref, h1, h2, hT, fun line ins outs => ?_⟩
  unfold verdictOf
  have hn : ((table (libOf env)).map fun p => chars p.1).Nodup := by rw [table_names]; decide +kernel
  have := find_nodup hn hk
  rw [if_neg (by rw [hm]; simp), show txt i.code = chars i.code from rfl, this]

theorem infos (hE : Ref env E) {i : TestInfo} (hi : i ∈ g_tests) (hm : i.code ≠ "meta") : Info env E σ0 i := by
  unfold g_tests at hi
  simp only [List.mem_cons, List.not_mem_nil, or_false] at hi
  rcases hi with rfl | rfl | rfl | rfl | rfl | rfl | rfl | rfl | rfl | rfl | rfl | rfl | rfl | rfl | rfl | rfl | rfl | rfl | rfl | rfl |
    rfl | rfl | rfl | rfl | rfl | rfl | rfl | rfl | rfl | rfl | rfl | rfl | rfl | rfl | rfl | rfl | rfl | rfl | rfl | rfl |
    rfl | rfl | rfl | rfl | rfl | rfl | rfl | rfl | rfl | rfl | rfl | rfl | rfl | rfl | rfl | rfl | rfl | rfl | rfl
  · exact .at 41 rfl rfl tests_unknown (eq_false (by decide)) rfl
  · exact .at 42 rfl rfl tests_unknown (eq_false (by decide)) rfl
  · exact .at 0 rfl rfl (tests_setu hE) (eq_false (by decide)) rfl
  · exact .at 1 rfl rfl (tests_setv hE) (eq_false (by decide)) rfl
  · exact .at 2 rfl rfl (tests_neg hE) (eq_false (by decide)) rfl
  · exact .at 3 rfl rfl (tests_abs hE) (eq_false (by decide)) rfl
  · exact .at 4 rfl rfl (tests_add hE) (eq_false (by decide)) rfl
  · exact .at 5 rfl rfl (tests_addv hE) (eq_false (by decide)) rfl
  · exact .at 6 rfl rfl (tests_sub hE) (eq_false (by decide)) rfl
  · exact .at 7 rfl rfl (tests_subv hE) (eq_false (by decide)) rfl
  · exact .at 8 rfl rfl (tests_mul hE) (eq_false (by decide)) rfl
  · exact .at 9 rfl rfl (tests_mulp2 hE) (eq_false (by decide)) rfl
  · exact .at 10 rfl rfl (tests_mulv hE) (eq_false (by decide)) rfl
  · exact .at 11 rfl rfl (tests_sqr hE) (eq_false (by decide)) rfl
  · exact .at 12 rfl rfl (tests_div hE) (eq_false (by decide)) rfl
  · exact .at 13 rfl rfl (tests_divp2 hE) (eq_false (by decide)) rfl
  · exact .at 14 rfl rfl (tests_divv hE) (eq_false (by decide)) rfl
  · exact .at 15 rfl rfl (tests_expt hE) (eq_false (by decide)) rfl
  · exact .at 16 rfl rfl (tests_exptv hE) (eq_false (by decide)) rfl
  · exact .at 17 rfl rfl (tests_exptf hE) (eq_false (by decide)) rfl
  · exact .at 18 rfl rfl (tests_mod hE) (eq_false (by decide)) rfl
  · exact .at 19 rfl rfl (tests_gcd hE) (eq_false (by decide)) rfl
  · exact .at 20 rfl rfl (tests_egcd hE) (eq_false (by decide)) rfl
  · exact .at 21 rfl rfl (tests_lcm hE) (eq_false (by decide)) rfl
  · exact .at 22 rfl rfl (tests_sqrt hE) (eq_false (by decide)) rfl
  · exact .at 23 rfl rfl (tests_root hE) (eq_false (by decide)) rfl
  · exact .at 24 rfl rfl (tests_invmod hE) (eq_false (by decide)) rfl
  · exact .at 25 rfl rfl (tests_emod hE) (eq_false (by decide)) rfl
  · exact .at 26 rfl rfl (tests_emodev hE) (eq_false (by decide)) rfl
  · exact .at 27 rfl rfl (tests_emodbv hE) (eq_false (by decide)) rfl
  · exact .at 28 rfl rfl (tests_cmp hE) (eq_false (by decide)) rfl
  · exact .at 29 rfl rfl (tests_cmpu hE) (eq_false (by decide)) rfl
  · exact .at 30 rfl rfl (tests_cmpz hE) (eq_false (by decide)) rfl
  · exact .at 31 rfl rfl (tests_cmpv hE) (eq_false (by decide)) rfl
  · exact .at 32 rfl rfl (tests_cmpuv hE) (eq_false (by decide)) rfl
  · exact .at 33 rfl rfl (tests_tostr hE) (eq_false (by decide)) rfl
  · exact .at 34 rfl rfl (tests_tobin hE) (eq_false (by decide)) rfl
  · exact .at 35 rfl rfl (tests_readbin hE) (eq_false (by decide)) rfl
  · exact .at 36 rfl rfl (tests_to_uns hE) (eq_false (by decide)) rfl
  · exact .at 37 rfl rfl (tests_readuns hE) (eq_false (by decide)) rfl
  · exact .at 38 rfl rfl (tests_to_int hE) (eq_false (by decide)) rfl
  · exact .at 39 rfl rfl (tests_to_uint hE) (eq_false (by decide)) rfl
  · exact absurd rfl hm
  · exact .at 43 rfl rfl (tests_qneg hE) (eq_false (by decide)) rfl
  · exact .at 44 rfl rfl (tests_qrecip hE) (eq_false (by decide)) rfl
  · exact .at 45 rfl rfl (tests_qabs hE) (eq_false (by decide)) rfl
  · exact .at 46 rfl rfl (tests_qadd hE) (eq_false (by decide)) rfl
  · exact .at 47 rfl rfl (tests_qsub hE) (eq_false (by decide)) rfl
  · exact .at 48 rfl rfl (tests_qmul hE) (eq_false (by decide)) rfl
  · exact .at 49 rfl rfl (tests_qdiv hE) (eq_false (by decide)) rfl
  · exact .at 50 rfl rfl (tests_qaddz hE) (eq_false (by decide)) rfl
  · exact .at 51 rfl rfl (tests_qsubz hE) (eq_false (by decide)) rfl
  · exact .at 52 rfl rfl (tests_qmulz hE) (eq_false (by decide)) rfl
  · exact .at 53 rfl rfl (tests_qdivz hE) (eq_false (by decide)) rfl
  · exact .at 54 rfl rfl (tests_qexpt hE) (eq_false (by decide)) rfl
  · exact .at 55 rfl rfl (tests_qtostr hE) (eq_false (by decide)) rfl
  · exact .at 56 rfl rfl (tests_qtodec hE) (eq_false (by decide)) rfl
  · exact .at 57 rfl rfl (tests_qrdec hE) (eq_false (by decide)) rfl
  · exact .at 40 rfl rfl (tests_isprime hE) (eq_false (by decide)) rfl

/-- What has to hold after an answer. -/
def APost (E : Fault → Prop) (σ0 : Id → Option Int) (d : Drv) (Q : Int × Drv → Mem → Prop) : Answer → Prop
  | .passed t => ∀ d' m' σ', R2 m' σ' → Inv σ0 σ' → Buf d' → d'.out = d.out ++ t → Q (1, d') m'
  | .failed t => ∀ d' m' σ', R2 m' σ' → Inv σ0 σ' → Buf d' → d'.out = d.out ++ t → Q (0, d') m'
  | .bogus => ∀ m' σ', R2 m' σ' → Inv σ0 σ' → Q (-1, d) m'
  | .crash f => E f
  | .unknown => False

theorem verdictOf_none {L : Lib} {line : Nat} {code : Bytes} {ins outs : List Bytes} (h : find_test g_tests code = none) : verdictOf L line code ins outs = none := by
  unfold find_test at h
  rw [List.find?_eq_none] at h
  have h' : ∀ c ∈ g_tests.map fun i => txt i.code, c ≠ code := by
    intro c hc
    obtain ⟨i, hi, rfl⟩ := List.mem_map.1 hc
    simpa using h i hi
  unfold verdictOf
  rw [if_neg, List.find?_eq_none.2]
  · intro p hp
    have hs : ∀ c ∈ (table L).map (fun p => chars p.1), c ∈ g_tests.map fun i => txt i.code := by
      rw [table_names]
      show ∀ c ∈ _, c ∈ (["initu", "initv", "setu", "setv", "neg", "abs", "add", "addv", "sub", "subv", "mul", "mulp2", "mulv", "sqr", "div", "divp2", "divv",
        "expt", "exptv", "exptf", "mod", "gcd", "egcd", "lcm", "sqrt", "root", "invmod", "emod", "emodev", "emodbv", "cmp", "cmpu", "cmpz", "cmpv",
        "cmpuv", "tostr", "tobin", "readbin", "to-uns", "readuns", "to-int", "to-uint", "meta", "qneg", "qrecip", "qabs", "qadd", "qsub", "qmul", "qdiv",
        "qaddz", "qsubz", "qmulz", "qdivz", "qexpt", "qtostr", "qtodec", "qrdec", "isprime"].map txt)
      decide +kernel
    simpa using h' _ (hs _ (List.mem_map_of_mem hp))
  · intro e
    refine h' (txt "meta") ?_ e.symm
    exact List.mem_map.2 ⟨⟨"meta", -1, -1, test_meta⟩, List.mem_of_getElem? (i := 42) rfl, rfl⟩

theorem error_name {e : Int} {s : String} (h : errorName e = some s) : MP_BADARG ≤ e ∧ ∀ {Q : Bytes → Mem → Prop}, Q (txt s) m → wp env E (error_string e) Q m := by
  unfold errorName at h
  rw [Option.map_eq_some_iff] at h
  obtain ⟨p, hp, rfl⟩ := h
  have h1 := List.mem_of_find?_eq_some hp
  have h2 := List.find?_some hp
  simp only [decide_eq_true_eq] at h2
  subst h2
  have key : ∀ {v : Int} {t : String}, |v| < 7 → g_imath_strerr[|v|.toNat]? = some t → ∀ {Q : Bytes → Mem → Prop}, Q (txt t) m → wp env E (error_string v) Q m := by
    intro v t hv ht Q hQ
    unfold error_string
    refine wp_bind (wp_cint (by have := abs_nonneg v; omega) (by omega) ?_)
    rw [ht]
    exact wp_pure hQ
  simp only [List.mem_cons, List.not_mem_nil, or_false] at h1
  rcases h1 with rfl | rfl | rfl | rfl | rfl | rfl | rfl <;> exact ⟨by decide, key (by decide) rfl⟩

theorem lineHead_eq (t : Test) (num : Nat) : lineHead t num = lineStart t.file t.line num := by
  unfold lineHead lineStart fmtd
  rw [numeral_nat, numeral_nat]

/-- What is done with the result of a test. -/
theorem call_answer {t : Test} {num : Nat} {V : Verdict} {Q : Int × Drv → Mem → Prop}
    (hA : APost E σ0 d Q (answer (lineStart t.file t.line num) (some V))) :
    VPost E σ0 d (fun r m' => wp env E (do
      let d := r.2
      if r.1 then pure (1, { d with out := d.out ++ lineHead t num ++ txt "OK" ++ [10] })
      else if d.errno ≥ MP_BADARG then do
        let s ← error_string d.errno
        pure (0, { d with out := d.out ++ lineHead t num ++ s ++ [10] })
      else do
        let s ← cstr d.g_output
        pure (0, { d with out := d.out ++ lineHead t num ++ txt "FAILED" ++ [9] ++ s ++ [10] })) Q m') V := by
  cases V with
  | ok s =>
    intro d' m' σ' h' I' b' o'
    refine wp_if_pos rfl (wp_pure (hA _ m' σ' h' I' b' ?_))
    show d'.out ++ lineHead t num ++ txt "OK" ++ [10] = _
    rw [o', lineHead_eq, show chars "OK\n" = txt "OK" ++ [10] from rfl]
    simp
  | error e =>
    dsimp only [answer] at hA
    intro d' m' σ' h' I' b' o' e'
    cases hs : errorName e with
    | none => rw [hs] at hA; exact hA.elim
    | some s =>
      rw [hs] at hA
      refine wp_if_neg (by simp) (wp_if_pos (by rw [e']; exact (error_name (env := env) (E := E) (m := m') hs).1) (wp_bind ?_))
      rw [e']
      refine (error_name hs).2 (wp_pure (hA _ m' σ' h' I' b' ?_))
      show d'.out ++ lineHead t num ++ txt s ++ [10] = _
      rw [o', lineHead_eq]
      simp [chars_txt]
  | failed msg =>
    intro d' m' σ' h' I' b' o' e' z' ⟨R', g'⟩
    refine wp_if_neg (by simp) (wp_if_neg (by simpa using e') ?_)
    rw [g']
    refine wp_bind (cstr_spec z' (wp_pure (hA _ m' σ' h' I' (by rw [← g']; exact b') ?_)))
    show d'.out ++ lineHead t num ++ txt "FAILED" ++ [9] ++ msg ++ [10] = _
    rw [o', lineHead_eq, show chars "FAILED\t" = txt "FAILED" ++ [9] from rfl]
    simp
  | crash f => exact hA
  | unknown => exact hA.elim

/-- `run_test` answers as the reference. -/
theorem run_test_spec {t : Test} {num : Nat} {code R : Bytes} {ti tq : List Bytes} {Q : Int × Drv → Mem → Prop} (hE : Ref env E) (hd : Buf d)
    (hc : t.code = code ++ 0 :: R) (h0 : 0 ∉ code) (hi : Arrays t.input ti) (ho : Arrays t.output tq) (hti : OkTexts ti) (htq : OkTexts tq)
    (h : R2 m σ) (hI : Inv σ0 σ) (hA : APost E σ0 d Q (answer (lineStart t.file t.line num) (verdictOf (libOf env) t.line code ti tq))) :
    wp env E (run_test g_tests num t d) Q m := by
  unfold run_test
  rw [hc]
  refine wp_bind (cstr_spec h0 ?_)
  cases hf : find_test g_tests code with
  | none =>
    rw [verdictOf_none hf] at hA
    exact wp_pure (hA m σ h hI)
  | some i =>
    have hi' : i ∈ g_tests := List.mem_of_find?_eq_some hf
    have hcode : txt i.code = code := by simpa [find_test] using List.find?_some hf
    by_cases hm : i.code = "meta"
    · have : code = chars "meta" := by rw [← hcode, hm]; rfl
      have hi42 : i = ⟨"meta", -1, -1, test_meta⟩ := by
        have h2 : find_test g_tests (txt "meta") = some ⟨"meta", -1, -1, test_meta⟩ := rfl
        rw [this, show chars "meta" = txt "meta" from rfl, h2] at hf
        exact (Option.some.inj hf).symm
      have hv : verdictOf (libOf env) t.line code ti tq = some (testMeta t.line ti tq) := by
        unfold verdictOf
        rw [if_pos this]
      rw [hv] at hA
      show wp env E (if (if i.num_inputs ≥ 0 ∧ (t.input.length : Int) ≠ i.num_inputs then 1 else 0) +
        (if i.num_outputs ≥ 0 ∧ (t.output.length : Int) ≠ i.num_outputs then 1 else 0) ≠ 0 then _ else _) Q m
      rw [hi42]
      exact wp_if_neg (by simp) (wp_bind (meta_spec hE hd hi ho hti htq h hI (by rw [hc, this]; rfl) (call_answer hA)))
    obtain ⟨ni, no, ref, n1, n2, hT, hv⟩ := infos (σ0 := σ0) hE hi' hm
    rw [← hcode, hv] at hA
    have li := hi.length_eq
    have lo := ho.length_eq
    show wp env E (if (if i.num_inputs ≥ 0 ∧ (t.input.length : Int) ≠ i.num_inputs then 1 else 0) +
      (if i.num_outputs ≥ 0 ∧ (t.output.length : Int) ≠ i.num_outputs then 1 else 0) ≠ 0 then _ else _) Q m
    rw [n1, n2, li, lo]
    by_cases hn : ti.length = ni ∧ tq.length = no
    swap
    · rw [if_neg hn] at hA
      refine wp_if_pos ?_ (wp_pure (hA m σ h hI))
      by_cases e1 : ti.length = ni
      · have e2 : ¬ tq.length = no := fun e => hn ⟨e1, e⟩
        rw [if_neg (by simp [e1]), if_pos ⟨by omega, by exact_mod_cast e2⟩]; simp
      · rw [if_pos ⟨by omega, by exact_mod_cast e1⟩]; split <;> simp
    rw [if_pos hn] at hA
    refine wp_if_neg (by simp [hn.1, hn.2]) ?_
    refine wp_bind (hT t d ti tq m σ _ R hd hi ho hti htq h hI (by rw [hc, hcode]) hn.1 hn.2 ?_)
    exact call_answer hA

end Imath
