import Verif.Proof.Verdict7
import Verif.SpecRun

/-! # The test driver: the test `meta` -/

namespace Imath

variable {env : Env} {E : Fault → Prop} {m : Mem} {σ σ0 : Id → Option Int} {d : Drv}

theorem metaItem_eq (i : Nat) (v : Int) : metaItem i (numeral 10 v) = metaItemText i v := by
  unfold metaItem metaItemText fmtd
  rw [show ((i : Int) + 1) = ((i + 1 : Nat) : Int) by push_cast; rfl, numeral_nat]
  rfl

theorem metaRef_eq (ss : List Nat) (s : Nat) : ∀ j, metaRef (ss.map Id.var) (.var s) j =
    mention ((List.range j).reverse.find? fun j => ss[j]? = some s)
  | 0 => rfl
  | j + 1 => by
    rw [metaRef, List.range_succ, List.reverse_append, List.reverse_singleton, List.singleton_append, List.find?_cons, List.getElem?_map]
    by_cases h : ss[j]? = some s
    · rw [h]
      simp only [Option.map_some, if_true, decide_true]
      unfold fmtd
      rw [show ((j : Int) + 1) = ((j + 1 : Nat) : Int) by push_cast; rfl, numeral_nat]
      rfl
    · have h' : ¬ (ss[j]?).map Id.var = some (Id.var s) := by
        intro e
        cases hg : ss[j]? with
        | none => rw [hg] at e; simp at e
        | some a => rw [hg] at e h; simp at e; exact h (by rw [e])
      rw [if_neg h', metaRef_eq ss s j]
      simp only [h, decide_false]

theorem metaIns_spec (hE : Ref env E) (ss : List Nat) : ∀ (zs : List Nat) (vs : List Int) (i : Nat) {buf out : Bytes} {m : Mem}
    {Q : Bytes × Bytes → Mem → Prop}, buf.length = 2048 → R2 m σ → List.Forall₂ (fun s v => σ (.var s) = some v) zs vs →
    (∀ k, zs[k]? = ss[i + k]?) → ((∃ v ∈ vs, 2048 ≤ (numeral 10 v).length) → E .ub) →
    ((¬ ∃ v ∈ vs, 2048 ≤ (numeral 10 v).length) → ∀ m' buf', R2 m' σ → buf'.length = 2048 →
      Q (buf', out ++ (vs.zipIdx i).flatMap fun p => metaItemText p.2 p.1 ++ sameAs ss p.2 ++ [10]) m') →
    wp env E (metaIns (ss.map Id.var) (zs.map Id.var) i buf out) Q m
  | [], vs, i, buf, out, m, Q, hb, h, hf, hs, hc, hQ => by
    cases hf
    refine wp_pure ?_
    have := hQ (by simp) m buf h hb
    simpa using this
  | z :: zs, vs, i, buf, out, m, Q, hb, h, hf, hs, hc, hQ => by
    obtain ⟨v, vs', hv, hf', rfl⟩ := List.forall₂_cons_left_iff.1 hf
    rw [List.map_cons, metaIns]
    unfold OUTPUT_LIMIT
    by_cases hl : 2048 ≤ (numeral 10 v).length
    · exact wp_bind (mp_int_to_string_fault hE (hc ⟨v, by simp, hl⟩) (by omega) (by omega) (by norm_num) (by rw [hb]; push_cast; omega) h hv)
    refine wp_bind (mp_int_to_string_spec hE (by omega) (by omega) (by norm_num) (by rw [hb]; push_cast; omega) h hv ?_ ?_)
    · intro m1 h1 _
      refine wp_bind (cstr_spec (numeral_zero_notin (by omega) (by omega) v) ?_)
      refine metaIns_spec hE ss zs vs' (i + 1) (by simp [hb]; omega) h1 hf' (fun k => ?_) (fun ⟨u, hu, k⟩ => hc ⟨u, by simp [hu], k⟩) fun hn m' buf' h' hb' => ?_
      · have := hs (k + 1)
        rw [List.getElem?_cons_succ] at this
        rw [this, show i + (k + 1) = i + 1 + k by omega]
      · have := hQ (by rintro ⟨u, hu, k⟩; rcases List.mem_cons.1 hu with rfl | hu; exacts [hl k, hn ⟨u, hu, k⟩]) m' buf' h' hb'
        have e : metaRef (ss.map Id.var) (.var z) i = sameAs ss i := by
          have h0 := hs 0
          rw [List.getElem?_cons_zero, Nat.add_zero] at h0
          rw [metaRef_eq]
          unfold sameAs
          rw [← h0]
        rw [e, metaItem_eq]
        simpa [List.zipIdx_cons] using this
    · intro m1 s' h1 hl'; push_cast at hl'; omega

theorem metaOuts_spec (hE : Ref env E) : ∀ (zs : List Nat) (vs : List Int) (i : Nat) {buf out : Bytes} {m : Mem}
    {Q : Bytes × Bytes → Mem → Prop}, buf.length = 2048 → R2 m σ → List.Forall₂ (fun s v => σ (.var s) = some v) zs vs →
    ((∃ v ∈ vs, 2048 ≤ (numeral 10 v).length) → E .ub) →
    ((¬ ∃ v ∈ vs, 2048 ≤ (numeral 10 v).length) → ∀ m' buf', R2 m' σ → buf'.length = 2048 →
      Q (buf', out ++ (vs.zipIdx i).flatMap fun p => metaItemText p.2 p.1 ++ [10]) m') →
    wp env E (metaOuts (zs.map Id.var) i buf out) Q m
  | [], vs, i, buf, out, m, Q, hb, h, hf, hc, hQ => by
    cases hf
    refine wp_pure ?_
    have := hQ (by simp) m buf h hb
    simpa using this
  | z :: zs, vs, i, buf, out, m, Q, hb, h, hf, hc, hQ => by
    obtain ⟨v, vs', hv, hf', rfl⟩ := List.forall₂_cons_left_iff.1 hf
    rw [List.map_cons, metaOuts]
    unfold OUTPUT_LIMIT
    by_cases hl : 2048 ≤ (numeral 10 v).length
    · exact wp_bind (mp_int_to_string_fault hE (hc ⟨v, by simp, hl⟩) (by omega) (by omega) (by norm_num) (by rw [hb]; push_cast; omega) h hv)
    refine wp_bind (mp_int_to_string_spec hE (by omega) (by omega) (by norm_num) (by rw [hb]; push_cast; omega) h hv ?_ ?_)
    · intro m1 h1 _
      refine wp_bind (cstr_spec (numeral_zero_notin (by omega) (by omega) v) ?_)
      refine metaOuts_spec hE zs vs' (i + 1) (by simp [hb]; omega) h1 hf' (fun ⟨u, hu, k⟩ => hc ⟨u, by simp [hu], k⟩) fun hn m' buf' h' hb' => ?_
      have := hQ (by rintro ⟨u, hu, k⟩; rcases List.mem_cons.1 hu with rfl | hu; exacts [hl k, hn ⟨u, hu, k⟩]) m' buf' h' hb'
      rw [metaItem_eq]
      simpa [List.zipIdx_cons] using this
    · intro m1 s' h1 hl'; push_cast at hl'; omega

theorem meta_spec {t : Test} {ti tq : List Bytes} {Q : Bool × Drv → Mem → Prop} {R : Bytes} (hE : Ref env E) (hd : Buf d)
    (hi : Arrays t.input ti) (ho : Arrays t.output tq) (hti : OkTexts ti) (htq : OkTexts tq) (h : R2 m σ) (hI : Inv σ0 σ)
    (hc : t.code = txt "meta" ++ 0 :: R) (hV : VPost E σ0 d Q (testMeta t.line ti tq)) : wp env E (test_meta t d) Q m := by
  unfold test_meta
  unfold testMeta at hV
  refine withInts_spec hE hd hi ho hti htq h hI hV ?_
  intro p ss n xs os e m1 σ1 hV h1 hr
  have hxl : List.Forall₂ (fun s v => σ1 (.var s) = some v) ss xs := hr.slots
  have hol : List.Forall₂ (fun s v => σ1 (.var s) = some v) (List.range' n os.length) os := hr.oslots rfl
  have e1 : p.ins = ss.map Id.var := hr.ins
  have e2 : p.outs = (List.range' n os.length).map Id.var := hr.outs rfl
  rw [hr.code, hc]
  refine wp_bind (cstr_spec (by decide) ?_)
  have cr : (∃ v ∈ xs ++ os, 2048 ≤ (numeral 10 v).length) → E .ub := fun hx => by rw [if_pos hx] at hV; exact hV
  rw [e1, e2]
  refine wp_bind (metaIns_spec hE ss ss xs 0 hd.1 h1 hxl (fun k => by rw [Nat.zero_add]) (fun ⟨v, hv, k⟩ => cr ⟨v, by simp [hv], k⟩) fun hx m2 buf h2 hb => ?_)
  refine wp_bind (metaOuts_spec hE _ os 0 hb h2 hol (fun ⟨v, hv, k⟩ => cr ⟨v, by simp [hv], k⟩) fun hx' m3 buf' h3 hb' => ?_)
  rw [if_neg] at hV
  · refine wp_pure (hV _ m3 σ1 h3 hr.inv ⟨hb', hd.2⟩ ?_)
    have ll := hxl.length_eq
    have lx : (List.map Id.var ss).length = xs.length := by simp [ll]
    dsimp only
    rw [hr.line, hr.expect, lx, List.length_map, List.length_range']
    unfold fmtd
    rw [numeral_nat, numeral_nat, numeral_nat]
    rw [show chars "Test 'meta' defined at line " = txt "Test '" ++ txt "meta" ++ txt "' defined at line " from rfl,
      show chars "\nExpected result: " = 10 :: txt "Expected result: " from rfl, show chars "\nInput values: " = 10 :: txt "Input values: " from rfl,
      show chars "Output values: " = txt "Output values: " from rfl]
    simp
  · rintro ⟨v, hv, k⟩
    rcases List.mem_append.1 hv with hv | hv
    exacts [hx ⟨v, hv, k⟩, hx' ⟨v, hv, k⟩]

end Imath
