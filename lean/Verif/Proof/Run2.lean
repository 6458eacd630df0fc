import Verif.Proof.Run1

/-! # The test driver: files -/

namespace Imath

variable {env : Env} {E : Fault → Prop} {m : Mem} {σ σ0 : Id → Option Int} {d : Drv}

theorem parts_mem : ∀ {s : Bytes} {b : Nat}, b ∉ s → ∀ p ∈ parts s, b ∉ p ∧ p.length ≤ s.length
  | [], _, _, p, hp => by simp [parts] at hp; subst hp; simp
  | x :: s, b, hb, p, hp => by
    simp only [List.mem_cons, not_or] at hb
    have ih := parts_mem hb.2
    unfold parts at hp
    split at hp
    · rcases List.mem_cons.1 hp with rfl | hp
      · simp
      · have := ih p hp; exact ⟨this.1, by simp; omega⟩
    · split at hp
      · rename_i h; exact absurd h (parts_ne_nil s)
      · rename_i q qs h
        rcases List.mem_cons.1 hp with rfl | hp
        · have := ih q (by rw [h]; simp)
          simp only [List.mem_cons, not_or, List.length_cons]
          exact ⟨⟨hb.1, this.1⟩, by omega⟩
        · have := ih p (by rw [h]; simp [hp])
          exact ⟨this.1, by simp; omega⟩

theorem fields_ok {s : Bytes} (h0 : 0 ∉ s) (hl : s.length ≤ 4095) : OkTexts (fields s) := by
  intro t ht
  unfold fields at ht
  split at ht
  · simp at ht
  · have := parts_mem h0 t ht
    exact ⟨this.1, by omega⟩

theorem lineOf_test {s code : Bytes} {ins outs : List Bytes} (h : lineOf s = .test code ins outs) (h0 : 0 ∉ s) (hl : s.length ≤ 4095) :
    0 ∉ code ∧ OkTexts ins ∧ OkTexts outs := by
  unfold lineOf at h
  split at h
  · simp at h
  · rename_i c s' h1
    split at h
    · simp at h
    · rename_i i o h2
      split at h
      · simp at h
      · obtain ⟨rfl, _⟩ := cutAt_some h1
        obtain ⟨rfl, _⟩ := cutAt_some h2
        simp only [List.mem_append, List.mem_cons, not_or, List.length_append, List.length_cons] at h0 hl
        cases h
        exact ⟨h0.1, fields_ok h0.2.2.1 (by omega), fields_ok h0.2.2.2.2 (by omega)⟩

/-- What has to hold after a report. -/
def RPost (E : Fault → Prop) (σ0 : Id → Option Int) (cur : Nat) (Q : Nat × Counts × Drv → Mem → Prop) : Report → Prop
  | .done n text => ∀ d' m' σ', R2 m' σ' → Inv σ0 σ' → Buf d' → d'.out = text → Q (cur, ⟨n.tests, n.failed, n.errors⟩, d') m'
  | .crash f => E f
  | .unknown => False

theorem processLoop_spec {file : Bytes} {Q : Nat × Counts × Drv → Mem → Prop} (hE : Ref env E) : ∀ (f : Nat) (inp : Bytes) (cur : Nat) (n : Tally) (d : Drv)
    {m : Mem} {σ : Id → Option Int}, inp.length < f → Buf d → R2 m σ → Inv σ0 σ →
    RPost E σ0 (cur + lineCount inp) Q (report (libOf env) file (linesOf cur inp) n d.out) →
    wp env E (processLoop g_tests file f inp cur ⟨n.tests, n.failed, n.errors⟩ d) Q m
  | 0, _, _, _, _, _, _, hf, _, _, _, _ => by omega
  | f + 1, inp, cur, n, d, m, σ, hf, hd, h, hI, hR => by
    unfold processLoop
    refine wp_bind (read_line_spec _ inp cur (by omega) (fun hl => ?_) fun k s ls R rest hl h0 hlen hrest hlt hcnt => ?_)
    · refine wp_pure ?_
      rw [show linesOf cur inp = [] from hl] at hR
      exact hR d m σ h hI hd rfl
    · rw [show linesOf cur inp = (k, s) :: ls from hl, report, ← hrest, show linesFrom k rest = linesOf k rest from rfl,
        show cur + lineCount inp = k + lineCount rest from hcnt.symm] at hR
      refine wp_bind (parse_line_spec h0 (fun ho => ?_) fun r hr => ?_)
      · rw [ho] at hR; exact hR
      cases hL : lineOf s with
      | syntaxError =>
        rw [hL] at hR hr
        subst hr
        exact processLoop_spec hE f rest k { n with errors := n.errors + 1 } d (by omega) hd h hI hR
      | overflow => rw [hL] at hr; exact hr.elim
      | test code ins outs =>
        obtain ⟨z0, oi, oo⟩ := lineOf_test hL h0 hlen
        rw [hL] at hR hr
        obtain ⟨li, lo, rfl, hi, ho⟩ := hr
        dsimp only at hR
        refine wp_bind (run_test_spec hE hd (R := []) rfl z0 hi ho oi oo h hI ?_)
        cases ha : answer (lineStart file k (n.tests + 1)) (verdictOf (libOf env) k code ins outs) with
        | passed t =>
          rw [ha] at hR
          intro d' m' σ' h' I' b' o'
          have := processLoop_spec (Q := Q) hE f rest k { n with tests := n.tests + 1 } d' (m := m') (by omega) b' h' I' (by rw [o']; exact hR)
          simpa using this
        | failed t =>
          rw [ha] at hR
          intro d' m' σ' h' I' b' o'
          have := processLoop_spec (Q := Q) hE f rest k { n with tests := n.tests + 1, failed := n.failed + 1 } d' (m := m') (by omega) b' h' I' (by rw [o']; exact hR)
          simpa using this
        | bogus =>
          rw [ha] at hR
          intro m' σ' h' I'
          have := processLoop_spec (Q := Q) hE f rest k { n with tests := n.tests + 1, errors := n.errors + 1 } d (m := m') (by omega) hd h' I' hR
          simpa using this
        | crash f => rw [ha] at hR; exact hR
        | unknown => rw [ha] at hR; exact hR.elim

/-- What has to hold after a file has been processed. -/
def FPost (E : Fault → Prop) (σ0 : Id → Option Int) (file secs : Bytes) (cur : Nat) (Q : Nat × Bool × Drv → Mem → Prop) : Report → Prop
  | .done n text => ∀ d' m' σ', R2 m' σ' → Inv σ0 σ' → Buf d' → d'.out = text ++ summary file secs n →
      Q (cur, decide (n.failed = 0 ∧ n.errors = 0), d') m'
  | .crash f => E f
  | .unknown => False

theorem process_file_spec {file inp secs : Bytes} {cur : Nat} {Q : Nat × Bool × Drv → Mem → Prop} (hE : Ref env E) (hd : Buf d) (h : R2 m σ) (hI : Inv σ0 σ)
    (hR : FPost E σ0 file secs (cur + lineCount inp) Q (report (libOf env) file (linesOf cur inp) ⟨0, 0, 0⟩ d.out)) :
    wp env E (process_file g_tests file inp cur secs d) Q m := by
  unfold process_file
  refine wp_bind (processLoop_spec hE _ inp cur ⟨0, 0, 0⟩ d (by omega) hd h hI ?_)
  cases hr : report (libOf env) file (linesOf cur inp) ⟨0, 0, 0⟩ d.out with
  | done n text =>
    rw [hr] at hR
    intro d' m' σ' h' I' b' o'
    refine wp_pure (hR _ m' σ' h' I' b' ?_)
    show d'.out ++ _ = _
    unfold fmtd
    rw [o', numeral_nat, numeral_nat, numeral_nat]
    unfold summary
    simp [chars_txt, show txt " seconds)\n" = txt " seconds)" ++ [10] from rfl]
  | crash f => rw [hr] at hR; exact hR
  | unknown => rw [hr] at hR; exact hR.elim

/-! ### Registers -/

/-- The first registers of both kinds have values. -/
def Made (σ0 : Id → Option Int) (n : Nat) (σ : Id → Option Int) : Prop :=
  (∀ i, i < n → (∃ v, σ (.var i) = some v) ∧ (∃ v, σ (.var (16 + 2 * i)) = some v) ∧ ∃ v, σ (.var (17 + 2 * i)) = some v) ∧
  ∀ z, (∀ i, i < n → z ≠ .var i ∧ z ≠ .var (16 + 2 * i) ∧ z ≠ .var (17 + 2 * i)) → σ z = σ0 z

theorem some_upd' {z w : Id} {v : Int} (h : ∃ u, σ z = some u) : ∃ u, upd σ w (some v) z = some u := by
  by_cases e : z = w
  · subst e; exact ⟨v, upd_self ..⟩
  · rw [upd_ne _ _ e]; exact h

theorem initLoop_spec {Q : Unit → Mem → Prop} (hE : Ref env E) (h0 : ∀ i, i < 48 → σ0 (.var i) = none) : ∀ (n i : Nat) {m : Mem} {σ : Id → Option Int}, i + n = 16 →
    R2 m σ → Made σ0 i σ → (∀ m' σ', R2 m' σ' → Inv σ0 σ' → Q () m') → wp env E (initLoop n i) Q m
  | 0, i, m, σ, hi, h, g, hQ => by
    obtain rfl : i = 16 := by omega
    refine wp_pure (hQ m σ h ⟨fun j hj => ?_, fun z hz => g.2 z fun k hk => ⟨hz k (by omega), hz _ (by omega), hz _ (by omega)⟩⟩)
    by_cases h1 : j < 16
    · exact (g.1 j h1).1
    · rcases Nat.even_or_odd' j with ⟨k, rfl | rfl⟩
      · have := (g.1 (k - 8) (by omega)).2.1
        rwa [show 16 + 2 * (k - 8) = 2 * k by omega] at this
      · have := (g.1 (k - 8) (by omega)).2.2
        rwa [show 17 + 2 * (k - 8) = 2 * k + 1 by omega] at this
  | n + 1, i, m, σ, hi, h, g, hQ => by
    unfold initLoop g_zreg g_qreg NUM_REGS
    rw [if_pos (by omega), if_pos (by omega)]
    have s1 : σ (.var i) = none := by
      rw [g.2 _ fun k hk => ⟨by simp; omega, by simp; omega, by simp; omega⟩]; exact h0 i (by omega)
    have s2 : σ (.var (16 + 2 * i)) = none := by
      rw [g.2 _ fun k hk => ⟨by simp; omega, by simp; omega, by simp; omega⟩]; exact h0 _ (by omega)
    have s3 : σ (.var (17 + 2 * i)) = none := by
      rw [g.2 _ fun k hk => ⟨by simp; omega, by simp; omega, by simp; omega⟩]; exact h0 _ (by omega)
    refine wp_bind (wp_pure (wp_bind (mp_int_init_spec h (h.declVar i) s1 fun m1 h1 => wp_bind (wp_cassert (by simp) ?_))))
    refine wp_bind (wp_pure (wp_bind (mp_rat_init_spec (c := ⟨.var (16 + 2 * i), .var (17 + 2 * i)⟩) hE h1 (h1.declVar _) (by simp) (fun m' σ' h' => h'.declVar _)
      ?_ ?_ rfl fun m2 h2 => wp_bind (wp_cassert (by simp) ?_))))
    · rw [upd_ne _ _ (by simp; omega)]; exact s2
    · rw [upd_ne _ _ (by simp; omega)]; exact s3
    refine initLoop_spec hE h0 n (i + 1) (by omega) h2 ⟨fun j hj => ?_, fun z hz => ?_⟩ hQ
    · unfold updQ
      by_cases e : j = i
      · subst e
        refine ⟨some_upd' (some_upd' ⟨_, upd_self ..⟩), some_upd' ⟨_, upd_self ..⟩, ⟨_, upd_self ..⟩⟩
      · obtain ⟨a, b, c⟩ := g.1 j (by omega)
        exact ⟨some_upd' (some_upd' (some_upd' a)), some_upd' (some_upd' (some_upd' b)), some_upd' (some_upd' (some_upd' c))⟩
    · obtain ⟨a, b, c⟩ := hz i (by omega)
      unfold updQ
      rw [upd_ne _ _ c, upd_ne _ _ b, upd_ne _ _ a]
      exact g.2 z fun k hk => hz k (by omega)

/-- The registers from number `i` on are left. -/
def Left (σ0 : Id → Option Int) (i : Nat) (σ : Id → Option Int) : Prop :=
  (∀ k, i ≤ k → k < 16 → (∃ v, σ (.var k) = some v) ∧ (∃ v, σ (.var (16 + 2 * k)) = some v) ∧ ∃ v, σ (.var (17 + 2 * k)) = some v) ∧
  ∀ z, (∀ k, i ≤ k → k < 16 → z ≠ .var k ∧ z ≠ .var (16 + 2 * k) ∧ z ≠ .var (17 + 2 * k)) → σ z = σ0 z

theorem done_testing_spec {Q : Unit → Mem → Prop} (h0 : ∀ i, i < 48 → σ0 (.var i) = none) : ∀ (n i : Nat) {m : Mem} {σ : Id → Option Int}, i + n = 16 → R2 m σ →
    Left σ0 i σ → (∀ m', R2 m' σ0 → Q () m') → wp env E (done_testing n i) Q m
  | 0, i, m, σ, hi, h, g, hQ => by
    have e : σ = σ0 := funext fun z => g.2 z fun k h1 h2 => by omega
    subst e
    exact wp_pure (hQ m h)
  | n + 1, i, m, σ, hi, h, g, hQ => by
    unfold done_testing g_zreg g_qreg NUM_REGS
    rw [if_pos (by omega), if_pos (by omega)]
    obtain ⟨⟨a, ha⟩, ⟨b, hb⟩, ⟨c, hc⟩⟩ := g.1 i (by omega) (by omega)
    refine wp_bind (wp_pure (wp_bind (mp_int_clear_spec h ha fun m1 h1 => ?_)))
    refine wp_bind (wp_pure (wp_bind (mp_rat_clear_spec h1 (by omega) (by rw [upd_ne _ _ (by simp; omega)]; exact hb)
      (by rw [upd_ne _ _ (by simp; omega)]; exact hc) fun m2 h2 => ?_)))
    refine done_testing_spec h0 n (i + 1) (by omega) h2 ⟨fun k k1 k2 => ?_, fun z hz => ?_⟩ hQ
    · have ne : ∀ j, j ≠ i → j ≠ 16 + 2 * i → j ≠ 17 + 2 * i →
          upd (upd (upd σ (.var i) none) (.var (16 + 2 * i)) none) (.var (17 + 2 * i)) none (.var j) = σ (.var j) := by
        intro j n1 n2 n3
        rw [upd_ne _ _ (by simpa using n3), upd_ne _ _ (by simpa using n2), upd_ne _ _ (by simpa using n1)]
      rw [ne _ (by omega) (by omega) (by omega), ne _ (by omega) (by omega) (by omega), ne _ (by omega) (by omega) (by omega)]
      exact g.1 k (by omega) k2
    · by_cases e3 : z = .var (17 + 2 * i)
      · rw [e3, upd_self, h0 _ (by omega)]
      rw [upd_ne _ _ e3]
      by_cases e2 : z = .var (16 + 2 * i)
      · rw [e2, upd_self, h0 _ (by omega)]
      rw [upd_ne _ _ e2]
      by_cases e1 : z = .var i
      · rw [e1, upd_self, h0 _ (by omega)]
      rw [upd_ne _ _ e1]
      refine g.2 z fun k k1 k2 => ?_
      by_cases e : k = i
      · subst e; exact ⟨e1, e2, e3⟩
      · exact hz k (by omega) k2

/-! ### `main` -/

/-- What has to hold at the exit. -/
def XPost (E : Fault → Prop) (σ0 : Id → Option Int) (Q : Int × Drv → Mem → Prop) : Exit → Prop
  | .exit s text => ∀ d' m' σ', R2 m' σ' → Inv σ0 σ' → d'.out = text → Q (s, d') m'
  | .crash f => E f
  | .unknown => False

theorem mainLoop_spec {files : Bytes → Option Bytes} {fps : Nat → Nat} {secs : Nat → Bytes} {Q : Int × Drv → Mem → Prop} (hE : Ref env E) :
    ∀ (args : List Bytes) (k : Nat) (inp : Option Bytes) (st : Nat × Nat) (status : Int) (d : Drv) {m : Mem} {σ : Id → Option Int}, Buf d → R2 m σ → Inv σ0 σ →
    XPost E σ0 Q (runArgs (libOf env) files fps secs args k inp st status d.out) → wp env E (mainLoop files fps secs args k inp st status d) Q m
  | [], k, inp, st, status, d, m, σ, hd, h, hI, hX => wp_pure (hX d m σ h hI rfl)
  | a :: as, k, inp, st, status, d, m, σ, hd, h, hI, hX => by
    unfold mainLoop
    rw [runArgs.eq_def] at hX
    dsimp only at hX ⊢
    have next : ∀ s inp', XPost E σ0 Q (match report (libOf env) a (linesOf (if fps k = st.1 then st.2 else 0) s) ⟨0, 0, 0⟩ d.out with
        | .done n text => runArgs (libOf env) files fps secs as (k + 1) inp' (fps k, (if fps k = st.1 then st.2 else 0) + lineCount s)
            (if n.failed = 0 ∧ n.errors = 0 then status else 1) (text ++ summary a (secs k) n)
        | .crash f => .crash f
        | .unknown => .unknown) →
        wp env E (do
          let r ← process_file g_tests a s (if fps k = st.1 then st.2 else 0) (secs k) d
          mainLoop files fps secs as (k + 1) inp' (fps k, r.1) (if r.2.1 then status else 1) r.2.2) Q m := by
      intro s inp' hX
      refine wp_bind (process_file_spec hE hd h hI ?_)
      cases hr : report (libOf env) a (linesOf (if fps k = st.1 then st.2 else 0) s) ⟨0, 0, 0⟩ d.out with
      | done n text =>
        rw [hr] at hX
        intro d' m' σ' h' I' b' o'
        have := mainLoop_spec (Q := Q) hE as (k + 1) inp' (fps k, (if fps k = st.1 then st.2 else 0) + lineCount s)
          (if n.failed = 0 ∧ n.errors = 0 then status else 1) d' (m := m') b' h' I' (by rw [o']; exact hX)
        simpa using this
      | crash f => rw [hr] at hX; exact hX
      | unknown => rw [hr] at hX; exact hX.elim
    by_cases ha : a = [45]
    · rw [if_pos ha] at hX
      refine wp_if_pos ha ?_
      cases inp with
      | none => exact wp_fault (f := .ub) rfl hX
      | some s => exact next s none hX
    · rw [if_neg ha] at hX
      refine wp_if_neg ha ?_
      cases hfa : files a with
      | none => rw [hfa] at hX; exact wp_pure (hX d m σ h hI rfl)
      | some s => rw [hfa] at hX; exact next s inp hX

/-- What has to hold after `main`. -/
def MPost (E : Fault → Prop) (σ0 : Id → Option Int) (Q : Int × Bytes → Mem → Prop) : Exit → Prop
  | .exit s text => ∀ m', R2 m' σ0 → Q (s, text) m'
  | .crash f => E f
  | .unknown => False

theorem imtestMain_spec {args : List Bytes} {files : Bytes → Option Bytes} {inp : Bytes} {fps : Nat → Nat} {secs : Nat → Bytes} {Q : Int × Bytes → Mem → Prop}
    (hE : Ref env E) (h0 : ∀ i, i < 48 → σ (.var i) = none) (h : R2 m σ) (hX : MPost E σ Q (runMain (libOf env) args files inp fps secs)) :
    wp env E (imtestMain args files inp fps secs) Q m := by
  unfold imtestMain init_testing
  refine wp_bind (wp_bind (initLoop_spec (σ0 := σ) hE h0 NUM_REGS 0 rfl h ⟨fun i hi => by omega, fun z _ => rfl⟩ fun m1 σ1 h1 I1 => wp_pure ?_))
  have hd : Buf ⟨0, List.replicate OUTPUT_LIMIT 0, List.replicate OUTPUT_LIMIT 0, List.replicate OUTPUT_LIMIT 0, []⟩ :=
    ⟨List.length_replicate .., List.length_replicate .., List.length_replicate ..⟩
  have fin : ∀ (s : Int) (d' : Drv) m' σ', R2 m' σ' → Inv σ σ' → (∀ m'', R2 m'' σ → Q (s, d'.out) m'') →
      wp env E (do
        done_testing NUM_REGS 0
        pure (s, d'.out)) Q m' := by
    intro s d' m' σ' h' I' hQ
    refine wp_bind (done_testing_spec h0 NUM_REGS 0 rfl h' ⟨fun k _ hk => ⟨I'.1 k (by omega), I'.1 _ (by omega), I'.1 _ (by omega)⟩, fun z hz => I'.2 z fun i hi => ?_⟩
      fun m'' h'' => wp_pure (hQ m'' h''))
    by_cases h1 : i < 16
    · exact (hz i (by omega) h1).1
    · rcases Nat.even_or_odd' i with ⟨k, rfl | rfl⟩
      · have := (hz (k - 8) (by omega) (by omega)).2.1
        rwa [show 16 + 2 * (k - 8) = 2 * k by omega] at this
      · have := (hz (k - 8) (by omega) (by omega)).2.2
        rwa [show 17 + 2 * (k - 8) = 2 * k + 1 by omega] at this
  unfold runMain at hX
  by_cases ha : args = []
  · rw [if_pos ha] at hX
    refine wp_bind (wp_cif (fun _ => wp_bind (process_file_spec hE hd h1 I1 ?_)) fun k => absurd ha k)
    cases hr : report (libOf env) [45] (linesOf 0 inp) ⟨0, 0, 0⟩ [] with
    | done n text =>
      rw [hr] at hX
      intro d' m' σ' h' I' b' o'
      refine wp_pure (fin _ d' m' σ' h' I' fun m'' h'' => ?_)
      have := hX m'' h''
      rw [o']
      simpa using this
    | crash f => rw [hr] at hX; exact hX
    | unknown => rw [hr] at hX; exact hX.elim
  · rw [if_neg ha] at hX
    refine wp_bind (wp_cif (fun k => absurd k ha) fun _ => mainLoop_spec hE args 0 (some inp) (0, 0) 0 _ hd h1 I1 ?_)
    show XPost E σ _ (runArgs (libOf env) files fps secs args 0 (some inp) (0, 0) 0 [])
    cases hr : runArgs (libOf env) files fps secs args 0 (some inp) (0, 0) 0 [] with
    | exit s text =>
      rw [hr] at hX
      intro d' m' σ' h' I' o'
      exact fin _ d' m' σ' h' I' fun m'' h'' => by rw [o']; exact hX m'' h''
    | crash f => rw [hr] at hX; exact hX
    | unknown => rw [hr] at hX; exact hX.elim

end Imath
