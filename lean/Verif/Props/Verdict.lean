import Verif.Proof.Run3
import Verif.Props.Driver
import Verif.Props.Basic

/-!
# Properties of the test driver: answers and reports (C72, C73)
-/

namespace Imath

variable {env : Env} {m : Mem} {ρ : Nat → Option Int}

theorem TextsIn.arrays {ls ts : List Bytes} (h : TextsIn ls ts) : Arrays ls ts :=
  List.forall₂_iff_get.2 ⟨h.1, fun i h1 h2 => h.2 i _ _ (List.getElem?_eq_getElem h1) (List.getElem?_eq_getElem h2)⟩

theorem Inv.state {σ : Id → Option Int} {m' : Mem} (h : R2 m' σ) (hI : Inv (lift ρ) σ) :
    ∃ ρ', State m' ρ' ∧ (∀ i, i < 48 → ∃ v, ρ' i = some v) ∧ ∀ i, 48 ≤ i → ρ' i = ρ i := by
  refine ⟨fun n => σ (.var n), R2.state ?_, fun i hi => hI.1 i hi, fun i hi => ?_⟩
  · convert h using 1
    funext z
    cases z with
    | var n => rfl
    | tmp n => exact (hI.2 (.tmp n) (by simp)).symm
    | fake n => exact (hI.2 (.fake n) (by simp)).symm
  · exact hI.2 (.var i) fun j hj e => by cases e; omega

theorem inv_lift (hr : ∀ i, i < 48 → ∃ v, ρ i = some v) : Inv (lift ρ) (lift ρ) := ⟨hr, fun _ _ => rfl⟩

/-! ### C72: `run_test` -/

/-- The registers (variables 0 to 47) still have values, and the other variables have not changed. -/
def OnlyRegisters (ρ : Nat → Option Int) (m' : Mem) : Prop :=
  ∃ ρ', State m' ρ' ∧ (∀ i, i < 48 → ∃ v, ρ' i = some v) ∧ ∀ i, 48 ≤ i → ρ' i = ρ i

/-- The arrays of the driver have the sizes they are declared with. -/
def Sizes (d : Drv) : Prop := d.g_output.length = 2048 ∧ d.g_bin1.length = 2048 ∧ d.g_bin2.length = 2048

/-- `run_test` on any test whatsoever: the answer is that of the reference.  The full statement has no case `unknown`; what is missing
are the tests that the reference leaves open (see `C72_decided`). -/
theorem C72_run_test_partial (env : Env) : ∃ L : Lib, L.Sound ∧ ∀ (m : Mem) (ρ : Nat → Option Int), State m ρ →
    (∀ i, i < 48 → ∃ v, ρ i = some v) → ∀ (t : Test) (num : Nat) (d : Drv) (code R : Bytes) (ins outs : List Bytes), Sizes d →
    t.code = code ++ 0 :: R → 0 ∉ code → TextsIn t.input ins → TextsIn t.output outs →
    (∀ s ∈ ins ++ outs, 0 ∉ s ∧ s.length ≤ 800000000) →
    match answer (lineStart t.file t.line num) (verdictOf L t.line code ins outs) with
    | .passed s => Runs env (run_test g_tests num t d) m fun r m' => r.1 = 1 ∧ r.2.out = d.out ++ s ∧ Sizes r.2 ∧ OnlyRegisters ρ m'
    | .failed s => Runs env (run_test g_tests num t d) m fun r m' => r.1 = 0 ∧ r.2.out = d.out ++ s ∧ Sizes r.2 ∧ OnlyRegisters ρ m'
    | .bogus => Runs env (run_test g_tests num t d) m fun r m' => r = (-1, d) ∧ OnlyRegisters ρ m'
    | .crash f => FaultsOr env (run_test g_tests num t d) m f
    | .unknown => True := by
  refine ⟨libOf env, libOf_sound env, fun m ρ h hr t num d code R ins outs hd hc h0 hi ho hok => ?_⟩
  have key : ∀ {E : Fault → Prop} {Q : Int × Drv → Mem → Prop}, Ref env E →
      APost E (lift ρ) d Q (answer (lineStart t.file t.line num) (verdictOf (libOf env) t.line code ins outs)) →
      wp env E (run_test g_tests num t d) Q m := fun hE hA =>
    run_test_spec hE hd hc h0 hi.arrays ho.arrays (fun s hs => hok s (List.mem_append_left _ hs)) (fun s hs => hok s (List.mem_append_right _ hs)) h.r2
      (inv_lift hr) hA
  cases ha : answer (lineStart t.file t.line num) (verdictOf (libOf env) t.line code ins outs) with
  | passed s =>
    refine .of_wp (key (ref_refused env) ?_)
    rw [ha]
    exact fun d' m' σ' h' I' b' o' => ⟨rfl, o', b', I'.state h'⟩
  | failed s =>
    refine .of_wp (key (ref_refused env) ?_)
    rw [ha]
    exact fun d' m' σ' h' I' b' o' => ⟨rfl, o', b', I'.state h'⟩
  | bogus =>
    refine .of_wp (key (ref_refused env) ?_)
    rw [ha]
    exact fun m' σ' h' I' => ⟨rfl, I'.state h'⟩
  | crash f =>
    refine .of_wp (key (ref_or env f) ?_)
    rw [ha]
    exact .inl rfl
  | unknown => trivial

/-- The registers can have values. -/
theorem registers_state : ∃ (m : Mem) (ρ : Nat → Option Int), State m ρ ∧ ∀ i, i < 48 → ∃ v, ρ i = some v := by
  obtain ⟨m, h⟩ := vars_state (l := List.replicate 48 7) (by intro v hv; rw [List.eq_of_mem_replicate hv]; norm_num)
  exact ⟨m, _, h, fun i hi => ⟨7, by rw [vars, List.getElem?_replicate, if_pos hi]⟩⟩

-- the hypotheses can be met, by the test `neg:5,0:-5`
example : ∃ (m : Mem) (ρ : Nat → Option Int) (t : Test) (d : Drv) (ins outs : List Bytes), State m ρ ∧ (∀ i, i < 48 → ∃ v, ρ i = some v) ∧ Sizes d ∧
    t.code = chars "neg" ++ 0 :: [] ∧ 0 ∉ chars "neg" ∧ TextsIn t.input ins ∧ TextsIn t.output outs ∧
    (∀ s ∈ ins ++ outs, 0 ∉ s ∧ s.length ≤ 800000000) ∧ ins.length = 2 := by
  obtain ⟨m, ρ, h, hr⟩ := registers_state
  refine ⟨m, ρ, ⟨1, [], chars "neg" ++ [0], [[53, 0], [48, 0]], [[45, 53, 0]]⟩,
    ⟨0, List.replicate 2048 0, List.replicate 2048 0, List.replicate 2048 0, []⟩, [[53], [48]], [[45, 53]], h, hr,
    ⟨List.length_replicate .., List.length_replicate .., List.length_replicate ..⟩, rfl, by decide,
    Arrays.texts (.cons ⟨[], rfl⟩ (.cons ⟨[], rfl⟩ .nil)), Arrays.texts (.cons ⟨[], rfl⟩ .nil), by decide, rfl⟩

/-! What the reference says -/

/-- The answers are not left open, except those of the tests `divp2` and `qtodec`, and of `initu` and `initv`. -/
theorem C72_decided (L : Lib) (line : Nat) (code : List Nat) (ins outs : List (List Nat)) (start : List Nat)
    (h : ∀ s ∈ openTests ++ otherTests.map Prod.fst, code ≠ chars s) : answer start (verdictOf L line code ins outs) ≠ .unknown := by
  unfold verdictOf
  by_cases hm : code = chars "meta"
  · rw [if_pos hm]
    have hk := testMeta_known line ins outs
    cases hv : testMeta line ins outs with
    | ok t => simp [answer]
    | error e =>
      obtain ⟨s, hs⟩ := hk.2 e hv
      simp [answer, hs]
    | failed t => simp [answer]
    | crash f => simp [answer]
    | unknown => exact absurd hv hk.1
  rw [if_neg hm]
  cases hf : (table L).find? fun p => chars p.1 = code with
  | none => simp [answer]
  | some p =>
    have hp := List.mem_of_find?_eq_some hf
    have hc : chars p.1 = code := by simpa using List.find?_some hf
    dsimp only
    split
    swap
    · simp [answer]
    rename_i hl
    have hk : (p.2.2.2 ins outs).Known := by
      rcases List.mem_append.1 hp with hp | hp
      · exact reference_known L p hp (fun ho => h p.1 (List.mem_append_left _ ho) hc.symm) ins outs hl.1 hl.2
      · rcases List.mem_append.1 hp with hp | hp
        · obtain ⟨q, hq, rfl⟩ := List.mem_map.1 hp
          exact absurd hc.symm (h q.1 (List.mem_append_right _ (List.mem_map_of_mem hq)))
        · exact ratReference_known p hp (fun ho => h p.1 (List.mem_append_left _ ho) hc.symm) ins outs hl.1 hl.2
    cases hv : p.2.2.2 ins outs with
    | ok t => simp [answer]
    | error e =>
      obtain ⟨s, hs⟩ := hk.2 e hv
      simp [answer, hs]
    | failed t => simp [answer]
    | crash f => simp [answer]
    | unknown => exact absurd hv hk.1

example : ∀ s ∈ openTests ++ otherTests.map Prod.fst, chars "lcm" ≠ chars s := by decide +kernel

/-- The test with the given position in the table. -/
theorem verdictOf_at {L : Lib} {p : String × Nat × Nat × (List (List Nat) → List (List Nat) → Verdict)} {ins outs : List (List Nat)} {line : Nat} (k : Nat)
    (h : (table L)[k]? = some p) (hm : chars p.1 ≠ chars "meta") (hi : ins.length = p.2.1) (ho : outs.length = p.2.2.1) :
    verdictOf L line (chars p.1) ins outs = some (p.2.2.2 ins outs) := by
  unfold verdictOf
  rw [if_neg hm]
  have hn : ((table L).map fun p => chars p.1).Nodup := by rw [table_names]; decide +kernel
  rw [find_nodup hn h]
  dsimp only
  rw [if_pos ⟨hi, ho⟩]

/-- Tests of numbers that are given by their numerals. -/
theorem C72_numerals (f : List Nat → List Int → OpRes) (xs os : List Int) (h : xs.length + os.length ≤ 16) :
    numTest f (xs.map (numeral 10)) (os.map (numeral 10)) = judge MP_OK (f (List.range xs.length) xs) os :=
  withVals_numerals xs os h

example : [1, 2, 3].length + [(3 : Int)].length ≤ 16 := by decide

theorem judge_val (v z : Int) : judge MP_OK (val1 v) [z] =
    if z = v then .ok [] else if (numeral 10 v).length < 2048 then .failed (numeral 10 v) else .crash .ub := by
  unfold judge val1
  dsimp only
  rw [if_neg (by simp)]
  by_cases e : z = v
  · rw [if_pos (by rw [e]), if_pos e]
  · rw [if_neg (by simpa using Ne.symm e), if_neg e]
    unfold wrong joined
    rw [if_neg (by decide)]
    dsimp only
    by_cases hl : (numeral 10 v).length < 2048
    · rw [if_neg (by omega), if_pos rfl, if_pos hl]
    · rw [if_pos (by omega), if_neg hl]

/-- `add:x,y,w:z` is passed if and only if `z` is the sum of `x` and `y`; otherwise the message is the sum (unless it has 2048
characters or more). -/
theorem C72_add (L : Lib) (line : Nat) (x y w z : Int) : verdictOf L line (chars "add") [numeral 10 x, numeral 10 y, numeral 10 w] [numeral 10 z] =
    some (if z = x + y then .ok [] else if (numeral 10 (x + y)).length < 2048 then .failed (numeral 10 (x + y)) else .crash .ub) :=
  (verdictOf_at (p := ("add", 3, 1, numTest (op2 fun x y => val1 (x + y)))) 4 rfl (by decide) rfl rfl).trans
    (congrArg some ((C72_numerals _ [x, y, w] [z] (by simp)).trans (judge_val (x + y) z)))

/-- The same for `mul:x,y,w:z`. -/
theorem C72_mul (L : Lib) (line : Nat) (x y w z : Int) : verdictOf L line (chars "mul") [numeral 10 x, numeral 10 y, numeral 10 w] [numeral 10 z] =
    some (if z = x * y then .ok [] else if (numeral 10 (x * y)).length < 2048 then .failed (numeral 10 (x * y)) else .crash .ub) :=
  (verdictOf_at (p := ("mul", 3, 1, numTest (op2 fun x y => val1 (x * y)))) 8 rfl (by decide) rfl rfl).trans
    (congrArg some ((C72_numerals _ [x, y, w] [z] (by simp)).trans (judge_val (x * y) z)))

theorem judgeQ_done (v z : ℚ) : judgeQ MP_OK (.done v) [z] = if z = v then .ok [] else wrongQ v := by
  unfold judgeQ
  dsimp only
  rw [if_neg (by simp)]
  by_cases e : z = v
  · rw [if_pos (by rw [e]), if_pos e]
  · rw [if_neg (by simpa using Ne.symm e), if_neg e]

/-- `qadd:x,y,w:z` is passed if and only if `z` is the sum of `x` and `y`. -/
theorem C72_qadd (L : Lib) (line : Nat) (x y w z : ℚ) : verdictOf L line (chars "qadd") [ratText 10 x, ratText 10 y, ratText 10 w] [ratText 10 z] =
    some (if z = x + y then .ok [] else wrongQ (x + y)) := by
  rw [verdictOf_at (p := ("qadd", 3, 1, ratTest2 fun _ x y => .done (x + y))) 46 rfl (by decide) rfl rfl]
  dsimp only
  rw [ratTest2_texts, judgeQ_done]

/-- The same for `qdiv:x,y,w:z` if `y` is not zero. -/
theorem C72_qdiv (L : Lib) (line : Nat) (x y w z : ℚ) (hy : y ≠ 0) : verdictOf L line (chars "qdiv") [ratText 10 x, ratText 10 y, ratText 10 w] [ratText 10 z] =
    some (if z = x / y then .ok [] else wrongQ (x / y)) := by
  rw [verdictOf_at (p := ("qdiv", 3, 1, ratTest2 fun _ x y => if y = 0 then .fails MP_UNDEF else .done (x / y))) 49 rfl
    (by decide) rfl rfl]
  dsimp only
  rw [ratTest2_texts, if_neg hy, judgeQ_done]

example : (2 / 3 : ℚ) ≠ 0 := by norm_num

/-- `qmulz:x,y,=2:z`, where the product replaces the integer, is passed if and only if `z` is the product of `x` and its
numerator: the integer is overwritten before it is used. -/
theorem C72_qmulz_overwritten (L : Lib) (line : Nat) (x : ℚ) (y : Int) (z : ℚ) : verdictOf L line (chars "qmulz") [ratText 10 x, ratText 10 y, chars "=2"] [ratText 10 z] =
    some (if z = x * x.num then .ok [] else wrongQ (x * x.num)) := by
  rw [verdictOf_at (p := ("qmulz", 3, 1, ratTest2 (intArg refMulz))) 52 rfl (by decide) rfl rfl]
  dsimp only
  rw [ratTest2_texts_ref]
  unfold intArg
  rw [if_pos (by simp)]
  unfold refMulz
  rw [if_pos rfl, judgeQ_done]

-- 1/2 * 6 is not 1/2
example (L : Lib) (line : Nat) : verdictOf L line (chars "qmulz") [chars "1/2", chars "6/1", chars "=2"] [chars "1/2"] = some (.ok []) := by
  have := C72_qmulz_overwritten L line (1 / 2) 6 (1 / 2)
  rw [if_pos (by norm_num)] at this
  have e : ratText 10 (1 / 2) = chars "1/2" := by
    unfold ratText
    rw [show (1 / 2 : ℚ).num = 1 by norm_num, show (1 / 2 : ℚ).den = 2 by norm_num, if_neg (by norm_num)]
    decide +kernel
  have e' : ratText 10 ((6 : Int) : ℚ) = chars "6/1" := by
    unfold ratText
    rw [if_neg (by norm_num), Rat.num_intCast, Rat.den_intCast]
    decide +kernel
  rwa [e, e'] at this

/-- `egcd:x,y,0,0,0:g,a,b` is passed for all positive `x` and `y`, whatever is expected: a wrong divisor is not noticed. -/
theorem C72_egcd_any (L : Lib) (line : Nat) (hL : L.Sound) (x y : Int) (hx : 0 < x) (hy : 0 < y) (g a b : Int) :
    verdictOf L line (chars "egcd") ([x, y, 0, 0, 0].map (numeral 10)) ([g, a, b].map (numeral 10)) = some (.ok []) := by
  refine (verdictOf_at (p := ("egcd", 5, 3, testEgcd L)) 20 rfl (show chars "egcd" ≠ chars "meta" by decide) rfl rfl).trans (congrArg some ?_)
  show testEgcd L _ _ = _
  unfold testEgcd
  rw [withVals_numerals [x, y, 0, 0, 0] [g, a, b] (by simp)]
  dsimp only
  rw [show List.range [x, y, 0, 0, 0].length = [0, 1, 2, 3, 4] from rfl]
  unfold egcdStores
  dsimp only
  rw [if_neg (by omega : ¬ (x = 0 ∧ y = 0)), if_neg (by omega : ¬ x = 0), if_neg (by omega : ¬ y = 0), if_neg (by simp)]
  refine if_pos (.inr ?_)
  show (L.bez x y).1 * x + (L.bez x y).2 * y = (Int.gcd x y : Int)
  have := hL.bez x y (by omega) (by omega)
  rw [abs_of_pos hx, abs_of_pos hy] at this
  exact this.symm

-- gcd(6, 4) is not 5
example (line : Nat) : ∃ L : Lib, L.Sound ∧ verdictOf L line (chars "egcd") ([6, 4, 0, 0, 0].map (numeral 10)) ([5, 9, 9].map (numeral 10)) = some (.ok []) :=
  ⟨libOf env0, libOf_sound env0, C72_egcd_any _ line (libOf_sound env0) 6 4 (by decide) (by decide) 5 9 9⟩

/-- `mulp2:x,p,0:z` is passed for all `p` from 2^32 on if the expected value is `x` times 2 to the power of `p` modulo 2^32. -/
theorem C72_mulp2_truncated (L : Lib) (line : Nat) (x : Int) (p : Nat) (hp : p < 2 ^ 63) :
    verdictOf L line (chars "mulp2") ([x, (p : Int), 0].map (numeral 10)) [numeral 10 (x * 2 ^ (p % 2 ^ 32))] = some (.ok []) := by
  refine (verdictOf_at (p := ("mulp2", 3, 1, numTest (op2 refMulp2))) 9 rfl (show chars "mulp2" ≠ chars "meta" by decide) rfl rfl).trans (congrArg some ?_)
  show numTest (op2 refMulp2) _ ([x * 2 ^ (p % 2 ^ 32)].map (numeral 10)) = _
  rw [C72_numerals _ _ _ (by simp)]
  show judge MP_OK (refMulp2 x p) _ = _
  have e : Int.toNat ((p : Int) % 2 ^ 32) = p % 2 ^ 32 := by omega
  unfold refMulp2 asLong
  rw [if_neg (by omega), if_neg (by omega), if_neg (by omega), e, judge_val, if_pos rfl]

-- 1 * 2^(2^32) = 1
example (L : Lib) (line : Nat) : verdictOf L line (chars "mulp2") ([1, ((2 ^ 32 : Nat) : Int), 0].map (numeral 10)) [numeral 10 1] = some (.ok []) :=
  C72_mulp2_truncated L line 1 (2 ^ 32) (by norm_num)

-- 2^3 = 2 if the result replaces the exponent
example : opExptf [0, 1, 1] [2, 3, 3] = .done [2] := by
  unfold opExptf val1
  norm_num

/-- `meta` prints the values given by their numerals, if none has 2048 characters or more, and is then passed. -/
theorem C72_meta (L : Lib) (line : Nat) (xs os : List Int) (h : xs.length + os.length ≤ 16)
    (hl : ∀ v ∈ xs ++ os, (numeral 10 v).length < 2048) :
    verdictOf L line (chars "meta") (xs.map (numeral 10)) (os.map (numeral 10)) =
      some (.ok (chars "Test 'meta' defined at line " ++ numeralN 10 line ++ chars "\nExpected result: 0\nInput values: " ++
        numeralN 10 xs.length ++ [10] ++ (xs.zipIdx.flatMap fun p => metaItemText p.2 p.1 ++ [10]) ++
        chars "Output values: " ++ numeralN 10 os.length ++ [10] ++ os.zipIdx.flatMap fun p => metaItemText p.2 p.1 ++ [10])) := by
  unfold verdictOf
  rw [if_pos rfl]
  unfold testMeta
  rw [withVals_numerals xs os h, if_neg (by rintro ⟨v, hv, k⟩; have := hl v hv; omega)]
  have e : (xs.zipIdx.flatMap fun p => metaItemText p.2 p.1 ++ sameAs (List.range xs.length) p.2 ++ [10]) =
      xs.zipIdx.flatMap fun p => metaItemText p.2 p.1 ++ [10] := by
    refine List.flatMap_congr fun p hp => ?_
    have hp2 : p.2 < xs.length := by
      have := List.snd_lt_of_mem_zipIdx hp
      simpa using this
    have : sameAs (List.range xs.length) p.2 = [] := by
      unfold sameAs
      rw [List.find?_eq_none.2]
      · rfl
      · intro j hj
        have hj : j < p.2 := by simpa using hj
        rw [List.getElem?_range hp2, List.getElem?_range (by omega)]
        simp
        omega
    rw [this, List.append_nil]
  rw [e, show chars "\nExpected result: 0\nInput values: " = chars "\nExpected result: " ++ numeral 10 MP_OK ++ chars "\nInput values: " by decide +kernel]
  simp

example : ∀ v ∈ [1, -2] ++ [(30 : Int)], (numeral 10 v).length < 2048 := by decide +kernel

-- A register that is used twice
example : sameAs [0, 1, 0] 2 = chars " (=> 1)" := by decide +kernel

/-- `cmpv:16,#x10:0` is not passed: the second operand is read twice, and the second time it is zero. -/
theorem C72_cmpv_tag (L : Lib) (line : Nat) : verdictOf L line (chars "cmpv") [chars "16", chars "#x10"] [chars "$#0"] =
    some (.failed (chars "Incorrect comparison result (want 0, got 1)")) := by
  refine (verdictOf_at (p := ("cmpv", 2, 1, cmpTest cmpV)) 31 rfl (by decide) rfl rfl).trans (congrArg some ?_)
  rfl

/-! ### C73: the whole program -/

/-- The driver on any arguments and files: what it prints and its exit status are those of the reference, and every variable
is as before.  The full statement has no case `unknown`; files with tests that the reference leaves open are missing.  `fps` are the addresses at which the files are opened, and `secs` the times that are printed. -/
theorem C73_driver_partial (env : Env) : ∃ L : Lib, L.Sound ∧ ∀ (m : Mem) (ρ : Nat → Option Int), State m ρ → (∀ i, i < 48 → ρ i = none) →
    ∀ (args : List Bytes) (files : Bytes → Option Bytes) (inp : Bytes) (fps : Nat → Nat) (secs : Nat → Bytes),
    match runMain L args files inp fps secs with
    | .exit s text => Runs env (imtestMain args files inp fps secs) m fun r m' => r = (s, text) ∧ State m' ρ
    | .crash f => FaultsOr env (imtestMain args files inp fps secs) m f
    | .unknown => True := by
  refine ⟨libOf env, libOf_sound env, fun m ρ h h0 args files inp fps secs => ?_⟩
  cases hs : runMain (libOf env) args files inp fps secs with
  | exit s text =>
    refine .of_wp (imtestMain_spec (ref_refused env) h0 h.r2 ?_)
    rw [hs]
    exact fun m' h' => ⟨rfl, h'.state⟩
  | crash f =>
    refine .of_wp (imtestMain_spec (ref_or env f) h0 h.r2 ?_)
    rw [hs]
    exact .inl rfl
  | unknown => trivial

example : ∃ (m : Mem) (ρ : Nat → Option Int), State m ρ ∧ ∀ i, i < 48 → ρ i = none := by
  obtain ⟨m, h⟩ := exists_state (fun _ => none) 0 (fun _ _ => rfl) (by simp)
  exact ⟨m, _, h, fun _ _ => rfl⟩

/-- A line is a test that is answered with OK. -/
def LineOK (L : Lib) (file : List Nat) (p : Nat × List Nat) : Prop :=
  ∃ code ins outs num t, lineOf p.2 = .test code ins outs ∧ answer (lineStart file p.1 num) (verdictOf L p.1 code ins outs) = .passed t

theorem report_le (L : Lib) (file : List Nat) : ∀ (ls : List (Nat × List Nat)) (n n' : Tally) (text text' : List Nat),
    report L file ls n text = .done n' text' → n.failed ≤ n'.failed ∧ n.errors ≤ n'.errors
  | [], n, n', text, text', h => by
    simp only [report, Report.done.injEq] at h
    rw [← h.1]; exact ⟨le_refl _, le_refl _⟩
  | (k, l) :: ls, n, n', text, text', h => by
    rw [report] at h
    split at h
    · have := report_le L file ls _ _ _ _ h; dsimp only at this; omega
    · simp at h
    · split at h
      · have := report_le L file ls _ _ _ _ h; dsimp only at this; omega
      · have := report_le L file ls _ _ _ _ h; dsimp only at this; omega
      · have := report_le L file ls _ _ _ _ h; dsimp only at this; omega
      · simp at h
      · simp at h

/-- No failure and no error is counted if and only if every line is a test that is answered with OK. -/
theorem C73_report (L : Lib) (file : List Nat) : ∀ (ls : List (Nat × List Nat)) (n n' : Tally) (text text' : List Nat),
    report L file ls n text = .done n' text' → ((n'.failed = n.failed ∧ n'.errors = n.errors) ↔ ∀ p ∈ ls, LineOK L file p)
  | [], n, n', text, text', h => by
    simp only [report, Report.done.injEq] at h
    rw [← h.1]; simp
  | (k, l) :: ls, n, n', text, text', h => by
    rw [report] at h
    rw [List.forall_mem_cons]
    have bad : (n.failed < n'.failed ∨ n.errors < n'.errors) → ¬ LineOK L file (k, l) →
        ((n'.failed = n.failed ∧ n'.errors = n.errors) ↔ LineOK L file (k, l) ∧ ∀ p ∈ ls, LineOK L file p) :=
      fun h1 h2 => ⟨fun h3 => by omega, fun h3 => absurd h3.1 h2⟩
    have num : ∀ s s' v t, answer s v = .passed t → ∃ t', answer s' v = .passed t' := by
      intro s s' v t hv
      match v, hv with
      | some (.ok u), hv => exact ⟨_, rfl⟩
      | some (.error e), hv => simp only [answer] at hv; split at hv <;> simp at hv
    split at h
    · rename_i hl
      have := report_le L file ls _ _ _ _ h
      dsimp only at this
      refine bad (by omega) ?_
      rintro ⟨code, ins, outs, num, t, h1, h2⟩
      simp [hl] at h1
    · simp at h
    · rename_i code ins outs hl
      have same : ∀ {P : Answer → Prop}, (∀ t, ¬ P (.passed t)) → P (answer (lineStart file k (n.tests + 1)) (verdictOf L k code ins outs)) → ¬ LineOK L file (k, l) := by
        rintro P hP hp ⟨code', ins', outs', num', t, h1, h2⟩
        dsimp only at h1
        rw [hl] at h1
        cases h1
        obtain ⟨t', ht'⟩ := num _ (lineStart file k (n.tests + 1)) _ _ h2
        rw [ht'] at hp
        exact hP _ hp
      split at h
      · rename_i t ht
        rw [C73_report L file ls _ _ _ _ h]
        exact ⟨fun h' => ⟨⟨code, ins, outs, _, t, hl, ht⟩, h'⟩, fun h' => h'.2⟩
      · rename_i t ht
        have := report_le L file ls _ _ _ _ h
        dsimp only at this
        exact bad (by omega) (same (P := fun a => a = .failed t) (by simp) ht)
      · rename_i ht
        have := report_le L file ls _ _ _ _ h
        dsimp only at this
        exact bad (by omega) (same (P := fun a => a = .bogus) (by simp) ht)
      · simp at h
      · simp at h

/-- If the exit status for the standard input is 0, every line is a test that is answered with OK, and conversely. -/
theorem C73_status (L : Lib) (files : Bytes → Option Bytes) (inp : Bytes) (fps : Nat → Nat) (secs : Nat → Bytes) (s : Int) (text : List Nat)
    (h : runMain L [] files inp fps secs = .exit s text) :
    (s = 0 ∨ s = 1) ∧ (s = 0 ↔ ∀ p ∈ linesOf 0 inp, LineOK L [45] p) := by
  unfold runMain at h
  rw [if_pos rfl] at h
  split at h
  · rename_i n t hr
    have key := C73_report L [45] _ _ _ _ _ hr
    dsimp only at key
    simp only [Exit.exit.injEq] at h
    obtain ⟨rfl, rfl⟩ := h
    split
    · rename_i h'; exact ⟨.inl rfl, iff_of_true rfl (key.1 h')⟩
    · rename_i h'; exact ⟨.inr rfl, iff_of_false (by decide) fun h'' => h' (key.2 h'')⟩
  · simp at h
  · simp at h

/-- A file that cannot be opened ends the program with status 1, and the arguments after it are not looked at. -/
theorem C73_missing (L : Lib) (a : Bytes) (as : List Bytes) (files : Bytes → Option Bytes) (inp : Bytes) (fps : Nat → Nat) (secs : Nat → Bytes)
    (ha : a ≠ [45]) (hf : files a = none) : runMain L (a :: as) files inp fps secs = .exit 1 [] := by
  unfold runMain
  rw [if_neg (by simp), runArgs, if_neg ha, hf]

example : ∃ (a : Bytes) (files : Bytes → Option Bytes), a ≠ [45] ∧ files a = none := ⟨[97], fun _ => none, by decide, rfl⟩

/-- The number of tests that have passed can be negative: for a file with one line that is not a test it is -1. -/
theorem C73_negative (L : Lib) (files : Bytes → Option Bytes) (fps : Nat → Nat) (secs : Nat → Bytes) :
    runMain L [] files (chars "add\n") fps secs = .exit 1 (chars "# - 0 tests: -1 passed, 0 failed, 1 errors. (" ++ secs 0 ++ chars " seconds)\n") := by
  unfold runMain
  rw [if_pos rfl, show linesOf 0 (chars "add\n") = [(1, chars "add")] by decide +kernel, report, show lineOf (chars "add") = .syntaxError by decide +kernel]
  dsimp only
  rw [report]
  dsimp only [summary]
  rw [if_neg (by simp)]
  rfl

/-- To name the standard input twice is undefined behaviour: it is read again after it has been closed. -/
theorem C73_twice (L : Lib) (files : Bytes → Option Bytes) (inp : Bytes) (fps : Nat → Nat) (secs : Nat → Bytes) (s : Int) (text : List Nat)
    (h : runMain L [[45]] files inp fps secs = .exit s text) : runMain L [[45], [45]] files inp fps secs = .crash .ub := by
  unfold runMain at h ⊢
  rw [if_neg (by simp), runArgs] at h ⊢
  rw [if_pos rfl] at h ⊢
  dsimp only at h ⊢
  split at h
  · rw [runArgs, if_pos rfl]
  · simp at h
  · simp at h

example (L : Lib) (files : Bytes → Option Bytes) (fps : Nat → Nat) (secs : Nat → Bytes) :
    ∃ s text, runMain L [[45]] files [] fps secs = .exit s text := ⟨_, _, rfl⟩

end Imath
