import Verif.Proof.Calc6
import Verif.Concrete
import Verif.Proof.Alloc2
import Verif.Props.Basic

/-! # The calculator program (C62, C63, C64, C65) -/

namespace Imath

variable {env : Env} {m : Mem} {ρ : Nat → Option Int}

/-! ### C62: variables made with `mp_int_alloc` -/

/-- `mp_int_alloc` makes a variable that is none of the variables of the program, with the value 0; the others
remain; and `mp_int_free` removes it, its digits and its structure, whatever value `v` it has been given before. -/
theorem C62_alloc_free (h : State m ρ) (v : Int) (hv : SMALL_MIN < v ∧ v ≤ SMALL_MAX) :
    Runs env mp_int_alloc m fun z m1 => (∀ n, z ≠ .var n) ∧ Holds m1 z 0 ∧ (∀ n x, ρ n = some x → Holds m1 (.var n) x) ∧
      (Runs env (mp_int_free z) m1 fun _ m2 => State m2 ρ ∧ m2.int z = none) ∧
      Runs env (mp_int_set_value z v) m1 fun r m2 => r = MP_OK ∧ Holds m2 z v ∧ (∀ n x, ρ n = some x → Holds m2 (.var n) x) ∧
        Runs env (mp_int_free z) m2 fun _ m3 => State m3 ρ ∧ m3.int z = none := by
  have holds : ∀ {m' : Mem} {σ : Id → Option Int} {z : Id} {x : Int}, R2 m' σ → σ z = some x → Holds m' z x := by
    intro m' σ z x h' hz
    exact h'.holds hz
  refine .of_wp (mp_int_alloc_spec (ref_refused env) h.r2 fun z m1 hz ho hn h1 => ?_)
  have vars : ∀ {m' : Mem} {w : Int}, R2 m' (upd (lift ρ) z (some w)) → ∀ n x, ρ n = some x → Holds m' (.var n) x := by
    intro m' w h' n x hx
    exact holds h' (by rw [upd_ne _ _ (hn n).symm]; exact hx)
  have fr : ∀ {m' : Mem} {w : Int}, R2 m' (upd (lift ρ) z (some w)) → Runs env (mp_int_free z) m' fun _ m2 => State m2 ρ ∧ m2.int z = none := by
    intro m' w h'
    refine .of_wp (mp_int_free_spec h' (upd_self _ _ _) ho hn fun m2 h2 hi => ⟨?_, hi⟩)
    rw [upd_upd, upd_same _ hz] at h2
    exact h2.state
  refine ⟨hn, holds h1 (upd_self _ _ _), vars h1, fr h1, ?_⟩
  refine .of_wp (mp_int_set_value_spec (ref_refused env) hv.1 hv.2 h1 (upd_self _ _ _) ho fun m2 h2 => ?_)
  rw [upd_upd] at h2
  exact ⟨rfl, holds h2 (upd_self _ _ _), vars h2, fr h2⟩

example : ∃ m, State m demo ∧ Runs env mp_int_alloc m fun z m1 => (∀ n, z ≠ .var n) ∧ Holds m1 z 0 ∧ (∀ n x, demo n = some x → Holds m1 (.var n) x) ∧
    (Runs env (mp_int_free z) m1 fun _ m2 => State m2 demo ∧ m2.int z = none) ∧
    Runs env (mp_int_set_value z (-5)) m1 fun r m2 => r = MP_OK ∧ Holds m2 z (-5) ∧ (∀ n x, demo n = some x → Holds m2 (.var n) x) ∧
      Runs env (mp_int_free z) m2 fun _ m3 => State m3 demo ∧ m3.int z = none := by
  obtain ⟨m, h⟩ := demo_state
  exact ⟨m, h, C62_alloc_free h (-5) (by decide)⟩

/-- `mp_rat_alloc` makes a rational number out of two new variables, with the value 0 / 1; the variables of the
program remain; and `mp_rat_free` removes them, their digits and their structures. -/
theorem C62_rat_alloc_free (h : State m ρ) :
    Runs env mp_rat_alloc m fun q m1 => ∃ num den, q = some ⟨num, den⟩ ∧ num ≠ den ∧ (∀ n, num ≠ .var n ∧ den ≠ .var n) ∧
      Holds m1 num 0 ∧ Holds m1 den 1 ∧ (∀ n x, ρ n = some x → Holds m1 (.var n) x) ∧
      Runs env (mp_rat_free ⟨num, den⟩) m1 fun _ m2 => State m2 ρ ∧ m2.int num = none ∧ m2.int den = none := by
  refine .of_wp (mp_rat_alloc_spec (ref_refused env) h.r2 fun num den m1 fn fd hne on od vn vd h1 => ?_)
  have en : upd (upd (lift ρ) num (some 0)) den (some 1) num = some 0 := by rw [upd_ne _ _ hne, upd_self]
  refine ⟨num, den, rfl, hne, fun n => ⟨vn n, vd n⟩, h1.holds en, h1.holds (upd_self _ _ _), fun n x hx => h1.holds ?_, ?_⟩
  · rw [upd_ne _ _ (vd n).symm, upd_ne _ _ (vn n).symm]; exact hx
  · refine .of_wp (mp_rat_free_spec h1 en (upd_self _ _ _) hne on od vn vd fun m2 h2 i1 i2 => ⟨?_, i1, i2⟩)
    have e : upd (upd (upd (upd (lift ρ) num (some 0)) den (some 1)) num none) den none = lift ρ := by
      funext i
      by_cases h3 : i = den
      · rw [h3, upd_self, fd]
      by_cases h4 : i = num
      · rw [h4, upd_ne _ _ hne, upd_self, fn]
      simp only [upd_ne _ _ h3, upd_ne _ _ h4]
    rw [e] at h2
    exact h2.state

example : ∃ m, State m demo ∧ Runs env mp_rat_alloc m fun q m1 => ∃ num den, q = some ⟨num, den⟩ ∧ num ≠ den ∧
    (∀ n, num ≠ .var n ∧ den ≠ .var n) ∧ Holds m1 num 0 ∧ Holds m1 den 1 ∧ (∀ n x, demo n = some x → Holds m1 (.var n) x) ∧
    Runs env (mp_rat_free ⟨num, den⟩) m1 fun _ m2 => State m2 demo ∧ m2.int num = none ∧ m2.int den = none := by
  obtain ⟨m, h⟩ := demo_state
  exact ⟨m, h, C62_rat_alloc_free h⟩

/-! ### C63: the program and the reference calculator -/

/-- The program computes what the reference calculator does: for all texts in the standard input and in
files it has the same output and exit status, or ends with the same fault (or a request for memory is refused).  Afterwards the variables and the heap are as before, if all files could be opened. -/
theorem C63_calculator (env : Env) : ∃ L : Lib, L.Sound ∧ ∀ (m : Mem) (ρ : Nat → Option Int), State m ρ →
    ∀ (files : Bytes → Option Bytes) (args : List Bytes) (stdin : Bytes),
    match sessions L .start 0 (tokens stdin) (inputs files args) with
    | .done c txt _ _ => Runs env (imcalcMain files args stdin) m fun r m' =>
        r = (c.toNat, txt) ∧ (.missing ∉ inputs files args → State m' ρ)
    | .crash f => FaultsOr env (imcalcMain files args stdin) m f := by
  refine ⟨libOf env, libOf_sound env, fun m ρ h files args stdin => ?_⟩
  rcases hs : sessions (libOf env) .start 0 (tokens stdin) (inputs files args) with ⟨c, txt, A, left⟩ | f
  · refine .of_wp (imcalcMain_spec (ref_refused env) h.r2 ?_)
    rw [hs]
    exact fun m' h' => ⟨rfl, fun hn => (h' hn).state⟩
  · refine .of_wp (imcalcMain_spec (ref_or env f) h.r2 ?_)
    rw [hs]
    exact .inl rfl

/-- A session in which a variable is set and used: the number 42 remains on the stack. -/
example : ∃ (L : Lib) (m : Mem), L.Sound ∧ State m demo ∧
    session L .start MP_OK (tokens (chars "6 >> x x x * x +")) = .done MP_OK [] ⟨[42], [(chars "x", 6)], 10⟩ [] := by
  obtain ⟨L, hL, _⟩ := C63_calculator env
  obtain ⟨m, hm⟩ := demo_state
  refine ⟨L, m, hL, hm, ?_⟩
  rw [show tokens (chars "6 >> x x x * x +") = [.num [54], .sym [62, 62], .sym [120], .sym [120], .sym [120], .sym [42], .sym [120], .sym [43]] by decide +kernel]
  rfl

/-- The tokens of a text with names, numbers and punctuation. -/
example : tokens (chars " 12-3 -4abc56#xFF -x>>y z") =
    [.num (chars "12-3"), .num (chars "-4abc56"), .num (chars "#xFF"), .sym (chars "-x>>y"), .sym (chars "z")] := by decide +kernel

/-- The program itself, on a text: variables, output in several radices, an unknown command, an error. -/
example : outcome (imcalcMain (fun _ => none) [] (chars "6 >> x x x * x + ; 16 out ; bin . 10 out -7 2 / ? foo 1 0 // ??")) [] =
    some ((0, chars "42\n2A\n2a\n 0: -1\n 1: -3\nx: 6\n"), []) := by decide +kernel

/-- The standard input twice, with a file between: nothing is left of it the second time. -/
example : outcome (imcalcMain (fun n => if n = [45] then some (chars "2 * .") else none) [[45], [120], [45]] (chars "4 . 5")) [] =
    some ((0, chars "4\n10\n"), []) := by decide +kernel

/-- The reference calculator on the same arguments. -/
example (L : Lib) (h : Fits L 10 4) (h' : Fits L 10 10) :
    sessions L .start 0 (tokens (chars "4 . 5")) (inputs (fun n => if n = [45] then some (chars "2 * .") else none) [[45], [120], [45]]) =
      .done 0 (chars "4\n10\n") .start [] := by
  rw [show tokens (chars "4 . 5") = [.num [52], .sym [46], .num [53]] by decide +kernel,
    show inputs (fun n => if n = [45] then some (chars "2 * .") else none) [[45], [120], [45]] = [.stdin, .text (chars "2 * ."), .stdin] by
      simp [inputs]]
  have e1 : session L .start MP_OK [.num [52], .sym [46], .num [53]] = .done MP_OK (chars "4\n") ⟨[5], [], 10⟩ [] := by
    rw [session, show numVal [52] = .ok 4 by decide +kernel]
    dsimp only
    rw [session, show command (cut [46]) = some .show by decide]
    have : Cmd.act L .show ⟨[4], [], 10⟩ = .ok MP_OK .start (line 10 4) := if_pos h
    show (match Cmd.act L .show ⟨[4], [], 10⟩ with
      | .ok code A txt => (session L A code [.num [53]]).after txt
      | .crash f => .crash f) = _
    rw [this]
    dsimp only
    rw [session, show numVal [53] = .ok 5 by decide +kernel]
    rfl
  have e2 : session L ⟨[5], [], 10⟩ MP_OK (tokens (chars "2 * .")) = .done MP_OK (chars "10\n") .start [] := by
    rw [show tokens (chars "2 * .") = [.num [50], .sym [42], .sym [46]] by decide +kernel, session, show numVal [50] = .ok 2 by decide +kernel]
    dsimp only
    rw [session, show command (cut [42]) = some .mul by decide]
    show ((session L ⟨[10], [], 10⟩ MP_OK [.sym [46]]).after []) = _
    rw [session, show command (cut [46]) = some .show by decide]
    have : Cmd.act L .show ⟨[10], [], 10⟩ = .ok MP_OK .start (line 10 10) := if_pos h'
    show (match Cmd.act L .show ⟨[10], [], 10⟩ with
      | .ok code A txt => (session L A code []).after txt
      | .crash f => .crash f).after [] = _
    rw [this]
    rfl
  rw [sessions, e1]
  dsimp only
  rw [sessions, e2]
  rfl

/-! ### C64: expressions -/

theorem fits10 {L : Lib} (hL : L.Sound) {v : Int} (hb : Nat.size v.natAbs ≤ 2147483584) : Fits L 10 v :=
  hL.fits 10 v (by norm_num) (by norm_num) hb (.inl (by decide))

theorem sessions_one {L : Lib} {s : Bytes} {files : Bytes → Option Bytes} {c : Int} {txt : List Nat} {A : Calculator} {left : List Tok}
    (h : session L .start MP_OK (tokens s) = .done c txt A left) :
    sessions L .start 0 (tokens s) (inputs files []) = .done (if c = MP_OK then 0 else 1) txt A left := by
  simp only [inputs, sessions, h]
  by_cases hc : c = MP_OK <;> simp [hc, Outcome.after]

theorem main_done {files : Bytes → Option Bytes} {s : Bytes} {c : Int} {txt : List Nat} {A : Calculator} {left : List Tok} (h : State m ρ)
    (hs : session (libOf env) .start MP_OK (tokens s) = .done c txt A left) :
    Runs env (imcalcMain files [] s) m fun r m' => r = (if c = MP_OK then 0 else 1, txt) ∧ State m' ρ := by
  refine .of_wp (imcalcMain_spec (ref_refused env) h.r2 ?_)
  rw [sessions_one hs]
  intro m' h'
  refine ⟨?_, (h' (by simp [inputs])).state⟩
  split <;> rfl

theorem main_crash {files : Bytes → Option Bytes} {s : Bytes} {f : Fault} (h : State m ρ)
    (hs : session (libOf env) .start MP_OK (tokens s) = .crash f) : FaultsOr env (imcalcMain files [] s) m f := by
  refine .of_wp (imcalcMain_spec (ref_or env f) h.r2 ?_)
  simp only [inputs, sessions, hs]
  exact .inl rfl

/-- For every expression that has a value, the program prints the value: the numbers in it have up to
16382 characters, and the value has fewer than 2147483585 bits. -/
theorem C64_expression (h : State m ρ) (files : Bytes → Option Bytes) (e : Expr) (he : e.short) {v : Int} (hv : e.value = some v)
    (hb : Nat.size v.natAbs ≤ 2147483584) :
    Runs env (imcalcMain files [] (e.text ++ chars ".")) m fun r m' => r = (0, numeral 10 v ++ [10]) ∧ State m' ρ := by
  refine main_done (c := MP_OK) (left := []) (A := .start) h ?_
  rw [e.session he hv, show tokens (chars ".") = [.sym [46]] by decide +kernel, session, show command (cut [46]) = some .show by decide]
  dsimp only
  rw [if_neg (by simp [Cmd.info]), if_neg (by decide)]
  have : Cmd.act (libOf env) .show { Calculator.start with stack := v :: Calculator.start.stack } = .ok MP_OK .start (line 10 v) := if_pos (fits10 (libOf_sound env) hb)
  rw [this]
  simp [session, Outcome.after, line]

/-- (2^100 - 7!) * gcd(-12, 18) -/
example : ∃ m, State m demo ∧
    Runs env (imcalcMain (fun _ => none) []
      (chars "2 100 ^ 7 ! - -12 18 gcd * .")) m fun r m' => r = (0, chars "7605903601369376408980219202016\n") ∧ State m' demo := by
  obtain ⟨m, h⟩ := demo_state
  refine ⟨m, h, ?_⟩
  have := C64_expression (env := env) h (fun _ => none)
    (.mul (.sub (.pow (.lit 2) (.lit 100)) (.fact (.lit 7))) (.gcd (.lit (-12)) (.lit 18)))
    (by simp only [Expr.short]; decide +kernel)
    (v := 7605903601369376408980219202016) (by decide +kernel) (by decide +kernel)
  rw [show numeral 10 7605903601369376408980219202016 ++ [10] = chars "7605903601369376408980219202016\n" by decide +kernel] at this
  exact this

/-! ### C65: deviations -/

/-- A root of exponent 0 or less ends the program by an assertion, though `mp_int_root` is there to compute roots and reports
errors by its result. -/
theorem C65_root_aborts (h : State m ρ) (files : Bytes → Option Bytes) {x y : Int} (hx : (numeral 10 x).length < 16383) (hy : (numeral 10 y).length < 16383)
    (hy1 : -2 ^ 63 < y) (hy2 : y ≤ 0) :
    FaultsOr env (imcalcMain files [] (numeral 10 x ++ chars " " ++ numeral 10 y ++ chars " root")) m .assert := by
  refine main_crash h ?_
  rw [show numeral 10 x ++ chars " " ++ numeral 10 y ++ chars " root" = numeral 10 x ++ 32 :: (numeral 10 y ++ 32 :: chars "root") by simp [chars],
    session_lit hx, session_lit hy, show tokens (chars "root") = [.sym (chars "root")] by decide +kernel, session, show command (cut (chars "root")) = some .root by decide]
  dsimp only
  rw [if_neg (by simp [Cmd.info]), if_neg (by decide)]
  have : Cmd.act (libOf env) .root ⟨y :: x :: [], [], 10⟩ = .crash .assert := by
    simp only [Cmd.act, small]
    rw [if_neg (by omega), if_neg (by omega), if_pos hy2]
  show (match Cmd.act (libOf env) .root ⟨y :: x :: [], [], 10⟩ with
    | .ok code A txt => (session (libOf env) A code []).after txt
    | .crash f => .crash f) = _
  rw [this]

/-- The program itself, on the third root of exponent -3. -/
example : ∃ m, State m demo ∧ FaultsOr env (imcalcMain (fun _ => none) [] (chars "-27 -3 root")) m .assert := by
  obtain ⟨m, h⟩ := demo_state
  have := C65_root_aborts (env := env) h (fun _ => none) (x := -27) (y := -3) (by decide +kernel) (by decide +kernel) (by norm_num) (by norm_num)
  rw [show numeral 10 (-27) ++ chars " " ++ numeral 10 (-3) ++ chars " root" = chars "-27 -3 root" by decide +kernel] at this
  exact ⟨m, h, this⟩

example : faultOf (imcalcMain (fun _ => none) [] (chars "8 0 root")) [] = some .assert := by decide +kernel

/-- An operand -2^63 where a small number is expected is undefined behaviour. -/
theorem C65_min_undefined (h : State m ρ) (files : Bytes → Option Bytes) {x : Int} (hx : (numeral 10 x).length < 16383) {c : String}
    (hc : c ∈ ["^", "expt", "root", "pick", "copy", "out"]) :
    FaultsOr env (imcalcMain files [] (numeral 10 x ++ chars " -9223372036854775808 " ++ chars c)) m .ub := by
  refine main_crash h ?_
  have e : chars " -9223372036854775808 " = 32 :: (numeral 10 (-9223372036854775808) ++ [32]) := by decide +kernel
  rw [show numeral 10 x ++ chars " -9223372036854775808 " ++ chars c = numeral 10 x ++ 32 :: (numeral 10 (-9223372036854775808) ++ 32 :: chars c) by rw [e]; simp,
    session_lit hx, session_lit (by decide +kernel)]
  simp only [List.mem_cons, List.not_mem_nil, or_false] at hc
  rcases hc with rfl | rfl | rfl | rfl | rfl | rfl
  · rw [show tokens (chars "^") = [.sym (chars "^")] by decide +kernel, session, show command (cut (chars "^")) = some .expt by decide]; rfl
  · rw [show tokens (chars "expt") = [.sym (chars "expt")] by decide +kernel, session, show command (cut (chars "expt")) = some .expt by decide]; rfl
  · rw [show tokens (chars "root") = [.sym (chars "root")] by decide +kernel, session, show command (cut (chars "root")) = some .root by decide]; rfl
  · rw [show tokens (chars "pick") = [.sym (chars "pick")] by decide +kernel, session, show command (cut (chars "pick")) = some .pick by decide]; rfl
  · rw [show tokens (chars "copy") = [.sym (chars "copy")] by decide +kernel, session, show command (cut (chars "copy")) = some .copy by decide]; rfl
  · rw [show tokens (chars "out") = [.sym (chars "out")] by decide +kernel, session, show command (cut (chars "out")) = some .out by decide]; rfl

example : ∃ m, State m demo ∧ FaultsOr env (imcalcMain (fun _ => none) [] (chars "5 -9223372036854775808 pick")) m .ub := by
  obtain ⟨m, h⟩ := demo_state
  have := C65_min_undefined (env := env) h (fun _ => none) (x := 5) (c := "pick") (by decide +kernel) (by decide)
  rw [show numeral 10 5 ++ chars " -9223372036854775808 " ++ chars "pick" = chars "5 -9223372036854775808 pick" by decide +kernel] at this
  exact ⟨m, h, this⟩

/-- Powers use the exponent modulo 2^32, without an error. -/
theorem C65_expt_wraps (h : State m ρ) (files : Bytes → Option Bytes) {x y : Int} (hx : (numeral 10 x).length < 16383) (hy : (numeral 10 y).length < 16383)
    (hy1 : 0 ≤ y) (hy2 : y < 2 ^ 63) (hb : Nat.size (x ^ (y % 2 ^ 32).toNat).natAbs ≤ 2147483584) :
    Runs env (imcalcMain files [] (numeral 10 x ++ chars " " ++ numeral 10 y ++ chars " ^ .")) m fun r m' =>
      r = (0, numeral 10 (x ^ (y % 2 ^ 32).toNat) ++ [10]) ∧ State m' ρ := by
  refine main_done (c := MP_OK) (left := []) (A := .start) h ?_
  rw [show numeral 10 x ++ chars " " ++ numeral 10 y ++ chars " ^ ." = numeral 10 x ++ 32 :: (numeral 10 y ++ 32 :: chars "^ .") by simp [chars],
    session_lit hx, session_lit hy, show tokens (chars "^ .") = [.sym [94], .sym [46]] by decide +kernel, session, show command (cut [94]) = some .expt by decide]
  dsimp only
  rw [if_neg (by simp [Cmd.info]), if_neg (by decide)]
  have : Cmd.act (libOf env) .expt ⟨y :: x :: [], [], 10⟩ = .ok MP_OK ⟨[x ^ (y % 2 ^ 32).toNat], [], 10⟩ [] := by
    simp only [Cmd.act, small]
    rw [if_neg (by omega), if_neg (by omega), if_neg (by omega)]
  show (match Cmd.act (libOf env) .expt ⟨y :: x :: [], [], 10⟩ with
    | .ok code A txt => (session (libOf env) A code [.sym [46]]).after txt
    | .crash f => .crash f) = _
  rw [this]
  dsimp only
  rw [session, show command (cut [46]) = some .show by decide]
  dsimp only
  rw [if_neg (by simp [Cmd.info]), if_neg (by decide)]
  have : Cmd.act (libOf env) .show ⟨[x ^ (y % 2 ^ 32).toNat], [], 10⟩ = .ok MP_OK .start (line 10 (x ^ (y % 2 ^ 32).toNat)) := if_pos (fits10 (libOf_sound env) hb)
  rw [this]
  simp [session, Outcome.after, line]

/-- 3 ^ (2^32 + 2) is given as 9. -/
example : ∃ m, State m demo ∧ Runs env (imcalcMain (fun _ => none) [] (chars "3 4294967298 ^ .")) m fun r m' => r = (0, chars "9\n") ∧ State m' demo := by
  obtain ⟨m, h⟩ := demo_state
  have := C65_expt_wraps (env := env) h (fun _ => none) (x := 3) (y := 4294967298) (by decide +kernel) (by decide +kernel) (by norm_num) (by norm_num)
    (by have e : ((4294967298 : Int) % 2 ^ 32).toNat = 2 := by decide
        rw [e]; decide)
  have e : ((4294967298 : Int) % 2 ^ 32).toNat = 2 := by decide
  rw [show numeral 10 3 ++ chars " " ++ numeral 10 4294967298 ++ chars " ^ ." = chars "3 4294967298 ^ ." by decide +kernel,
    e, show numeral 10 ((3 : Int) ^ 2) ++ [10] = chars "9\n" by decide +kernel] at this
  exact ⟨m, h, this⟩

/-- A negative modulus is accepted, but what is printed is not a remainder (`negResult` is at least twice the absolute
value of the modulus, see `C19_negmod_large`). -/
theorem C65_emod_negative (h : State m ρ) (files : Bytes → Option Bytes) {x y d : Int} (hx : (numeral 10 x).length < 16383)
    (hy : (numeral 10 y).length < 16383) (hd : (numeral 10 d).length < 16383) (hy1 : 0 ≤ y) (hd1 : d < 0)
    (hb : Nat.size (negResult x y.toNat d) ≤ 2147483584) :
    Runs env (imcalcMain files [] (numeral 10 x ++ chars " " ++ numeral 10 y ++ chars " " ++ numeral 10 d ++ chars " emod .")) m fun r m' =>
      r = (0, numeral 10 (negResult x y.toNat d) ++ [10]) ∧ State m' ρ := by
  refine main_done (c := MP_OK) (left := []) (A := .start) h ?_
  rw [show numeral 10 x ++ chars " " ++ numeral 10 y ++ chars " " ++ numeral 10 d ++ chars " emod ." =
      numeral 10 x ++ 32 :: (numeral 10 y ++ 32 :: (numeral 10 d ++ 32 :: chars "emod .")) by simp [chars],
    session_lit hx, session_lit hy, session_lit hd, show tokens (chars "emod .") = [.sym (chars "emod"), .sym [46]] by decide +kernel, session,
    show command (cut (chars "emod")) = some .emod by decide]
  dsimp only
  rw [if_neg (by simp [Cmd.info]), if_neg (by decide)]
  have : Cmd.act (libOf env) .emod ⟨d :: y :: x :: [], [], 10⟩ = .ok MP_OK ⟨[(negResult x y.toNat d : Int)], [], 10⟩ [] := by
    simp only [Cmd.act]
    rw [if_neg (by omega), if_neg (by omega), if_pos hd1]
  show (match Cmd.act (libOf env) .emod ⟨d :: y :: x :: [], [], 10⟩ with
    | .ok code A txt => (session (libOf env) A code [.sym [46]]).after txt
    | .crash f => .crash f) = _
  rw [this]
  dsimp only
  rw [session, show command (cut [46]) = some .show by decide]
  dsimp only
  rw [if_neg (by simp [Cmd.info]), if_neg (by decide)]
  have : Cmd.act (libOf env) .show ⟨[(negResult x y.toNat d : Int)], [], 10⟩ = .ok MP_OK .start (line 10 (negResult x y.toNat d)) :=
    if_pos (fits10 (libOf_sound env) (by simpa using hb))
  rw [this]
  simp [session, Outcome.after, line]

/-- 2 ^ 3 modulo -5 is given as 13. -/
example : ∃ m, State m demo ∧ Runs env (imcalcMain (fun _ => none) [] (chars "2 3 -5 emod .")) m fun r m' => r = (0, chars "13\n") ∧ State m' demo := by
  obtain ⟨m, h⟩ := demo_state
  have := C65_emod_negative (env := env) h (fun _ => none) (x := 2) (y := 3) (d := -5) (by decide +kernel) (by decide +kernel) (by decide +kernel)
    (by norm_num) (by norm_num) (by decide +kernel)
  rw [show numeral 10 2 ++ chars " " ++ numeral 10 3 ++ chars " " ++ numeral 10 (-5) ++ chars " emod ." = chars "2 3 -5 emod ." by decide +kernel,
    show numeral 10 ((negResult 2 (3 : Int).toNat (-5) : Nat) : Int) ++ [10] = chars "13\n" by decide +kernel] at this
  exact ⟨m, h, this⟩

/-- The program writes beyond the end of an array that it has allocated: for 13^5458 in radix 13. -/
theorem C65_overrun (h : State m ρ) (files : Bytes → Option Bytes) :
    FaultsOr env (imcalcMain files [] (chars "13 5458 ^ 13 out .")) m .ub := by
  refine main_crash h ?_
  rw [show chars "13 5458 ^ 13 out ." = numeral 10 13 ++ 32 :: (numeral 10 5458 ++ 32 :: ([94] ++ 32 :: (numeral 10 13 ++ 32 :: chars "out ."))) by decide +kernel,
    session_lit (by decide +kernel), session_lit (by decide +kernel),
    session_word (k := 94) (w := []) (c := .expt) (code' := MP_OK) (A' := ⟨[13 ^ 5458], [], 10⟩) (txt := []) (by decide) (by decide) (by decide) (by decide) (by decide) (by decide) (by decide)
      (by simp [Cmd.info]) ?_,
    after_nil, session_lit (by decide +kernel), show tokens (chars "out .") = [.sym (chars "out"), .sym [46]] by decide +kernel,
    session, show command (cut (chars "out")) = some .out by decide]
  · show (match Cmd.act (libOf env) .out ⟨[13, 13 ^ 5458], [], 10⟩ with
      | .ok code A txt => (session (libOf env) A code [.sym [46]]).after txt
      | .crash f => .crash f) = _
    rw [show Cmd.act (libOf env) .out ⟨[13, 13 ^ 5458], [], 10⟩ = .ok MP_OK ⟨[13 ^ 5458], [], 13⟩ [] from rfl]
    dsimp only
    rw [session, show command (cut [46]) = some .show by decide]
    show ((match Cmd.act (libOf env) .show ⟨[13 ^ 5458], [], 13⟩ with
      | .ok code A txt => (session (libOf env) A code []).after txt
      | .crash f => .crash f) : Outcome).after [] = _
    have hf : ¬ Fits (libOf env) 13 (13 ^ 5458) := by
      have e1 : ((13 : Int) ^ 5458).natAbs = 13 ^ 5458 := by rw [Int.natAbs_pow]; rfl
      have e2 : Nat.size (13 ^ 5458) = 20197 := by
        have a1 : 13 ^ 5458 < 2 ^ 20197 := by decide +kernel
        have a2 : 2 ^ 20196 ≤ 13 ^ 5458 := by decide +kernel
        have := Nat.size_le.2 a1
        have := Nat.lt_size.2 a2
        omega
      have e3 : (numeral 13 (13 ^ 5458)).length = 5459 := by
        have hn : (13 : Nat) ^ 5458 ≠ 0 := pow_ne_zero _ (by norm_num)
        have hnn : ¬ (13 : Int) ^ 5458 < 0 := by
          have : (0 : Int) ≤ 13 ^ 5458 := pow_nonneg (by norm_num) _
          omega
        unfold numeral numeralN
        rw [if_neg hnn, e1, if_neg hn, List.nil_append, List.length_reverse, List.length_map,
          Nat.length_digits 13 _ (by norm_num) hn, Nat.log_pow (by norm_num)]
      have hpos : (0 : Int) < 13 ^ 5458 := pow_pos (by norm_num) _
      have hl : s_log2.getD 13 0 = 270238154 := rfl
      have h4 := (room_facts env (r := 13) (v := 13 ^ 5458) (by norm_num) (by norm_num) (by rw [e1, e2]; norm_num)).2.2 hpos
      rw [e1, e2, hl] at h4
      unfold Fits
      rw [e3]
      generalize (libOf env).room 13 (13 ^ 5458) = o at h4
      omega
    have : Cmd.act (libOf env) .show ⟨[13 ^ 5458], [], 13⟩ = .crash .ub := if_neg hf
    rw [this]
    rfl
  · simp only [Cmd.act, small]
    rw [if_neg (by norm_num), if_neg (by norm_num), if_neg (by norm_num)]
    rfl

example : ∃ m, State m demo := demo_state

/-- The exit status tells only of the last command of an input: after a division by zero it may be 0. -/
theorem C65_status (h : State m ρ) (files : Bytes → Option Bytes) (e : Expr) (he : e.short) {v : Int} (hv : e.value = some v) {x : Int} (hx : (numeral 10 x).length < 16383)
    (hb : Nat.size v.natAbs ≤ 2147483584) :
    Runs env (imcalcMain files [] (numeral 10 x ++ chars " 0 // " ++ e.text ++ chars ".")) m fun r m' => r = (0, numeral 10 v ++ [10]) ∧ State m' ρ := by
  refine main_done (c := MP_OK) (left := []) (A := ⟨[0, x], [], 10⟩) h ?_
  rw [show numeral 10 x ++ chars " 0 // " ++ e.text ++ chars "." = numeral 10 x ++ 32 :: (numeral 10 0 ++ 32 :: ([47, 47] ++ 32 :: (e.text ++ chars "."))) by
      rw [show chars " 0 // " = 32 :: (numeral 10 0 ++ 32 :: ([47, 47] ++ [32])) by decide +kernel]; simp,
    session_lit hx, session_lit (by decide +kernel)]
  refine (session_word (k := 47) (w := [47]) (c := .div) (code' := MP_UNDEF) (A' := ⟨[0, x], [], 10⟩) (txt := []) (by decide) rfl (by decide) (by decide) (by decide) (by decide) (by decide)
      (by simp [Cmd.info]) rfl).trans ?_
  rw [after_nil]
  refine (e.session he hv _ _ _).trans ?_
  rw [show tokens (chars ".") = [.sym [46]] by decide +kernel, session, show command (cut [46]) = some .show by decide]
  have : Cmd.act (libOf env) .show ⟨[v, 0, x], [], 10⟩ = .ok MP_OK ⟨[0, x], [], 10⟩ (line 10 v) := if_pos (fits10 (libOf_sound env) hb)
  show (match Cmd.act (libOf env) .show ⟨[v, 0, x], [], 10⟩ with
    | .ok code A txt => (session (libOf env) A code []).after txt
    | .crash f => .crash f) = _
  rw [this]
  simp [session, Outcome.after, line]

/-- A division by zero, with status 0; and at the end, with status 1. -/
example : outcome (imcalcMain (fun _ => none) [] (chars "1 0 // 5 .")) [] = some ((0, chars "5\n"), []) ∧
    outcome (imcalcMain (fun _ => none) [] (chars "5 . 1 0 //")) [] = some ((1, chars "5\n"), []) := by decide +kernel

/-- Of several files, the first one is read over and over again: the names of the others do not matter. -/
theorem C65_first_file (files : Bytes → Option Bytes) (first : Bytes) (args args' : List Bytes) (stdin : Bytes)
    (hl : args.length = args'.length) (h1 : [45] ∉ args) (h2 : [45] ∉ args') :
    imcalcMain files (first :: args) stdin = imcalcMain files (first :: args') stdin := by
  have key : ∀ (args args' : List Bytes) (stdin : Bytes) (sp : Calc) (errs : Nat), args.length = args'.length → [45] ∉ args → [45] ∉ args' →
      filesLoop files first args stdin sp errs = filesLoop files first args' stdin sp errs := by
    intro args
    induction args with
    | nil => intro args' stdin sp errs hl _ _; rw [List.length_eq_zero_iff.1 hl.symm]
    | cons a args ih =>
      intro args' stdin sp errs hl h1 h2
      rcases args' with _ | ⟨a', args'⟩
      · simp at hl
      · simp only [List.mem_cons, not_or] at h1 h2
        unfold filesLoop
        rw [if_neg (Ne.symm h1.1), if_neg (Ne.symm h2.1)]
        cases files first with
        | none => rfl
        | some inp =>
          dsimp only
          congr 1
          funext r
          exact ih args' stdin r.2 _ (by simpa using hl) h1.2 h2.2
  unfold imcalcMain
  dsimp only
  congr 1
  funext sp
  congr 1
  unfold filesLoop
  by_cases hf : first = [45]
  · rw [if_pos hf, if_pos hf]
    congr 1
    funext r
    exact key _ _ _ _ _ hl h1 h2
  · rw [if_neg hf, if_neg hf]
    cases files first with
    | none => rfl
    | some inp =>
      dsimp only
      congr 1
      funext r
      exact key _ _ _ _ _ hl h1 h2

/-- Two files. -/
example : outcome (imcalcMain (fun a => if a = chars "a" then some (chars "1 .") else some (chars "2 .")) [chars "a", chars "b"] []) [] =
    some ((0, chars "1\n1\n"), []) := by decide +kernel

/-- The coefficients of `xgcd` are documented as those for the operands; they are those for the magnitudes:
for -4 and 6 the program finds 2 = -1 * 4 + 1 * 6. -/
theorem C65_xgcd_negative :
    outcome (imcalcMain (fun _ => none) [] (chars "-4 6 xgcd ?")) [] = some ((0, chars " 0: 1\n 1: -1\n 2: 2\n"), []) ∧ (-1) * (-4) + 1 * 6 ≠ (2 : Int) := by
  decide +kernel

/-- The remainder of `/` is documented as lying between 0 and the divisor; it may be negative. -/
theorem C65_divmod_negative :
    outcome (imcalcMain (fun _ => none) [] (chars "-7 2 / .")) [] = some ((0, chars "-1\n"), []) := by decide +kernel

end Imath
