import Verif.Model.Tests
import Verif.SpecTests
import Verif.Proof.GmpIO
import Verif.Proof.Exptmod
import Verif.Proof.Rsa
import Verif.Proof.Read
import Verif.Proof.Calc3
import Verif.Proof.Bridge
import Verif.Proof.Alloc2
import Verif.Proof.Pi
import Verif.Proof.Overrun

/-!
# Lemmas for the timing program and the test programs
-/

namespace Imath

variable {env : Env} {E : Fault → Prop} {m : Mem} {s : Id → Option Cell} {σ : Id → Option Int} {z : Id} {C : Cell}
  {X : List Nat} {rnd : Nat → Nat}

/-! ### imtimer.c -/

theorem randStep {d x : Nat} (hd : d < 16777216) : u32 (d <<< 8) ||| (x &&& 255) = d * 256 + x % 256 := by
  have h1 : x &&& 255 = x % 256 := Nat.and_two_pow_sub_one_eq_mod x 8
  have h2 : u32 (d <<< 8) = d <<< 8 := by
    rw [Nat.shiftLeft_eq]; unfold u32; omega
  rw [h1, h2, ← Nat.shiftLeft_add_eq_or_of_lt (show x % 256 < 2 ^ 8 by omega), Nat.shiftLeft_eq]

theorem randDigit_eq (p : Nat) : randDigit rnd p 4 0 =
    16777216 * (rnd p % 256) + 65536 * (rnd (p + 1) % 256) + 256 * (rnd (p + 2) % 256) + rnd (p + 3) % 256 := by
  unfold randDigit; rw [randStep (by omega)]
  unfold randDigit; rw [randStep (by omega)]
  unfold randDigit; rw [randStep (by omega)]
  unfold randDigit; rw [randStep (by omega)]
  unfold randDigit
  simp only [Nat.add_assoc, Nat.reduceAdd]
  omega

theorem randDigit_lt (p : Nat) : randDigit rnd p 4 0 < 𝔹 := by rw [randDigit_eq]; omega

theorem randLoop_spec {Q : Nat → Mem → Prop} {n i p : Nat} (h : Rep m (upd s z (some { C with buf := X }))) (hn : i + n ≤ X.length)
    (hQ : ∀ m' Y, Rep m' (upd s z (some { C with buf := Y })) → Y.length = X.length →
      (1 ≤ n → Y[i + n - 1]? = some (randDigit rnd (p + 4 * (n - 1)) 4 0)) → (∀ j, j < i → Y[j]? = X[j]?) → Q (p + 4 * n) m') :
    wp env E (randLoop z rnd n i p) Q m := by
  induction n generalizing i p m X with
  | zero => exact wp_pure (hQ m X h rfl (by omega) fun _ _ => rfl)
  | succ n ih =>
    unfold randLoop
    refine wp_bind (wp_DIGITS h (upd_self _ _ _) ?_)
    refine wp_bind (wp_wrz (C := { C with buf := X }) h (upd_self _ _ _) (show i < X.length by omega) (randDigit_lt p) fun m' h' => ?_)
    rw [upd_upd] at h'
    have e : spliceL X i [randDigit rnd p 4 0] = X.set i (randDigit rnd p 4 0) := by
      apply List.ext_getElem?
      intro j
      unfold spliceL
      rw [List.getElem?_mapIdx, List.getElem?_set]
      by_cases h1 : j = i
      · subst h1
        have hl : j < X.length := by omega
        simp [hl]
      · rw [if_neg (Ne.symm h1)]
        cases hX : X[j]? with
        | none => rfl
        | some x =>
          simp only [Option.map_some]
          by_cases h2 : i ≤ j
          · rw [if_pos h2, List.getElem?_eq_none (by simp; omega)]; rfl
          · rw [if_neg h2]
    rw [e] at h'
    refine ih h' (by simp; omega) fun m2 Y hY hl hv hlo => ?_
    rw [List.length_set] at hl
    rw [show p + 4 + 4 * n = p + 4 * (n + 1) by omega]
    refine hQ m2 Y hY hl (fun _ => ?_) fun j hj => ?_
    · rcases Nat.eq_zero_or_pos n with rfl | hn0
      · have := hlo i (by omega)
        rw [List.getElem?_set_self (by omega)] at this
        simpa using this
      · have := hv hn0
        rwa [show i + 1 + n - 1 = i + (n + 1) - 1 by omega, show p + 4 + 4 * (n - 1) = p + 4 * (n + 1 - 1) by omega] at this
    · rw [hlo j (by omega), List.getElem?_set_ne (by omega)]

theorem TopSet.ne {p prec : Nat} (h : TopSet rnd p prec) : randDigit rnd (p + 4 * (prec - 1)) 4 0 ≠ 0 := by
  obtain ⟨k, hk, h⟩ := h
  rw [randDigit_eq]
  interval_cases k <;> (try simp only [Nat.add_zero] at h) <;> omega

theorem Good.zero_pos (h : Good C 0) : C.neg = false := by
  by_contra hn
  rw [Bool.not_eq_false] at hn
  have h1 := h.sign hn
  have h2 := h.val
  rw [hn] at h2
  unfold sval at h2
  simp at h2
  omega

theorem mp_int_random_rep {Q : Nat → Mem → Prop} {p prec : Nat} (h : Rep m s) (hz : s z = some C) (hg : Good C 0)
    (h1 : 1 ≤ prec) (hl : prec ≤ C.buf.length) (ht : TopSet rnd p prec)
    (hQ : ∀ m' D v, Rep m' (upd s z (some D)) → Good D (v : Nat) → 0 < v → Q (p + 4 * prec) m') :
    wp env E (mp_int_random z prec rnd p) Q m := by
  have hlen := (h.okl hz).2
  unfold mp_int_random
  refine wp_bind (wp_ALLOC h hz ?_)
  have e1 : toInt32 C.buf.length = C.buf.length := by
    unfold toInt32 u32; rw [if_pos (by omega)]; omega
  rw [e1]
  dsimp only
  rw [if_neg (by omega), Int.toNat_natCast]
  have h' : Rep m (upd s z (some { C with buf := C.buf })) := by rw [upd_same _ hz]; exact h
  refine wp_bind (randLoop_spec h' (by omega) fun m1 Y r1 l1 t1 _ => ?_)
  refine wp_bind (wp_setUsed r1 (upd_self _ _ _) fun m2 r2 => wp_pure ?_)
  rw [upd_upd] at r2
  have e2 : u32 ((prec : Int) % 4294967296).toNat = prec := by unfold u32; omega
  rw [e2] at r2
  have t2 := t1 h1
  rw [Nat.zero_add] at t2
  have hne := ht.ne
  have hneg := hg.zero_pos
  have hn : Norm { C with buf := Y, used := prec } := by
    refine ⟨h1, by show prec ≤ Y.length; omega, fun _ => ?_⟩
    show Y[prec - 1]? ≠ some 0
    rw [t2]; simpa using hne
  refine hQ m2 _ (Cell.mag { C with buf := Y, used := prec }) r2 ⟨hn, fun hc => ?_, ?_⟩ ?_
  · rw [hneg] at hc; cases hc
  · show _ = sval C.neg _
    rw [hneg]; rfl
  · by_cases h2 : prec = 1
    · subst h2
      rw [Nat.pos_iff_ne_zero]
      intro h0
      unfold Cell.mag at h0
      simp only at h0
      rcases Y with _ | ⟨y, Y⟩
      · simp at t2
      · simp at t2
        simp [val_cons] at h0
        simp at hne
        exact hne (by rw [← t2, h0])
    · have := hn.mag_ge (show 1 < prec by omega)
      have h3 := pow_pos' (prec - 1)
      exact Nat.lt_of_lt_of_le h3 this

theorem timerLoop_spec {I : Mem → Prop} {f : M Int} {Q : Unit → Mem → Prop} {n : Nat} (hf : ∀ m, I m → wp env E f (fun _ m' => I m') m)
    (h : I m) (hQ : ∀ m', I m' → Q () m') : wp env E (timerLoop f n) Q m := by
  induction n generalizing m with
  | zero => exact wp_pure (hQ m h)
  | succ n ih => exact wp_bind (wp_mono (hf m h) fun _ m' h' => ih h')

theorem u32_prec {prec : Nat} (h : prec < 4294967295) : u32 ((prec : Int) % 4294967296).toNat = prec := by unfold u32; omega

theorem get_multiply_time_spec {Q : Nat → Mem → Prop} {p prec nt : Nat} (hE : Ref env E) (h1 : 1 ≤ prec) (h2 : prec < 4294967295)
    (t0 : TopSet rnd p prec) (t1 : TopSet rnd (p + 4 * prec) prec) (h : R2 m σ)
    (hQ : ∀ m', R2 m' σ → Q (p + 4 * prec + 4 * prec) m') : wp env E (get_multiply_time nt prec rnd p) Q m := by
  obtain ⟨s, r, g⟩ := h
  unfold get_multiply_time withValue
  simp only [u32_prec h2]
  refine withLocal_rep r fun a m1 fa oa da r1 => ?_
  refine mp_int_init_size_rep hE r1 da fa h2 fun m2 A r2 gA lA => ⟨rfl, ?_⟩
  refine withLocal_rep r2 fun b m3 fb ob db r3 => ?_
  refine mp_int_init_size_rep hE r3 db fb h2 fun m4 B r4 gB lB => ⟨rfl, ?_⟩
  refine withLocal_rep r4 fun c m5 fc oc dc r5 => ?_
  refine mp_int_init_size_rep hE r5 dc fc h2 fun m6 C r6 gC lC => ⟨rfl, ?_⟩
  have ba : b ≠ a := fun e => by rw [e, upd_self] at fb; cases fb
  have cb : c ≠ b := fun e => by rw [e, upd_self] at fc; cases fc
  have ca : c ≠ a := fun e => by rw [e, upd_ne _ _ (Ne.symm ba), upd_self] at fc; cases fc
  rw [upd_ne _ _ ba] at fb
  rw [upd_ne _ _ cb, upd_ne _ _ ca] at fc
  refine wp_bind (mp_int_random_rep r6 (by rw [upd_ne _ _ (Ne.symm ca), upd_ne _ _ (Ne.symm ba), upd_self]) gA h1 lA t0
    fun m7 A' x r7 gA' px => ?_)
  refine wp_bind (mp_int_random_rep r7 (by rw [upd_ne _ _ ba, upd_ne _ _ (Ne.symm cb), upd_self]) gB h1 lB t1
    fun m8 B' y r8 gB' py => ?_)
  have g8 := ((((g.upd (z := a) gA).upd (z := b) gB).upd (z := c) gC).upd (z := a) gA').upd (z := b) gB'
  obtain ⟨σ', es⟩ : ∃ σ', σ' = upd (upd (upd (upd (upd σ a (some 0)) b (some 0)) c (some 0)) a (some (x : Int))) b (some (y : Int)) := ⟨_, rfl⟩
  rw [← es] at g8
  refine wp_bind (timerLoop_spec (I := fun m => ∃ w, R2 m (upd σ' c (some w))) (fun m ⟨w, hw⟩ => ?_) ⟨0, ?_⟩ ?_)
  · refine mp_int_mul_spec hE hw (x := (x : Int)) (y := (y : Int)) (w := w) ?_ ?_ (upd_self _ _ _) oc fun m' h' => ⟨_, by rwa [upd_upd] at h'⟩
    · rw [upd_ne _ _ (Ne.symm ca), es, upd_ne _ _ (Ne.symm ba), upd_self]
    · rw [upd_ne _ _ (Ne.symm cb), es, upd_self]
  · rw [upd_same]
    · exact ⟨_, r8, g8⟩
    · rw [es, upd_ne _ _ cb, upd_ne _ _ ca, upd_self]
  · rintro m9 ⟨w, s9, r9, g9⟩
    refine wp_pure ?_
    obtain ⟨C9, hC9, -⟩ := g9.get (z := c) (upd_self _ _ _)
    refine ⟨s9, C9, r9, hC9, fun m10 r10 => ?_⟩
    obtain ⟨B9, hB9, -⟩ := g9.get (z := b) (v := (y : Int)) (by rw [upd_ne _ _ (Ne.symm cb), es, upd_self])
    refine ⟨_, B9, r10, by rw [upd_ne _ _ (Ne.symm cb)]; exact hB9, fun m11 r11 => ?_⟩
    obtain ⟨A9, hA9, -⟩ := g9.get (z := a) (v := (x : Int)) (by rw [upd_ne _ _ (Ne.symm ca), es, upd_ne _ _ (Ne.symm ba), upd_self])
    refine ⟨_, A9, r11, by rw [upd_ne _ _ (Ne.symm ba), upd_ne _ _ (Ne.symm ca)]; exact hA9, fun m12 r12 => hQ m12 ⟨_, r12, ?_⟩⟩
    have g12 := ((g9.upd_none (z := c)).upd_none (z := b)).upd_none (z := a)
    have na := g.none_iff.1 fa
    have nb := g.none_iff.1 fb
    have nc := g.none_iff.1 fc
    have e : upd (upd (upd (upd σ' c (some w)) c none) b none) a none = σ := by
      funext i
      rw [es]
      by_cases ha : i = a
      · rw [ha, upd_self, na]
      by_cases hb : i = b
      · rw [hb, upd_ne _ _ ba, upd_self, nb]
      by_cases hc : i = c
      · rw [hc, upd_ne _ _ ca, upd_ne _ _ cb, upd_self, nc]
      simp only [upd_ne _ _ ha, upd_ne _ _ hb, upd_ne _ _ hc]
    rwa [e] at g12

theorem get_exptmod_time_spec {Q : Nat → Mem → Prop} {p prec nt : Nat} (hE : Ref env E) (h1 : 1 ≤ prec) (h2 : prec < 4294967295)
    (t0 : TopSet rnd p prec) (t1 : TopSet rnd (p + 4 * prec) prec) (t2 : TopSet rnd (p + 4 * prec + 4 * prec) prec) (h : R2 m σ)
    (hQ : ∀ m', R2 m' σ → Q (p + 4 * prec + 4 * prec + 4 * prec) m') : wp env E (get_exptmod_time nt prec rnd p) Q m := by
  obtain ⟨s, r, g⟩ := h
  unfold get_exptmod_time withValue
  simp only [u32_prec h2]
  refine withLocal_rep r fun a m1 fa oa da r1 => ?_
  refine mp_int_init_size_rep hE r1 da fa h2 fun m2 A r2 gA lA => ⟨rfl, ?_⟩
  refine withLocal_rep r2 fun b m3 fb ob db r3 => ?_
  refine mp_int_init_size_rep hE r3 db fb h2 fun m4 B r4 gB lB => ⟨rfl, ?_⟩
  refine withLocal_rep r4 fun d m4 fd od dd r4 => ?_
  refine mp_int_init_size_rep hE r4 dd fd h2 fun m4 D r4 gD lD => ⟨rfl, ?_⟩
  refine withLocal_rep r4 fun c m5 fc oc dc r5 => ?_
  refine mp_int_init_size_rep hE r5 dc fc h2 fun m6 C r6 gC lC => ⟨rfl, ?_⟩
  have ba : b ≠ a := fun e => by rw [e, upd_self] at fb; cases fb
  have db : d ≠ b := fun e => by rw [e, upd_self] at fd; cases fd
  have da : d ≠ a := fun e => by rw [e, upd_ne _ _ (Ne.symm ba), upd_self] at fd; cases fd
  have cd : c ≠ d := fun e => by rw [e, upd_self] at fc; cases fc
  have cb : c ≠ b := fun e => by rw [e, upd_ne _ _ (Ne.symm db), upd_self] at fc; cases fc
  have ca : c ≠ a := fun e => by rw [e, upd_ne _ _ (Ne.symm da), upd_ne _ _ (Ne.symm ba), upd_self] at fc; cases fc
  rw [upd_ne _ _ ba] at fb
  rw [upd_ne _ _ db, upd_ne _ _ da] at fd
  rw [upd_ne _ _ cd, upd_ne _ _ cb, upd_ne _ _ ca] at fc
  refine wp_bind (mp_int_random_rep r6 (by rw [upd_ne _ _ (Ne.symm ca), upd_ne _ _ (Ne.symm da), upd_ne _ _ (Ne.symm ba), upd_self]) gA h1 lA t0
    fun m7 A' x r7 gA' px => ?_)
  refine wp_bind (mp_int_random_rep r7 (by rw [upd_ne _ _ ba, upd_ne _ _ (Ne.symm cb), upd_ne _ _ (Ne.symm db), upd_self]) gB h1 lB t1
    fun m8 B' y r8 gB' py => ?_)
  refine wp_bind (mp_int_random_rep r8 (by rw [upd_ne _ _ db, upd_ne _ _ da, upd_ne _ _ (Ne.symm cd), upd_self]) gD h1 lD t2
    fun m8 D' v r8 gD' pv => ?_)
  have g8 := ((((((g.upd (z := a) gA).upd (z := b) gB).upd (z := d) gD).upd (z := c) gC).upd (z := a) gA').upd (z := b) gB').upd (z := d) gD'
  obtain ⟨σ', es⟩ : ∃ σ', σ' = upd (upd (upd (upd (upd (upd (upd σ a (some 0)) b (some 0)) d (some 0)) c (some 0)) a (some (x : Int))) b
    (some (y : Int))) d (some (v : Int)) := ⟨_, rfl⟩
  rw [← es] at g8
  have ea : ∀ w, upd σ' c (some w) a = some (x : Int) := fun w => by
    rw [upd_ne _ _ (Ne.symm ca), es, upd_ne _ _ (Ne.symm da), upd_ne _ _ (Ne.symm ba), upd_self]
  have eb : ∀ w, upd σ' c (some w) b = some (y : Int) := fun w => by rw [upd_ne _ _ (Ne.symm cb), es, upd_ne _ _ (Ne.symm db), upd_self]
  have ed : ∀ w, upd σ' c (some w) d = some (v : Int) := fun w => by rw [upd_ne _ _ (Ne.symm cd), es, upd_self]
  refine wp_bind (timerLoop_spec (I := fun m => ∃ w, R2 m (upd σ' c (some w))) (fun m ⟨w, hw⟩ => ?_) ⟨0, ?_⟩ ?_)
  · refine mp_int_exptmod_spec hE hw (ea w) (eb w) (ed w) (upd_self _ _ _) oc (by omega) (fun h => by omega)
      fun _ m' h' => ⟨_, by rwa [upd_upd] at h'⟩
  · rw [upd_same]
    · exact ⟨_, r8, g8⟩
    · rw [es, upd_ne _ _ cd, upd_ne _ _ cb, upd_ne _ _ ca, upd_self]
  · rintro m9 ⟨w, s9, r9, g9⟩
    refine wp_pure ?_
    obtain ⟨C9, hC9, -⟩ := g9.get (z := c) (upd_self _ _ _)
    refine ⟨s9, C9, r9, hC9, fun m10 r10 => ?_⟩
    obtain ⟨D9, hD9, -⟩ := g9.get (ed w)
    refine ⟨_, D9, r10, by rw [upd_ne _ _ (Ne.symm cd)]; exact hD9, fun m11 r11 => ?_⟩
    obtain ⟨B9, hB9, -⟩ := g9.get (eb w)
    refine ⟨_, B9, r11, by rw [upd_ne _ _ (Ne.symm db), upd_ne _ _ (Ne.symm cb)]; exact hB9, fun m11 r11 => ?_⟩
    obtain ⟨A9, hA9, -⟩ := g9.get (ea w)
    refine ⟨_, A9, r11, by rw [upd_ne _ _ (Ne.symm ba), upd_ne _ _ (Ne.symm da), upd_ne _ _ (Ne.symm ca)]; exact hA9,
      fun m12 r12 => hQ m12 ⟨_, r12, ?_⟩⟩
    have g12 := (((g9.upd_none (z := c)).upd_none (z := d)).upd_none (z := b)).upd_none (z := a)
    have na := g.none_iff.1 fa
    have nb := g.none_iff.1 fb
    have nc := g.none_iff.1 fc
    have nd := g.none_iff.1 fd
    have e : upd (upd (upd (upd (upd σ' c (some w)) c none) d none) b none) a none = σ := by
      funext i
      rw [es]
      by_cases ha : i = a
      · rw [ha, upd_self, na]
      by_cases hb : i = b
      · rw [hb, upd_ne _ _ ba, upd_self, nb]
      by_cases hd : i = d
      · rw [hd, upd_ne _ _ da, upd_ne _ _ db, upd_self, nd]
      by_cases hc : i = c
      · rw [hc, upd_ne _ _ ca, upd_ne _ _ cb, upd_ne _ _ cd, upd_self, nc]
      simp only [upd_ne _ _ ha, upd_ne _ _ hb, upd_ne _ _ hc, upd_ne _ _ hd]
    rwa [e] at g12

/-! ### bug-swap.c -/

theorem init_small_rep {Q : Int → Mem → Prop} {v : Nat} (hE : Ref env E) (h0 : v < 𝔹) (h : Rep m s) (hd : Decl m z) (hz : s z = none)
    (hQ : ∀ m' C, Rep m' (upd s z (some C)) → C.base = .single z → C.buf[0]? = some v → Good C (v : Int) → Q MP_OK m') :
    wp env E (mp_int_init_value z v) Q m := by
  unfold mp_int_init_value withFake
  refine fake_frame_decl (pack := fun z p => s_fake z v p) (v := (v : Int)) h
    (s_fake_spec (show (-9223372036854775808 : Int) < v by omega) (show (v : Int) ≤ 9223372036854775807 by omega)) ?_
  intro t m1 F ft ot h1 gF hdecl
  have htz : t ≠ z := fun e => by rw [e] at ot; rw [hd.own] at ot; cases ot
  refine mp_int_init_copy_rep' hE h1 (hdecl z hd) (by rw [upd_ne _ _ (Ne.symm htz)]; exact hz) (upd_self _ _ _) gF.norm fun m2 C h2 sC bC => ?_
  refine ⟨_, F, h2, by rw [upd_ne _ _ htz, upd_self], fun m3 h3 => ?_⟩
  rw [upd_tmp _ ft htz] at h3
  have hmag : F.mag = v := by have := gF.natAbs; omega
  have hu : F.used = 1 := by
    have h1 := gF.norm.pos
    by_contra hne
    have h2 := gF.norm.mag_ge (by omega)
    have h3 : 𝔹 ^ 1 ≤ 𝔹 ^ (F.used - 1) := Nat.pow_le_pow_right (by decide) (by omega)
    omega
  have hC := sC.good gF
  refine hQ m3 C h3 (bC hu) ?_ hC
  have e1 : C.mag = v := by have := hC.natAbs; omega
  have e2 := sC.used
  have e3 := sC.le
  unfold Cell.mag at e1
  rw [e2, hu] at e1
  rcases hb : C.buf with _ | ⟨y, Y⟩
  · rw [hb] at e3; simp at e3; omega
  · rw [hb] at e1; simp [val_cons] at e1; simp [e1]

theorem bugSwapMain_spec {Q : Int × Bool → Mem → Prop} (hE : Ref env E) (h : R2 m σ) (hQ : ∀ m', R2 m' σ → Q (0, true) m') :
    wp env E bugSwapMain Q m := by
  obtain ⟨s, r, g⟩ := h
  unfold bugSwapMain
  refine withUnchk_rep r fun a m1 fa oa da r1 => ?_
  refine init_small_rep (v := 1) hE (by decide) r1 da fa fun m2 A r2 bA vA gA => ?_
  refine withUnchk_rep r2 fun b m3 fb ob db r3 => ?_
  refine init_small_rep (v := 16) hE (by decide) r3 db fb fun m4 B r4 bB vB gB => ?_
  have ba : b ≠ a := fun e => by rw [e, upd_self] at fb; cases fb
  rw [upd_ne _ _ ba] at fb
  refine wp_bind (mp_int_swap_rep r4 (by rw [upd_ne _ _ (Ne.symm ba), upd_self]) (upd_self _ _ _) oa ob (Ne.symm ba) fun m5 r5 => ?_)
  obtain ⟨s5, es⟩ : ∃ s5, s5 = upd (upd (upd (upd s a (some A)) b (some B)) a (some (B.reloc a))) b (some (A.reloc b)) := ⟨_, rfl⟩
  rw [← es] at r5
  have ha : s5 a = some (B.reloc a) := by rw [es, upd_ne _ _ (Ne.symm ba), upd_self]
  have hb : s5 b = some (A.reloc b) := by rw [es, upd_self]
  have eA : (B.reloc a).ptr = singlePtr a := by unfold Cell.reloc Cell.ptr; rw [bB]; rfl
  have eB : (A.reloc b).ptr = singlePtr b := by unfold Cell.reloc Cell.ptr; rw [bA]; rfl
  refine wp_bind (wp_getI (r5.int ha) ?_)
  refine wp_bind (wp_getI (r5.int hb) ?_)
  have fin : wp env E (pure (if true = true then (0 : Int) else 1, true) : M (Int × Bool))
      (fun r m'' => ∃ s'' D, Rep m'' s'' ∧ s'' b = some D ∧ (∀ m3, Rep m3 (upd s'' b none) →
        ∃ s'' D, Rep m3 s'' ∧ s'' a = some D ∧ (∀ m3, Rep m3 (upd s'' a none) → Q r m3))) m5 := by
    refine wp_pure ⟨s5, _, r5, hb, fun m6 r6 => ⟨_, _, r6, by rw [upd_ne _ _ (Ne.symm ba)]; exact ha, fun m7 r7 => hQ m7 ?_⟩⟩
    refine ⟨_, r7, ?_⟩
    have e : upd (upd s5 b none) a none = s := by
      funext i
      by_cases h1 : i = a
      · rw [h1, upd_self, fa]
      by_cases h2 : i = b
      · rw [h2, upd_ne _ _ ba, upd_self, fb]
      rw [es]
      simp only [upd_ne _ _ h1, upd_ne _ _ h2]
    rw [e]; exact g
  refine wp_bind (wp_cif (fun _ => ?_) fun hc => absurd (by show some (B.reloc a).ptr = _; rw [eA]) hc)
  refine wp_cif (fun _ => ?_) fun hc => absurd (by show some (A.reloc b).ptr = _; rw [eB]) hc
  refine wp_bind (wp_DIGITS r5 ha ?_)
  refine wp_bind (wp_rdz (i := 0) r5 ha (x := 16) vB ?_)
  refine wp_cif (fun _ => ?_) fun hc => absurd rfl hc
  refine wp_bind (wp_DIGITS r5 hb ?_)
  refine wp_bind (wp_rdz (i := 0) r5 hb (x := 1) vA ?_)
  exact wp_pure fin

/-! ### tests/bug-qread.c -/

/-- The number of tests whose result is not the expected one -/
def wrongTests (tests : List QTest) : Nat := (tests.filter fun t => decide ((readFraction t.radix t.input).res ≠ t.want)).length

theorem bugQreadLoop_spec (hE : Ref env E) : ∀ {tests : List QTest} {m : Mem} {σ : Id → Option Int} {Q : Nat → Mem → Prop},
    (∀ t ∈ tests, 2 ≤ t.radix ∧ t.radix ≤ 36 ∧ 0 ∈ t.input.take 800000001) → R2 m σ →
    (∀ σ' m', R2 m' σ' → (∀ z v, σ z = some v → σ' z = some v) → Q (wrongTests tests) m') → wp env E (bugQreadLoop tests) Q m
  | [], m, σ, Q, _, h, hQ => wp_pure (hQ σ m h fun _ _ h => h)
  | t :: ts, m, σ, Q, ht, h, hQ => by
    obtain ⟨h1, h2, h3⟩ := ht t (by simp)
    unfold bugQreadLoop
    refine ratTmp_spec (k := fun q _ => do
      let got ← mp_rat_read_cstring q t.radix t.input
      let n ← bugQreadLoop ts
      pure (if got.1 ≠ t.want then n + 1 else n)) hE h fun num den m1 fn fd hne on od _ _ r1 => ?_
    refine wp_bind (mp_rat_read_cstring_total hE h1 h2 h3 r1 ⟨hne, ⟨0, by rw [upd_ne _ _ hne, upd_self]⟩, ⟨1, upd_self _ _ _⟩, on, od⟩
      fun m2 r2 => ?_)
    refine wp_bind (bugQreadLoop_spec hE (fun t' ht' => ht t' (by simp [ht'])) r2 fun σ' m3 r3 k3 => wp_pure ?_)
    have key := hQ σ' m3 r3 fun z v hz => k3 z v ?_
    · unfold wrongTests at key ⊢
      rw [List.filter_cons] at key
      by_cases hw : (readFraction t.radix t.input).res ≠ t.want
      · rw [if_pos (decide_eq_true hw)] at key
        rw [if_pos hw]; exact key
      · rw [if_neg (by simpa using hw)] at key
        rw [if_neg hw]; exact key
    · have n1 : z ≠ num := fun e => by rw [e, fn] at hz; cases hz
      have n2 : z ≠ den := fun e => by rw [e, fd] at hz; cases hz
      simp only [upd_ne _ _ n1, upd_ne _ _ n2]
      exact hz

/-! ### tests/bintest.c -/

theorem printBytes_spec : ∀ {n ix : Nat} {A X B : Bytes} {Q : Bytes → Mem → Prop}, X.length = n + 1 → A.length = ix →
    Q X m → wp env E (printBytes (A ++ X ++ B) n ix) Q m
  | 0, ix, A, X, B, Q, hX, hA, hQ => by
    obtain ⟨x, rfl⟩ := List.length_eq_one_iff.1 hX
    unfold printBytes
    exact wp_bind (wp_bget (x := x) (by simp [← hA]) (wp_pure hQ))
  | n + 1, ix, A, X, B, Q, hX, hA, hQ => by
    cases X with
    | nil => simp at hX
    | cons x X =>
      unfold printBytes
      refine wp_bind (wp_bget (x := x) (by simp [← hA]) ?_)
      have e : A ++ x :: X ++ B = (A ++ [x]) ++ X ++ B := by simp
      rw [e]
      exact wp_bind (printBytes_spec (by simpa using hX) (by simp [hA]) (wp_pure hQ))

theorem numeral_abs_le (r : Nat) (v : Int) : (numeral r |v|).length ≤ (numeral r v).length := by
  unfold numeral
  rw [if_neg (by have := abs_nonneg v; omega), Int.natAbs_abs]
  simp

/-- The program as far as the first text. -/
theorem bintestMain_step {s buf : Bytes} {Q : Int × List BinLine → Mem → Prop} (hE : Ref env E) (hn : 0 ∈ s.take 800000001)
    (hb : buf.length = 512) (h : R2 m σ) (h0 : s.head? = some 0 → Q (1, []) m)
    (h1 : s.head? ≠ some 0 → 512 < binLen (scanInt 10 s).1 → ∀ m', R2 m' σ →
      Q (1, [.code (endCode (scanInt 10 s).2), .len (binLen (scanInt 10 s).1), .code MP_TRUNC]) m')
    (hu : s.head? ≠ some 0 → binLen (scanInt 10 s).1 ≤ 512 → 512 ≤ (numeral 10 (scanInt 10 s).1).length → E .ub)
    (hQ : s.head? ≠ some 0 → (numeral 10 (scanInt 10 s).1).length < 512 → ∀ X Y m', R2 m' σ → Byte X → Byte Y →
      X.length = binLen (scanInt 10 s).1 → twosVal X = (scanInt 10 s).1 →
      Y.length = unsLen (scanInt 10 s).1 → beVal Y = (scanInt 10 s).1.natAbs →
      Q (0, [.code (endCode (scanInt 10 s).2), .len (binLen (scanInt 10 s).1), .code MP_OK, .bytes X, .code MP_OK,
        .text (numeral 10 (scanInt 10 s).1), .len (unsLen (scanInt 10 s).1), .code MP_OK, .bytes Y, .code MP_OK,
        .text (numeral 10 |(scanInt 10 s).1|)]) m') :
    wp env E (bintestMain s buf) Q m := by
  unfold bintestMain mp_int_read_string
  obtain ⟨c, t, rfl⟩ : ∃ c t, s = c :: t := by
    cases s with
    | nil => simp at hn
    | cons c t => exact ⟨c, t, rfl⟩
  generalize hs : c :: t = s at *
  refine wp_bind (wp_bget (x := c) (by rw [← hs]; rfl) ?_)
  refine wp_ite (fun hc => wp_pure (h0 (by rw [← hs, hc]; rfl))) fun hc => ?_
  have hh : s.head? ≠ some 0 := by rw [← hs]; simpa using hc
  clear hs
  refine unchkInit2 h fun T σ1 m1 g1 r1 => ?_
  refine wp_bind (wp_bind (read_cstring_total hE (by norm_num) (by norm_num) hn (g1.ow 0) r1 (g1.get 0) fun m2 r2 => wp_pure ?_))
  have g2 := g1.lset 0 (scanInt 10 s).1
  tsimp at g2
  generalize (scanInt 10 s).1 = v at *
  refine wp_bind (mp_int_binary_len_spec r2 (g2.get 0) ?_)
  tsimp
  refine wp_bind (mp_int_to_binary_spec (v := v) (by norm_num) r2 (g2.get 0) (by omega) (fun X hX1 hX2 hX3 hX4 => ?_) fun X hX1 _ _ _ => ?_)
  · refine wp_if_neg (by simp) ?_
    have e : X ++ List.drop X.length buf = [] ++ X ++ List.drop X.length buf := rfl
    refine wp_bind ?_
    conv => arg 3; rw [e]
    refine printBytes_spec (n := (((Nat.size v.natAbs / 8 + 1 : Nat) : Int) - 1).toNat) (by omega) rfl ?_
    refine wp_bind (mp_int_read_binary_spec hE hX3 (by omega) (by omega) (by omega) (g2.ow 1) r2 (g2.get 1) fun m3 r3 => ?_)
    have g3 := g2.lset 1 (twosVal X)
    tsimp at g3
    rw [hX4] at r3 g3
    refine wp_bind (wp_cif (fun _ => ?_) fun hk => absurd rfl hk)
    have lb : (X ++ List.drop X.length buf).length = 512 := by
      rw [List.length_append, List.length_drop, hb]
      omega
    by_cases hl : (numeral 10 v).length < 512
    · refine wp_bind (mp_int_to_string_spec (v := v) hE (by norm_num) (by norm_num) (by norm_num) (by rw [lb]; omega) r3 (g3.get 1)
        (fun m4 r4 _ => ?_) fun _ _ _ hk => by omega)
      refine wp_bind (cstr_spec (numeral_zero_notin (by norm_num) (by norm_num) _) (wp_pure ?_))
      refine wp_bind (mp_int_unsigned_len_spec r4 (g3.get 0) ?_)
      tsimp
      have lc : (numeral 10 v ++ 0 :: List.drop ((numeral 10 v).length + 1) (X ++ List.drop X.length buf)).length = 512 := by
        rw [List.length_append, List.length_cons, List.length_drop, lb]; omega
      refine wp_bind (mp_int_to_unsigned_spec (v := v) (by norm_num) r4 (g3.get 0) (by rw [lc]; omega) (fun Y hY1 hY2 hY3 hY4 => ?_)
        fun Y hY1 _ _ _ => by omega)
      generalize numeral 10 v ++ 0 :: List.drop ((numeral 10 v).length + 1) (X ++ List.drop X.length buf) = buf2 at *
      refine wp_if_neg (by simp) ?_
      have e : Y ++ List.drop Y.length buf2 = [] ++ Y ++ List.drop Y.length buf2 := rfl
      refine wp_bind ?_
      conv => arg 3; rw [e]
      refine printBytes_spec (n := (((max 1 ((Nat.size v.natAbs + 7) / 8) : Nat) : Int) - 1).toNat) (by omega) rfl ?_
      refine wp_bind (mp_int_read_unsigned_spec hE hY3 (by omega) (by omega) (by omega) (g3.ow 1) r4 (g3.get 1) fun m5 r5 => ?_)
      have g5 := g3.lset 1 (beVal Y : Int)
      tsimp at g5
      rw [hY4, show ((v.natAbs : Nat) : Int) = |v| by simp] at r5 g5
      refine wp_bind (wp_cif (fun _ => ?_) fun hk => absurd rfl hk)
      have ld : (Y ++ List.drop Y.length buf2).length = 512 := by
        rw [List.length_append, List.length_drop, lc]
        omega
      have ha := numeral_abs_le 10 v
      refine wp_bind (mp_int_to_string_spec (v := |v|) hE (by norm_num) (by norm_num) (by norm_num) (by rw [ld]; omega) r5 (g5.get 1)
        (fun m6 r6 _ => ?_) fun _ _ _ hk => by omega)
      refine wp_bind (cstr_spec (numeral_zero_notin (by norm_num) (by norm_num) _) (wp_pure (wp_pure (.mk g5 r6 fun m7 r7 => ?_))))
      exact hQ hh hl X Y m7 r7 hX3 hY3 hX2 hX4 hY2 hY4
    · have hl' : 512 ≤ (numeral 10 v).length := by omega
      exact wp_bind (mp_int_to_string_fault (v := v) hE (hu hh (by unfold binLen; omega) hl') (by norm_num) (by norm_num) (by norm_num)
        (by rw [lb]; omega) r3 (g3.get 1))
  · refine wp_if_pos (by show MP_TRUNC ≠ MP_OK; decide) (wp_pure (.mk g2 r2 fun m3 r3 => ?_))
    exact h1 hh (by unfold binLen; omega) m3 r3

/-! ### tests/rtest.c -/

/-- The message of `n` bytes -/
def rtestMsg (n : Nat) : Bytes := (List.range n).map fun i => (i + 1) % 256

theorem msgLoop_spec {R : Bytes} : ∀ {n : Nat} {A B : Bytes} {Q : Bytes → Mem → Prop}, B.length = n →
    Q (A ++ (List.range' A.length n).map (fun i => (i + 1) % 256) ++ R) m → wp env E (msgLoop n A.length (A ++ B ++ R)) Q m
  | 0, A, B, Q, hB, hQ => by
    rw [List.length_eq_zero_iff.1 hB]
    unfold msgLoop
    exact wp_pure (by simpa using hQ)
  | n + 1, A, B, Q, hB, hQ => by
    cases B with
    | nil => simp at hB
    | cons b B =>
      unfold msgLoop
      refine wp_bind (wp_bset (by simp) ?_)
      have e : (A ++ b :: B ++ R).set A.length (u8 (A.length + 1)) = (A ++ [(A.length + 1) % 256]) ++ B ++ R := by
        simp [u8]
      have l : A.length + 1 = (A ++ [(A.length + 1) % 256]).length := by simp
      rw [e]
      conv => arg 3; arg 2; rw [l]
      refine msgLoop_spec (by simpa using hB) ?_
      simpa [List.range'_succ] using hQ

theorem rtestMain_spec {buf_len msg_len : Nat} {filler : Int → Bytes} {Q : Int × List RLine → Mem → Prop}
    (h1 : 1 ≤ msg_len) (h2 : msg_len + 11 ≤ buf_len) (h3 : buf_len < 2 ^ 31)
    (hf : (filler (buf_len - msg_len - 3)).length = buf_len - msg_len - 3) (hz : ∀ x ∈ filler (buf_len - msg_len - 3), x ≠ 0)
    (hQ : Q (0, [.bytes (rtestMsg msg_len), .bytes ([0, 2] ++ filler (buf_len - msg_len - 3) ++ [0] ++ rtestMsg msg_len),
      .bytes (rtestMsg msg_len)]) m) :
    wp env E (rtestMain buf_len msg_len filler) Q m := by
  have lm : (rtestMsg msg_len).length = msg_len := by simp [rtestMsg]
  unfold rtestMain
  rw [if_neg (by omega), if_neg (by omega)]
  dsimp only
  rw [if_neg (by omega)]
  have e : List.replicate buf_len (0 : Nat) = [] ++ List.replicate msg_len 0 ++ List.replicate (buf_len - msg_len) 0 := by
    rw [List.nil_append, List.replicate_append_replicate]; congr 1; omega
  simp only [Int.toNat_natCast]
  rw [e]
  refine wp_bind (msgLoop_spec (A := []) (by simp) ?_)
  have e1 : ([] : Bytes) ++ (List.range' ([] : Bytes).length msg_len).map (fun i => (i + 1) % 256) = rtestMsg msg_len := by
    simp [rtestMsg, List.range_eq_range']
  rw [e1]
  unfold print_buf
  refine wp_bind (wp_if_pos (by simp [lm]) (wp_pure ?_))
  have e2 : rtestMsg msg_len ++ List.replicate (buf_len - msg_len) 0 = rtestMsg msg_len ++ List.replicate (buf_len - msg_len) 0 ++ [] := by simp
  have e3 : (rtestMsg msg_len ++ List.replicate (buf_len - msg_len) 0).take ((msg_len : Int)).toNat = rtestMsg msg_len := by
    rw [Int.toNat_natCast, List.take_left' lm]
  rw [e3, e2]
  refine wp_bind (rsa_pkcs1v15_encode_spec (by rw [lm]) (by simp [lm]; omega) (by omega) (by omega) (by omega) ?_)
  generalize filler (buf_len - msg_len - 3) = F at *
  refine wp_if_neg (by simp) ?_
  have ll : (0 :: ((2 : Int) % 256).toNat :: (F ++ 0 :: (rtestMsg msg_len ++ []))).length = buf_len := by simp [lm, hf]; omega
  refine wp_bind (wp_if_pos (by rw [ll]) (wp_pure ?_))
  refine wp_bind (rsa_pkcs1v15_decode_spec rfl hz (by rw [lm]; omega) (by omega) (by omega) ?_)
  refine wp_if_neg (by simp) ?_
  refine wp_bind (wp_if_pos (by simp; omega) (wp_pure (wp_pure ?_)))
  have e4 : List.take ((buf_len : Int)).toNat (0 :: ((2 : Int) % 256).toNat :: (F ++ 0 :: (rtestMsg msg_len ++ []))) =
      [0, 2] ++ F ++ [0] ++ rtestMsg msg_len := by
    rw [List.take_of_length_le (by rw [ll]; simp)]
    simp
  rw [e4]
  simpa using hQ

/-- A message that leaves no room for the padding is refused. -/
theorem rtestMain_range {buf_len msg_len : Int} {filler : Int → Bytes} {Q : Int × List RLine → Mem → Prop}
    (h0 : 1 ≤ buf_len) (h1 : 1 ≤ msg_len) (h2 : buf_len < msg_len + 11) (h3 : buf_len < 2 ^ 31)
    (hQ : Q (1, [.bytes (rtestMsg (min buf_len msg_len).toNat), .error MP_RANGE]) m) :
    wp env E (rtestMain buf_len msg_len filler) Q m := by
  unfold rtestMain
  rw [if_neg (by omega), if_neg (by omega)]
  dsimp only
  rw [show (if msg_len > buf_len then buf_len else msg_len) = min buf_len msg_len by split <;> omega]
  obtain ⟨n, hn⟩ : ∃ n : Nat, min buf_len msg_len = n := ⟨(min buf_len msg_len).toNat, by omega⟩
  obtain ⟨b, rfl⟩ : ∃ b : Nat, buf_len = b := ⟨buf_len.toNat, by omega⟩
  rw [hn] at hQ ⊢
  simp only [Int.toNat_natCast] at hQ ⊢
  have lm : (rtestMsg n).length = n := by simp [rtestMsg]
  have e : List.replicate b (0 : Nat) = [] ++ List.replicate n 0 ++ List.replicate (b - n) 0 := by
    rw [List.nil_append, List.replicate_append_replicate]; congr 1; omega
  rw [e]
  refine wp_bind (msgLoop_spec (A := []) (by simp) ?_)
  have e1 : ([] : Bytes) ++ (List.range' ([] : Bytes).length n).map (fun i => (i + 1) % 256) = rtestMsg n := by
    simp [rtestMsg, List.range_eq_range']
  rw [e1]
  unfold print_buf
  refine wp_bind (wp_if_pos (by simp [lm]) (wp_pure ?_))
  have e3 : (rtestMsg n ++ List.replicate (b - n) 0).take ((n : Int)).toNat = rtestMsg n := by
    rw [Int.toNat_natCast, List.take_left' lm]
  rw [e3]
  unfold rsa_pkcs1v15_encode
  exact wp_bind (wp_bind (wp_cint (by omega) (by omega) (wp_if_pos (by omega) (wp_pure (wp_if_pos (by show MP_RANGE ≠ MP_OK; decide) (wp_pure hQ))))))

/-! ### Auxiliary facts -/

theorem binLen_of_numeral {v : Int} (h : (numeral 10 v).length < 512) : binLen v ≤ 256 := by
  unfold binLen
  have h1 : v.natAbs < 2 ^ 2047 := by
    by_cases h0 : v.natAbs = 0
    · rw [h0]; positivity
    · have h2 : (numeralN 10 v.natAbs).length ≤ 511 := by
        unfold numeral at h
        rw [List.length_append] at h
        omega
      unfold numeralN at h2
      rw [if_neg h0, List.length_reverse, List.length_map, Nat.digits_length_le_iff (by norm_num)] at h2
      calc v.natAbs < 10 ^ 511 := h2
        _ ≤ 16 ^ 511 := Nat.pow_le_pow_left (by norm_num) _
        _ = 2 ^ 2044 := by rw [show (16 : Nat) = 2 ^ 4 by norm_num, ← pow_mul]
        _ ≤ 2 ^ 2047 := Nat.pow_le_pow_right (by norm_num) (by norm_num)
  have h2 := Nat.size_le.2 h1
  clear h1
  omega

theorem wp_of_runs {α : Type} {f : M α} {P Q : α → Mem → Prop} (h : Runs env f m P) (hQ : ∀ r m', P r m' → Q r m') :
    wp env (Refused env) f Q m := by
  unfold Runs at h
  unfold wp
  cases hf : f env m with
  | ok a m' => rw [hf] at h; exact hQ a m' h
  | fault f =>
    rw [hf] at h
    cases f with
    | oom n => obtain ⟨j, hj⟩ := h; exact ⟨n, j, rfl, hj⟩
    | assert => exact h.elim
    | ub => exact h.elim
    | diverge => exact h.elim

theorem faults_left {α β : Type} {f : M α} {k : α → M β} {e : Fault} (h : Faults env f m e) : Faults env (f >>= k) m e := by
  unfold Faults at *
  show M.bind f k env m = _
  unfold M.bind
  rw [h]

end Imath
