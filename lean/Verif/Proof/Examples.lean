import Verif.Model.Examples
import Verif.SpecExamples
import Verif.Proof.Read
import Verif.Proof.Keygen
import Verif.Proof.Overrun
import Verif.Props.RatLen

/-! # The example programs that read and write numbers -/

namespace Imath

variable {env : Env} {E : Fault → Prop} {m : Mem} {σ σ' : Id → Option Int} {z : Id} {a c : MpQ} {x y w v : Int} {p q : ℚ}
  {r i o : Nat} {T : Nat → Id} {V : Nat → Int} {α : Type}

theorem withRat_spec {err : Int → α} {k : MpQ → M α} {Q : α → Mem → Prop} (hE : Ref env E) (h : R2 m σ)
    (hk : ∀ T σ' m', Tmps σ 2 T (L [0, 1]) σ' → R2 m' σ' → wp env E (k ⟨T 0, T 1⟩) (fun r m'' => TDone 2 T Q r m'') m') :
    wp env E (withRat err k) Q m := by
  unfold withRat
  refine withInit2_spec h fun T σ1 m1 g1 r1 => ?_
  refine wp_bind (mp_int_set_value_spec hE (by decide) (by decide) r1 (g1.get 1) (g1.ow 1) fun m2 r2 => wp_if_neg (by simp) ?_)
  obtain ⟨σ2, r2, g2⟩ := g1.up 1 r2
  tsimp at g2
  exact hk T σ2 m2 g2 r2

theorem ratTmps_out (g : Tmps σ 2 T V σ') : OutQ σ' ⟨T 0, T 1⟩ := ⟨g.neq 0 1, ⟨_, g.get 0⟩, ⟨_, g.get 1⟩, g.ow 0, g.ow 1⟩

theorem ratTmps_set {n d : Int} (g : Tmps σ 2 T (L [n, d]) σ') (x y : Int) :
    Tmps σ 2 T (L [x, y]) (upd (upd σ' (T 0) (some x)) (T 1) (some y)) := by
  have g3 := (g.lset 0 x).lset 1 y
  tsimp at g3
  exact g3

theorem cvtText_zero_notin (hr2 : 2 ≤ r) (hr : r ≤ 36) (q : ℚ) : 0 ∉ cvtText r q := by
  unfold cvtText ratText
  split
  · exact numeral_zero_notin hr2 hr _
  · intro h
    rcases List.mem_append.1 h with h | h
    · exact numeral_zero_notin hr2 hr _ h
    · split at h
      · simp at h
      · exact numeral_zero_notin hr2 hr _ ((List.mem_cons.1 h).resolve_left (by omega))

theorem ratText_alloc_spec {obuf : Nat → Bytes} {Q : Int × Bytes → Mem → Prop} (hE : Ref env E) (hr : 2 ≤ r ∧ r ≤ 36)
    (hob : ∀ n, (obuf n).length = n) (h : R2 m σ) (ha : HasQ2 σ a p) (hp : Printable (goodRadix r) p)
    (hQ : ∀ B m', R2 m' σ → Q (MP_OK, cvtText r p ++ 0 :: B) m') : wp env E (ratText_alloc a r obuf) Q m := by
  obtain ⟨hx, hs⟩ := hp
  have hn := len_ok hr (h.size_le ha.1) (hx.imp id And.left)
  have hd := len_ok (x := (p.den : Int)) hr (h.size_le ha.2) (hx.imp id fun h => by rw [abs_of_nonneg (by omega)]; exact h.2)
  have hd0 := numeral_pos hr.1 (p.den : Int)
  have hn0 := numeral_pos hr.1 p.num
  unfold ratText_alloc
  refine wp_bind (mp_rat_is_integer_spec h ha fun m1 h1 => ?_)
  by_cases h1' : p.den = 1
  · refine wp_bind (wp_cif (fun _ => ?_) fun hk => absurd (by simpa using h1') hk)
    refine mp_int_string_len_spec hr.1 hr.2 h1 ha.1 fun l _ l2 _ => ?_
    have l2 := l2 hn
    have hb := hob l.toNat
    refine wp_cif (fun _ => ?_) fun hk => absurd (by simpa using h1') hk
    refine mp_int_to_string_spec hE hr.1 hr.2 (by omega) (by omega) h1 ha.1 (fun m2 h2 _ => ?_) fun _ _ _ h2 => by omega
    have := hQ ((obuf l.toNat).drop ((numeral r p.num).length + 1)) m2 h2
    rwa [cvtText, if_pos h1'] at this
  · have hp0 : p ≠ 0 := by rintro rfl; exact h1' rfl
    have fin : ∀ l : Int, (ratText r p).length + 1 ≤ l → wp env E (cif (decide (p.den = 1) = true)
        (mp_int_to_string a.num r (obuf l.toNat) l) (mp_rat_to_string a r (obuf l.toNat) l)) Q m1 := by
      intro l hl
      have hb := hob l.toNat
      refine wp_cif (fun hk => absurd (by simpa using hk) h1') fun _ => ?_
      refine mp_rat_to_string_spec hE hr.1 hr.2 h1 ha hl (by omega) fun m' h' => ?_
      have := hQ ((obuf l.toNat).drop ((ratText r p).length + 1)) m' h'
      rwa [cvtText, if_neg h1'] at this
    refine wp_bind (wp_cif (fun hk => absurd (by simpa using hk) h1') fun _ => ?_)
    unfold mp_rat_string_len
    refine wp_bind (mp_int_string_len_spec2 hr.1 hr.2 h1 ha.1 fun n _ n2 _ n4 => ?_)
    have n2 := n2 hn
    refine wp_bind (mp_int_compare_zero_spec h1 ha.1 ?_)
    refine wp_bind (wp_cif (fun hk => ?_) fun hk => ?_)
    · refine mp_int_string_len_spec2 hr.1 hr.2 h1 ha.2 fun d _ d2 _ d4 => ?_
      have d2 := d2 hd
      rw [Int.natAbs_natCast] at d4
      have s1 : 0 < Nat.size p.num.natAbs := Nat.size_pos.2 (by have := Rat.num_ne_zero.2 hp0; omega)
      have s2 : 0 < Nat.size p.den := Nat.size_pos.2 p.den_pos
      refine wp_cint (by omega) (by omega) (fin _ ?_)
      rw [ratText, if_neg hp0, List.length_append, List.length_cons]
      push_cast; omega
    · exfalso
      have : ¬ p.num.sign ≠ 0 := hk
      exact hp0 (by simpa using this)

theorem Stops.get {s : List Nat} {A : Reading} {t : List Nat} (h : Stops s A t) : ∃ ch, t.head? = some ch ∧ s[s.length - t.length]? = some ch := by
  obtain ⟨h1, ⟨P, e⟩, -⟩ := h
  obtain ⟨ch, t', rfl⟩ := List.exists_cons_of_ne_nil h1
  refine ⟨ch, rfl, ?_⟩
  rw [e, show (P ++ ch :: t').length - (ch :: t').length = P.length by simp]
  exact getElem?_append_len

/-- The loop of `basecvt`. -/
theorem basecvtLoop_spec {obuf : Nat → Bytes} (hE : Ref env E) (hi : 2 ≤ i ∧ i ≤ 36) (ho : 2 ≤ o ∧ o ≤ 36)
    (hob : ∀ n, (obuf n).length = n) : ∀ (args : List Bytes) {n d : Int} {σ' : Id → Option Int} {m : Mem} (res0 : Int) {Q : Int × Bytes → Mem → Prop},
    (∀ s ∈ args, 0 ∈ s.take 800000001) →
    (∀ s ∈ args, (readText i s).res = MP_OK → Printable (goodRadix o) (Rat.divInt (readText i s).num (readText i s).den)) →
    Tmps σ 2 T (L [n, d]) σ' → R2 m σ' →
    (∀ res n' d' σ'' m', Tmps σ 2 T (L [n', d']) σ'' → R2 m' σ'' →
      (res = MP_OK ↔ (∀ s ∈ args, (readText i s).res ≠ MP_UNDEF) ∧ args.getLast?.elim res0 (fun s => (readText i s).res) = MP_OK) →
      Q (res, (args.takeWhile fun s => (readText i s).res ≠ MP_UNDEF).flatMap (cvtLine i o)) m') →
    wp env E (basecvtLoop ⟨T 0, T 1⟩ i o obuf args res0) Q m := by
  intro args
  induction args with
  | nil =>
    intro n d σ' m res0 Q hn hp g h hQ
    unfold basecvtLoop
    exact wp_pure (hQ res0 n d σ' m g h (by simp))
  | cons s args ih =>
    intro n d σ' m res0 Q hn hp g h hQ
    have hs := hn s (by simp)
    obtain ⟨t, et, st⟩ := readText_stops (.inr hi) hs
    unfold basecvtLoop
    refine wp_bind (mp_rat_read_ustring_total hE (.inr hi) hs h (ratTmps_out g) fun m1 h1 => ?_)
    have g1 := ratTmps_set g (readText i s).num (readText i s).den
    rw [et, Option.map_some]
    by_cases hu : (readText i s).res = MP_UNDEF
    · refine wp_if_pos (by dsimp only; rw [hu]; decide) (wp_pure ?_)
      have := hQ (readText i s).res _ _ _ m1 g1 h1 (by
        rw [hu]
        refine ⟨fun h => absurd h (by decide), fun h => absurd hu (h.1 s (by simp))⟩)
      rwa [List.takeWhile_cons, if_neg (by simpa using hu)] at this
    · have hres : (readText i s).res = MP_OK ∨ (readText i s).res = MP_TRUNC := by
        rcases st.2.2 with ⟨h | h, _⟩ | ⟨h, _⟩
        · exact .inl h
        · exact absurd h hu
        · exact .inr h
      refine wp_if_neg (by dsimp only; tauto) ?_
      obtain ⟨ch, hch, hget⟩ := st.get
      refine wp_bind (wp_bget hget ?_)
      have hcond : ∀ res : Int, (res = MP_OK ↔ (∀ s ∈ args, (readText i s).res ≠ MP_UNDEF) ∧
          args.getLast?.elim (readText i s).res (fun s => (readText i s).res) = MP_OK) →
          (res = MP_OK ↔ (∀ u ∈ s :: args, (readText i u).res ≠ MP_UNDEF) ∧ (s :: args).getLast?.elim res0 (fun s => (readText i s).res) = MP_OK) := by
        intro res hr
        rw [hr, List.getLast?_cons]
        refine and_congr ?_ ?_
        · simp only [List.mem_cons, forall_eq_or_imp, hu, ne_eq, not_false_eq_true, true_and]
        · cases args.getLast? <;> rfl
      have hout : ((s :: args).takeWhile fun s => (readText i s).res ≠ MP_UNDEF).flatMap (cvtLine i o) =
          cvtLine i o s ++ (args.takeWhile fun s => (readText i s).res ≠ MP_UNDEF).flatMap (cvtLine i o) := by
        rw [List.takeWhile_cons, if_pos (by simpa using hu), List.flatMap_cons]
      rw [hout] at hQ
      have hn' : ∀ s ∈ args, 0 ∈ s.take 800000001 := fun u hu => hn u (by simp [hu])
      have hp' : ∀ s ∈ args, (readText i s).res = MP_OK → Printable (goodRadix o) (Rat.divInt (readText i s).num (readText i s).den) :=
        fun u hu => hp u (by simp [hu])
      by_cases hok : (readText i s).res = MP_OK
      · have hch0 : ch = 0 := by
          rcases st.2.2 with ⟨_, h⟩ | ⟨h, _⟩
          · rw [hch] at h; simpa using h
          · rw [hok] at h; exact absurd h (by decide)
        refine wp_if_neg (by simpa using hch0) ?_
        obtain ⟨q, q1, q2⟩ := readText_ok hok
        have hq : Rat.divInt (readText i s).num (readText i s).den = q := by rw [q1, q2]; exact Rat.num_divInt_den q
        have hpq := hp s (by simp) hok
        rw [hq] at hpq
        rw [q1, q2] at g1 h1
        refine wp_bind (ratText_alloc_spec (p := q) hE ho hob h1 ⟨g1.get 0, g1.get 1⟩ hpq fun B m2 h2 => ?_)
        refine wp_if_neg (by simp) (wp_bind (cstr_spec (cvtText_zero_notin ho.1 ho.2 q) ?_))
        refine wp_bind (ih MP_OK hn' hp' g1 h2 fun res n' d' σ'' m' g' h' hr => wp_pure ?_)
        have := hQ res n' d' σ'' m' g' h' (hcond res (by rw [hok]; exact hr))
        rw [cvtLine] at this
        rw [if_pos hok, hq] at this
        exact this
      · have hch0 : ch ≠ 0 := by
          rcases st.2.2 with ⟨h | h, _⟩ | ⟨_, h⟩
          · exact absurd h hok
          · exact absurd h hu
          · rw [hch] at h; simpa using h
        refine wp_if_pos hch0 ?_
        refine ih _ hn' hp' g1 h1 fun res n' d' σ'' m' g' h' hr => ?_
        have := hQ res n' d' σ'' m' g' h' (hcond res hr)
        rw [cvtLine] at this
        rw [if_neg hok] at this
        exact this

theorem basecvtMain_spec {obuf : Nat → Bytes} {args : List Bytes} {Q : Int × Bytes → Mem → Prop} (hE : Ref env E)
    (hi : 2 ≤ i ∧ i ≤ 36) (ho : 2 ≤ o ∧ o ≤ 36) (hob : ∀ n, (obuf n).length = n)
    (hn : ∀ s ∈ args, 0 ∈ s.take 800000001)
    (hp : ∀ s ∈ args, (readText i s).res = MP_OK → Printable (goodRadix o) (Rat.divInt (readText i s).num (readText i s).den))
    (h : R2 m σ)
    (hQ : ∀ st m', R2 m' σ →
      st = (if (∀ s ∈ args, (readText i s).res ≠ MP_UNDEF) ∧ args.getLast?.elim MP_OK (fun s => (readText i s).res) = MP_OK then 0 else 1) →
      Q (st, (args.takeWhile fun s => (readText i s).res ≠ MP_UNDEF).flatMap (cvtLine i o)) m') :
    wp env E (basecvtMain i o args obuf) Q m := by
  unfold basecvtMain
  refine wp_if_neg (by omega) (wp_if_neg (by omega) (withRat_spec hE h fun T σ1 m1 g1 r1 => ?_))
  refine wp_bind (basecvtLoop_spec hE hi ho hob args MP_OK hn hp g1 r1 fun res n' d' σ2 m2 g2 r2 hres => wp_pure ?_)
  refine .mk g2 r2 fun m3 h3 => hQ _ m3 h3 ?_
  dsimp only
  by_cases hk : res = MP_OK
  · rw [if_pos (hres.1 hk), if_neg (by simpa using hk)]
  · rw [if_neg (fun h => hk (hres.2 h)), if_pos hk]

theorem inputMain_spec {obuf : Nat → Bytes} {s : Bytes} {Q : Int × Bytes → Mem → Prop} (hE : Ref env E)
    (ho : 2 ≤ o ∧ o ≤ 36) (hob : ∀ n, (obuf n).length = n) (hn : 0 ∈ s.take 800000001) (h : R2 m σ)
    (hp : (readText 0 s).res = MP_OK → Printable (goodRadix o) (Rat.divInt (readText 0 s).num (readText 0 s).den))
    (hQ : ∀ m', R2 m' σ → Q (if (readText 0 s).res = MP_OK then 0 else 1, cvtLine 0 o s) m') :
    wp env E (inputMain s o obuf) Q m := by
  unfold inputMain
  refine wp_if_neg (by omega) (withRat_spec hE h fun T σ1 m1 g1 r1 => ?_)
  refine wp_bind (mp_rat_read_ustring_total hE (.inl rfl) hn r1 (ratTmps_out g1) fun m2 h2 => ?_)
  have g2 := ratTmps_set g1 (readText 0 s).num (readText 0 s).den
  by_cases hok : (readText 0 s).res = MP_OK
  · refine wp_if_neg (by simpa using hok) ?_
    obtain ⟨q, q1, q2⟩ := readText_ok hok
    have hq : Rat.divInt (readText 0 s).num (readText 0 s).den = q := by rw [q1, q2]; exact Rat.num_divInt_den q
    have hpq := hp hok
    rw [hq] at hpq
    rw [q1, q2] at g2 h2
    refine wp_bind (ratText_alloc_spec (p := q) hE ho hob h2 ⟨g2.get 0, g2.get 1⟩ hpq fun B m3 h3 => ?_)
    refine wp_if_neg (by simp) (wp_bind (cstr_spec (cvtText_zero_notin ho.1 ho.2 q) (wp_pure ?_)))
    refine .mk g2 h3 fun m4 h4 => ?_
    have := hQ m4 h4
    rw [cvtLine] at this
    rw [if_pos hok, if_pos hok, hq] at this
    exact this
  · refine wp_if_pos hok (wp_pure (.mk g2 h2 fun m3 h3 => ?_))
    have := hQ m3 h3
    rw [cvtLine, if_neg hok, if_neg hok] at this
    exact this

/-! ### Short arguments -/

theorem scanInt_lt (hr2 : 2 ≤ r) (hr : r ≤ 36) {s : Bytes} (h0 : 0 ∈ s) :
    ∃ P, s = P ++ (scanInt r s).2 ∧ 0 ∉ P ∧ (scanInt r s).1.natAbs < r ^ P.length := by
  obtain ⟨w, sg, ds, vs, ch, rest, e, hw, hsg, hF, hch, hhead, -⟩ := split_string r s h0
  obtain ⟨-, h2⟩ := scanInt_split (rest := rest) hr hw hsg hF hch hhead
  rw [← e] at h2
  refine ⟨w ++ sg ++ ds, by rw [h2]; exact e, by simp [space_ne hw, sign_ne hsg, digits_ne hr hF], ?_⟩
  rw [h2]
  have h3 := digits_lt hr2 hF
  have h4 : r ^ ds.length ≤ r ^ (w ++ sg ++ ds).length := Nat.pow_le_pow_right (by omega) (by simp only [List.length_append]; omega)
  have : ((if sg = [45] then -1 else 1) * ((Nat.ofDigits r vs.reverse : Nat) : Int)).natAbs = Nat.ofDigits r vs.reverse := by
    generalize Nat.ofDigits r vs.reverse = N
    split <;> simp
  dsimp only
  omega

theorem prefix_short {P R : Bytes} {n : Nat} (h : 0 ∈ (P ++ R).take (n + 1)) (hP : 0 ∉ P) : P.length ≤ n := by
  by_contra hn
  rw [List.take_append_of_le_length (by omega)] at h
  exact hP (List.mem_of_mem_take h)

theorem divInt_bounds {x y : Int} (hy : y ≠ 0) : (Rat.divInt x y).num.natAbs ≤ x.natAbs ∧ (Rat.divInt x y).den ≤ y.natAbs := by
  constructor
  · by_cases hx : x = 0
    · subst hx; simp
    · have := Rat.num_dvd x hy
      exact Nat.le_of_dvd (by omega) (Int.natAbs_dvd_natAbs.2 this)
  · have := Rat.den_dvd x y
    exact Nat.le_of_dvd (by omega) (by have := Int.natAbs_dvd_natAbs.2 this; simpa using this)

theorem readFraction_lt (hr2 : 2 ≤ r) (hr : r ≤ 36) {s : Bytes} {n : Nat} (h0 : 0 ∈ s.take (n + 1)) (h : (readFraction r s).res = MP_OK) :
    (readFraction r s).num.natAbs < r ^ n ∧ (readFraction r s).den.natAbs ≤ r ^ n := by
  obtain ⟨P, eP, hP0, hlt⟩ := scanInt_lt hr2 hr (List.mem_of_mem_take h0)
  have hT0 : 0 ∈ (scanInt r s).2 := by
    have := List.mem_of_mem_take h0
    rw [eP] at this
    exact (List.mem_append.1 this).resolve_left hP0
  have hPl : P.length ≤ n := by rw [eP] at h0; exact prefix_short h0 hP0
  have hpow : ∀ {k}, k ≤ n → r ^ k ≤ r ^ n := fun hk => Nat.pow_le_pow_right (by omega) hk
  obtain ⟨A, hA⟩ : ∃ A, readFraction r s = A := ⟨_, rfl⟩
  rw [hA] at h ⊢
  unfold readFraction at hA
  dsimp only at hA
  generalize hT : (scanInt r s).2 = T at *
  obtain ⟨w, t, et, hw, ht0, htn⟩ := split_space T hT0
  rw [et, trim_split hw htn, ← et] at hA
  split at hA
  · next u =>
    split at hA
    · rw [← hA] at h; simp [MP_TRUNC, MP_OK] at h
    · split at hA
      · rw [← hA] at h; simp [MP_UNDEF, MP_OK] at h
      · next _ hy =>
        have hu0 : 0 ∈ u := by simpa using ht0
        obtain ⟨P2, eP2, hP20, hlt2⟩ := scanInt_lt hr2 hr hu0
        have hPl2 : P2.length ≤ n := by
          rw [eP, et, eP2, show P ++ (w ++ 47 :: (P2 ++ (scanInt r u).2)) = (P ++ w ++ [47] ++ P2) ++ (scanInt r u).2 by simp] at h0
          have := prefix_short h0 (by simp [hP0, space_ne hw, hP20])
          simp at this; omega
        have := divInt_bounds (x := (scanInt r s).1) hy
        have := hpow hPl
        have := hpow hPl2
        rw [← hA]
        simp only [Int.natAbs_natCast]
        omega
  · have := hpow hPl
    have : 1 ≤ r ^ n := Nat.one_le_pow _ _ (by omega)
    rw [← hA]
    simp only [Int.natAbs_one]
    omega

theorem decimal_bounds {N F k a : Nat} (hr2 : 2 ≤ r) (hN : N < r ^ a) (hF : F < r ^ k) (s : Bool) {q : ℚ}
    (hq : q = (if s then -1 else 1) * ((N : ℚ) + F / (r : ℚ) ^ k)) : q.num.natAbs < r ^ (a + k) ∧ q.den ≤ r ^ k := by
  have hr0 : (r : ℚ) ≠ 0 := by exact_mod_cast (by omega : r ≠ 0)
  have hq' : q = Rat.divInt ((if s then -1 else 1) * (N * r ^ k + F : Nat)) (r ^ k : Nat) := by
    rw [hq, Rat.divInt_eq_div]
    push_cast
    field_simp
  have hpk : 0 < r ^ k := Nat.pow_pos (by omega)
  have hb := divInt_bounds (x := (if s then -1 else 1) * (N * r ^ k + F : Nat)) (y := (r ^ k : Nat)) (by omega)
  rw [← hq'] at hb
  have h1 : ((if s then -1 else 1 : Int) * (N * r ^ k + F : Nat)).natAbs = N * r ^ k + F := by
    generalize N * r ^ k + F = K
    cases s <;> simp
  rw [h1, Int.natAbs_natCast] at hb
  refine ⟨?_, hb.2⟩
  rw [Nat.pow_add]
  have h2 : (N + 1) * r ^ k ≤ r ^ a * r ^ k := Nat.mul_le_mul_right _ hN
  rw [Nat.add_mul, Nat.one_mul] at h2
  omega

theorem readDecimal_lt (hr2 : 2 ≤ r) (hr : r ≤ 36) {s : Bytes} {n : Nat} (h0 : 0 ∈ s.take (n + 1)) :
    (readDecimal r s).num.natAbs < r ^ n ∧ (readDecimal r s).den.natAbs ≤ r ^ n := by
  obtain ⟨P, eP, hP0, hlt⟩ := scanInt_lt hr2 hr (List.mem_of_mem_take h0)
  have hT0 : 0 ∈ (scanInt r s).2 := by
    have := List.mem_of_mem_take h0
    rw [eP] at this
    exact (List.mem_append.1 this).resolve_left hP0
  have hPl : P.length ≤ n := by rw [eP] at h0; exact prefix_short h0 hP0
  have hpow : ∀ {k}, k ≤ n → r ^ k ≤ r ^ n := fun hk => Nat.pow_le_pow_right (by omega) hk
  have hint : (scanInt r s).1.natAbs < r ^ n ∧ (1 : Int).natAbs ≤ r ^ n := by
    have := hpow hPl
    have : 1 ≤ r ^ n := Nat.one_le_pow _ _ (by omega)
    simp only [Int.natAbs_one]
    omega
  unfold readDecimal
  dsimp only
  split
  · next u hu =>
    split
    · exact hint
    · have hu0 : 0 ∈ u := by rw [hu] at hT0; simpa using hT0
      obtain ⟨fs, us, ch, rest, e2, hG, hch, -⟩ := split_digits r u hu0
      have hd := scanDigits_split (rest := rest) hr hG hch 0
      rw [foldl_ofDigits, Nat.zero_mul, Nat.zero_add, ← e2] at hd
      rw [hd]
      dsimp only
      have hl2 : u.length - (ch :: rest).length = fs.length := by rw [e2]; simp
      have hpl : P.length + fs.length ≤ n := by
        rw [eP, hu, e2, show P ++ 46 :: (fs ++ ch :: rest) = (P ++ [46] ++ fs) ++ ch :: rest by simp] at h0
        have := prefix_short h0 (by simp [hP0, digits_ne hr hG])
        simp at this; omega
      rw [hl2]
      obtain ⟨b1, b2⟩ := decimal_bounds hr2 hlt (digits_lt hr2 hG) (minus s) rfl
      have := hpow hpl
      have := hpow (k := fs.length) (by omega)
      rw [Int.natAbs_natCast]
      omega
  · exact hint

theorem readText_lt (hr : r = 0 ∨ 2 ≤ r ∧ r ≤ 36) {s : Bytes} {n : Nat} (h0 : 0 ∈ s.take (n + 1)) (h : (readText r s).res = MP_OK) :
    (readText r s).num.natAbs ≤ 36 ^ n ∧ (readText r s).den.natAbs ≤ 36 ^ n := by
  obtain ⟨A, hA⟩ : ∃ A, readText r s = A := ⟨_, rfl⟩
  rw [hA] at h ⊢
  unfold readText at hA
  dsimp only at hA
  obtain ⟨q, hq, hq2, hq3⟩ : ∃ q, (if r = 0 then 10 else r) = q ∧ 2 ≤ q ∧ q ≤ 36 := by
    refine ⟨_, rfl, ?_⟩
    split <;> omega
  rw [hq] at hA
  have hpow : q ^ n ≤ 36 ^ n := Nat.pow_le_pow_left hq3 n
  split at hA
  · have := readDecimal_lt hq2 hq3 h0
    rw [← hA]
    dsimp only
    omega
  · rw [← hA] at h ⊢
    have := readFraction_lt hq2 hq3 h0 h
    omega

/-- The numbers in arguments of up to 3906 characters are not too long. -/
theorem printable_short {g : Bool} (hr : r = 0 ∨ 2 ≤ r ∧ r ≤ 36) {s : Bytes} (h0 : 0 ∈ s.take 3907) (h : (readText r s).res = MP_OK) :
    Printable g (Rat.divInt (readText r s).num (readText r s).den) := by
  obtain ⟨q, q1, q2⟩ := readText_ok h
  have hb := readText_lt hr h0 h
  rw [q1, q2] at hb ⊢
  rw [Rat.num_divInt_den]
  rw [Int.natAbs_natCast] at hb
  have t : 36 ^ 3906 < 13 ^ 5458 := by decide +kernel
  have t' : 13 ^ 5458 < 2 ^ 20197 := by decide +kernel
  have s1 : Nat.size q.num.natAbs ≤ 20197 := Nat.size_le.2 (by omega)
  have s2 : Nat.size q.den ≤ 20197 := Nat.size_le.2 (by omega)
  refine ⟨.inr ⟨?_, ?_⟩, by omega⟩
  · rw [Int.abs_eq_natAbs]
    exact_mod_cast (by omega : q.num.natAbs < 13 ^ 5458)
  · exact_mod_cast (by omega : q.den < 13 ^ 5458)

/-! ### An argument for which the buffer is too short -/

theorem readText_numeral (hi : 2 ≤ i ∧ i ≤ 36) (v : Int) (t : List Nat) : readText i (numeral i v ++ 0 :: t) = ⟨MP_OK, some (0 :: t), v, 1⟩ := by
  have : readFraction i (numeral i v ++ 0 :: t) = ⟨MP_OK, some (0 :: t), v, 1⟩ := by
    unfold readFraction
    rw [(scanInt_numeral hi.1 hi.2 v (fun d => not_isDigit_zero) t).1]
    dsimp only
    rw [trim_cons (by unfold IsSpace; omega)]
    rfl
  unfold readText
  dsimp only
  rw [if_neg (by omega : ¬ i = 0), this, if_neg (by simp [MP_OK, MP_TRUNC])]

theorem ratText_alloc_fault {obuf : Nat → Bytes} {Q : Int × Bytes → Mem → Prop} (hE : Ref env E) (hu : E .ub)
    (hob : ∀ n, (obuf n).length = n) (h : R2 m σ) (h1 : σ a.num = some (13 ^ 5458)) (h2 : σ a.den = some 1) :
    wp env E (ratText_alloc a 13 obuf) Q m := by
  have e1 : ((13 : Int) ^ 5458).natAbs = 13 ^ 5458 := by rw [Int.natAbs_pow]; rfl
  have e2 : Nat.size (13 ^ 5458) = 20197 := by
    have a1 : 13 ^ 5458 < 2 ^ 20197 := by decide +kernel
    have a2 : 2 ^ 20196 ≤ 13 ^ 5458 := by decide +kernel
    have := Nat.size_le.2 a1
    have := Nat.lt_size.2 a2
    omega
  have hpos : (0 : Int) < 13 ^ 5458 := pow_pos (by norm_num) _
  have e3 : (numeral 13 (13 ^ 5458)).length = 5459 := by
    have hn : (13 : Nat) ^ 5458 ≠ 0 := pow_ne_zero _ (by norm_num)
    unfold numeral numeralN
    rw [if_neg (by omega), e1, if_neg hn, List.nil_append, List.length_reverse, List.length_map,
      Nat.length_digits 13 _ (by norm_num) hn, Nat.log_pow (by norm_num)]
  have hl : s_log2.getD 13 0 = 270238154 := rfl
  rw [← e1] at e2
  clear e1
  generalize (13 : Int) ^ 5458 = x at *
  unfold ratText_alloc mp_rat_is_integer
  refine wp_bind (wp_bind (mp_int_compare_value_spec (by decide) (by decide) h h2 fun m1 g1 => wp_pure ?_))
  have ht : decide (cmpZ 1 1 = 0) = true := by decide
  rw [ht]
  refine wp_bind (wp_cif (fun _ => ?_) fun hk => absurd rfl hk)
  refine mp_int_string_len_spec (by norm_num) (by norm_num) g1 h1 fun n n1 _ n3 => ?_
  have n3 := n3 hpos
  rw [e2, hl] at n3
  rw [e3] at n1
  have hb := hob n.toNat
  refine wp_cif (fun _ => ?_) fun hk => absurd rfl hk
  exact mp_int_to_string_fault hE hu (by norm_num) (by norm_num) (by omega) (by rw [e3]; omega) g1 h1

theorem basecvtMain_fault {obuf : Nat → Bytes} {s : Bytes} {args : List Bytes} {Q : Int × Bytes → Mem → Prop} (hE : Ref env E) (hu : E .ub)
    (hi : 2 ≤ i ∧ i ≤ 36) (hob : ∀ n, (obuf n).length = n) (hn : 0 ∈ s.take 800000001) (h : R2 m σ)
    (h1 : (readText i s).res = MP_OK) (h2 : (readText i s).num = 13 ^ 5458) (h3 : (readText i s).den = 1) :
    wp env E (basecvtMain i 13 (s :: args) obuf) Q m := by
  unfold basecvtMain
  refine wp_if_neg (by omega) (wp_if_neg (by omega) (withRat_spec hE h fun T σ1 m1 g1 r1 => ?_))
  refine wp_bind ?_
  unfold basecvtLoop
  obtain ⟨t, et, st⟩ := readText_stops (.inr hi) hn
  refine wp_bind (mp_rat_read_ustring_total hE (.inr hi) hn r1 (ratTmps_out g1) fun m2 r2 => ?_)
  have g2 := ratTmps_set g1 (readText i s).num (readText i s).den
  rw [et, Option.map_some]
  refine wp_if_neg (by dsimp only; rw [h1]; simp) ?_
  obtain ⟨ch, hch, hget⟩ := st.get
  refine wp_bind (wp_bget hget ?_)
  have hch0 : ch = 0 := by
    rcases st.2.2 with ⟨_, h⟩ | ⟨h, _⟩
    · rw [hch] at h; simpa using h
    · rw [h1] at h; exact absurd h (by decide)
  refine wp_if_neg (by simpa using hch0) ?_
  rw [h2, h3] at g2 r2
  exact wp_bind (ratText_alloc_fault hE hu hob r2 (g2.get 0) (g2.get 1))

theorem inputMain_fault {obuf : Nat → Bytes} {s : Bytes} {Q : Int × Bytes → Mem → Prop} (hE : Ref env E) (hu : E .ub)
    (hob : ∀ n, (obuf n).length = n) (hn : 0 ∈ s.take 800000001) (h : R2 m σ)
    (h1 : (readText 0 s).res = MP_OK) (h2 : (readText 0 s).num = 13 ^ 5458) (h3 : (readText 0 s).den = 1) :
    wp env E (inputMain s 13 obuf) Q m := by
  unfold inputMain
  refine wp_if_neg (by omega) (withRat_spec hE h fun T σ1 m1 g1 r1 => ?_)
  refine wp_bind (mp_rat_read_ustring_total hE (.inl rfl) hn r1 (ratTmps_out g1) fun m2 r2 => ?_)
  have g2 := ratTmps_set g1 (readText 0 s).num (readText 0 s).den
  refine wp_if_neg (by simpa using h1) ?_
  rw [h2, h3] at g2 r2
  exact wp_bind (ratText_alloc_fault hE hu hob r2 (g2.get 0) (g2.get 1))

/-! ### rounding.c -/

theorem fixedDigits_zero_notin (hr2 : 2 ≤ r) (hr : r ≤ 36) : ∀ k N, 0 ∉ fixedDigits r k N
  | 0, _ => by simp [fixedDigits]
  | k + 1, N => by
    unfold fixedDigits
    intro h
    rcases List.mem_append.1 h with h | h
    · exact fixedDigits_zero_notin hr2 hr k _ h
    · have hd : N % r < 36 := by have := Nat.mod_lt N (show 0 < r by omega); omega
      have := List.mem_singleton.1 h
      unfold digitChar at this
      split at this <;> omega

theorem decText_zero_notin {neg : Prop} [Decidable neg] {prec N : Nat} (hr2 : 2 ≤ r) (hr : r ≤ 36) : 0 ∉ decText r prec neg N := by
  unfold decText
  intro h
  rcases List.mem_append.1 h with h | h
  · rcases List.mem_append.1 h with h | h
    · split at h <;> simp at h
    · have : numeral r ((N / r ^ prec : Nat) : Int) = numeralN r (N / r ^ prec) := by
        unfold numeral
        rw [if_neg (Int.natCast_nonneg _).not_gt, List.nil_append, Int.natAbs_natCast]
      rw [← this] at h
      exact numeral_zero_notin hr2 hr _ h
  · split at h
    · simp at h
    · exact fixedDigits_zero_notin hr2 hr _ _ ((List.mem_cons.1 h).resolve_left (by omega))

theorem decWritten_zero_notin {prec mode : Nat} {p : ℚ} (hr2 : 2 ≤ r) (hr : r ≤ 36) : 0 ∉ decWritten r prec mode p := by
  unfold decWritten
  split
  · unfold carryText
    intro h
    rcases List.mem_append.1 h with h | h
    · rcases List.mem_append.1 h with h | h
      · split at h <;> simp at h
      · have := numeralN_range hr2 hr h; omega
    · exact fixedDigits_zero_notin hr2 hr _ _ ((List.mem_cons.1 h).resolve_left (by omega))
  · exact decText_zero_notin hr2 hr

theorem roundingMain_spec {obuf : Nat → Bytes} {s : Bytes} {mode prec : Nat} {Q : Int × Bytes → Mem → Prop} (hE : Ref env E)
    (hr : 2 ≤ r ∧ r ≤ 36) (hm : mode ≤ 3) (hob : ∀ n, (obuf n).length = n) (hn : 0 ∈ s.take 800000001) (h : R2 m σ)
    (hp : (readDecimal r s).res = MP_OK → p = Rat.divInt (readDecimal r s).num (readDecimal r s).den ∧
      (prec = 0 ∨ goodRadix r = true ∨ |p.num| < 13 ^ 5458) ∧ Nat.size p.num.natAbs + prec ≤ 2147483642 ∧
      (Carries r prec (roundQ 0 (|p| * r ^ prec)) (roundQ mode (|p| * r ^ prec)) → r ≤ p.num.natAbs))
    (hQ : ∀ m', R2 m' σ → Q ((readDecimal r s).res,
      if (readDecimal r s).res = MP_OK then decWritten r prec mode p else []) m') :
    wp env E (roundingMain mode prec r s obuf) Q m := by
  unfold roundingMain mp_rat_read_decimal
  refine withRat_spec hE h fun T σ1 m1 g1 r1 => ?_
  refine wp_bind (wp_bind (mp_rat_read_cdecimal_total hE hr.1 hr.2 hn r1 (ratTmps_out g1) fun m2 h2 => wp_pure ?_))
  have g2 := ratTmps_set g1 (readDecimal r s).num (readDecimal r s).den
  by_cases hok : (readDecimal r s).res = MP_OK
  · refine wp_if_neg (by simpa using hok) ?_
    obtain ⟨hpe, hx, hs, hc⟩ := hp hok
    rw [if_pos hok, hok] at hQ
    obtain ⟨q, q1, q2⟩ := readDecimal_q (r := r) s
    rw [q1, q2, Rat.num_divInt_den] at hpe
    subst hpe
    rw [q1, q2] at g2 h2
    have ha : HasQ2 (upd (upd σ1 (T 0) (some p.num)) (T 1) (some (p.den : Int))) ⟨T 0, T 1⟩ p := ⟨g2.get 0, g2.get 1⟩
    have hnl := hx.imp id (len_ok hr (h2.size_le ha.1))
    refine wp_bind (mp_rat_decimal_len_spec hr hm h2 ha hnl hs hc fun n hn => ?_)
    have hb := hob n.toNat
    refine wp_bind (mp_rat_to_decimal_out hE hr hm (by omega) h2 ha hn ?_ fun m3 h3 => ?_)
    · rw [hb]
      split at hn <;> omega
    · refine wp_bind (cstr_spec (decWritten_zero_notin hr.1 hr.2) (wp_pure (.mk g2 h3 hQ)))
  · refine wp_if_pos hok (wp_pure (.mk g2 h2 fun m3 h3 => ?_))
    have := hQ m3 h3
    rw [if_neg hok] at this
    exact this

/-! ### findprime.c -/

theorem unchkInit1 {α : Type} {k1 : Id → M α} {Q : α → Mem → Prop} (h : R2 m σ)
    (hk : ∀ T σ' m', Tmps σ 1 T (L [0]) σ' → R2 m' σ' →
      wp env E (k1 (T 0)) (fun r m'' => TDone 1 T Q r m'') m') :
    wp env E (withUnchk mp_int_init fun t0 => k1 t0) Q m := by
  refine wp_mono (withUnchk_spec (Q := Q) (v := 0) h (Tmps.nil σ (fun _ => .tmp 0) fun _ => 0)
    (fun t m1 P h1 hd' hn ho hP => mp_int_init_spec h1 hd' hn hP) fun t m1 g h1 => ?_) fun _ _ => TDone.elim
  refine hk (nset (fun _ => .tmp 0) 0 t) _ m1 (g.congr (fun _ _ => rfl) fun i hi => ?_) h1
  rcases show i = 0 by omega with rfl
  rfl

/-- The length of a positive decimal numeral. -/
theorem numeral_len_le {w : Int} (hw : 0 < w) (k : Nat) : (numeral 10 w).length ≤ k ↔ w < 10 ^ k := by
  have hn : w.natAbs ≠ 0 := by omega
  unfold numeral numeralN
  rw [if_neg (by omega), if_neg hn, List.nil_append, List.length_reverse, List.length_map,
    Nat.digits_length_le_iff (by norm_num)]
  constructor
  · intro h
    have : ((w.natAbs : Nat) : Int) < ((10 ^ k : Nat) : Int) := by exact_mod_cast h
    push_cast at this
    rw [abs_of_pos hw] at this
    exact this
  · intro h
    zify
    rw [abs_of_pos hw]
    exact h

/-- The program up to the search; `hw` is what happens with the number found. -/
theorem findprimeMain_step {s buf : Bytes} {Q : Int × Bytes → Mem → Prop} (hE : Ref env E) (hn : 0 ∈ s.take 800000001) (h : R2 m σ)
    (h2 : (scanInt 10 s).2.head? ≠ some 0 → ∀ m', R2 m' σ → Q (2, []) m')
    (h1 : (scanInt 10 s).2.head? = some 0 → (scanInt 10 s).1 ≤ 131 → ∀ m', R2 m' σ → Q (1, []) m')
    (hw : (scanInt 10 s).2.head? = some 0 → 131 < (scanInt 10 s).1 → ∀ w T σ' m', (scanInt 10 s).1 ≤ w → Accepted w →
      (∀ u, (scanInt 10 s).1 ≤ u → u < w → ¬ Accepted u) → Tmps σ 1 T (L [w]) σ' → R2 m' σ' →
      wp env E (do
        let s ← mp_int_to_string (T 0) 10 buf 4096
        let text ← cstr s.2
        pure ((0 : Int), [61, 62, 32] ++ text ++ [10])) (fun r m'' => TDone 1 T Q r m'') m') :
    wp env E (findprimeMain s buf) Q m := by
  unfold findprimeMain mp_int_read_string
  refine unchkInit1 h fun T σ1 m1 g1 r1 => ?_
  refine wp_bind (wp_bind (read_cstring_total hE (by norm_num) (by norm_num) hn (g1.ow 0) r1 (g1.get 0) fun m2 r2 => wp_pure ?_))
  have g2 := g1.lset 0 (scanInt 10 s).1
  tsimp at g2
  dsimp only
  by_cases he : (scanInt 10 s).2.head? = some 0
  · rw [show endCode (scanInt 10 s).2 = MP_OK from if_pos he]
    refine wp_if_neg (by decide) (wp_bind (mp_int_compare_value_spec (x := (scanInt 10 s).1) (by decide) (by decide) r2 (g2.get 0) fun m3 r3 => ?_))
    by_cases hx : (scanInt 10 s).1 ≤ 131
    · exact wp_if_pos (not_lt.1 fun h => absurd (cmpZ_pos.1 h) (by omega)) (wp_pure (.mk g2 r3 (h1 he hx)))
    · refine wp_if_neg (not_le.2 (cmpZ_pos.2 (by omega))) ?_
      refine wp_bind (mp_int_find_prime_spec hE r3 (g2.get 0) (g2.ow 0) fun w m4 h5 _ h6 h7 r4 => wp_if_neg (by decide) ?_)
      have g3 := g2.lset 0 w
      tsimp at g3
      refine hw he (by omega) w T _ m4 h5 h6 (fun u hu1 hu2 hu => ?_) g3 r4
      by_cases h8 : u % 2 = 1
      · exact h7 u hu1 hu2 h8 hu
      · have := accepted_even hu (by omega); omega
  · rw [show endCode (scanInt 10 s).2 = MP_TRUNC from if_neg he]
    exact wp_if_pos (by decide) (wp_pure (.mk g2 r2 (h2 he)))

theorem findprimeMain_ok {s buf : Bytes} {Q : Int × Bytes → Mem → Prop} {y : Int} (hE : Ref env E) (hn : 0 ∈ s.take 800000001) (h : R2 m σ)
    (hx : (scanInt 10 s).2.head? = some 0) (hx1 : 131 < (scanInt 10 s).1) (hb : buf.length = 4096)
    (hy : Accepted y) (hxy : (scanInt 10 s).1 ≤ y) (hy1 : y < 10 ^ 4095)
    (hQ : ∀ w m', R2 m' σ → (scanInt 10 s).1 ≤ w → Accepted w → (∀ u, (scanInt 10 s).1 ≤ u → u < w → ¬ Accepted u) →
      Q (0, [61, 62, 32] ++ numeral 10 w ++ [10]) m') :
    wp env E (findprimeMain s buf) Q m := by
  refine findprimeMain_step hE hn h (fun h => absurd hx h) (fun _ h => by omega) fun _ _ w T σ' m' hw1 hw2 hw3 g r => ?_
  have hwy : w ≤ y := by
    by_contra hk
    exact hw3 y hxy (by omega) hy
  have hl := (numeral_len_le (w := w) (by omega) 4095).2 (lt_of_le_of_lt hwy hy1)
  clear hy1
  refine wp_bind (mp_int_to_string_spec (v := w) hE (by norm_num) (by norm_num) (by norm_num) (by omega) r (g.get 0) (fun m2 h2 _ => ?_)
    fun _ _ _ hk => by omega)
  exact wp_bind (cstr_spec (numeral_zero_notin (by norm_num) (by norm_num) _) (wp_pure (.mk g h2 fun m3 h3 => hQ w m3 h3 hw1 hw2 hw3)))

theorem findprimeMain_fault {s buf : Bytes} {Q : Int × Bytes → Mem → Prop} (hE : Ref env E) (hu : E .ub) (hn : 0 ∈ s.take 800000001)
    (h : R2 m σ) (hx : (scanInt 10 s).2.head? = some 0) (hb : buf.length = 4096) (hx1 : 131 < (scanInt 10 s).1)
    (hy : ∀ y, (scanInt 10 s).1 ≤ y → y < 10 ^ 4095 → ¬ Accepted y) :
    wp env E (findprimeMain s buf) Q m := by
  refine findprimeMain_step hE hn h (fun h => absurd hx h) (fun _ h => by omega) fun _ _ w T σ' m' hw1 hw2 hw3 g r => ?_
  have hl : ¬ (numeral 10 w).length ≤ 4095 := fun hk => hy w hw1 ((numeral_len_le (by omega) _).1 hk) hw2
  exact wp_bind (mp_int_to_string_fault (v := w) hE hu (by norm_num) (by norm_num) (by norm_num) (by omega) r (g.get 0))

end Imath
