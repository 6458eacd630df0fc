import Verif.Model.Driver
import Verif.SpecDriver
import Verif.Proof.Read
import Verif.Proof.Rsa
import Verif.Proof.Keygen
import Verif.Proof.RatStr

/-!
# Proofs about the test driver: lines and fields
-/

namespace Imath

variable {env : Env} {E : Fault → Prop} {m : Mem}

theorem not_space_zero : ¬ IsSpace 0 := by simp [IsSpace]

theorem trim_blanks (s : Bytes) : ∃ w, s = w ++ trim s ∧ ∀ x ∈ w, IsSpace x := by
  induction s with
  | nil => exact ⟨[], rfl, by simp⟩
  | cons c s ih =>
    unfold trim
    split
    · obtain ⟨w, h1, h2⟩ := ih
      exact ⟨c :: w, by rw [List.cons_append, ← h1], by intro x hx; rcases List.mem_cons.1 hx with rfl | h; assumption; exact h2 _ h⟩
    · exact ⟨[], rfl, by simp⟩

theorem trim_head {s : Bytes} {c : Nat} {t : Bytes} (h : trim s = c :: t) : ¬ IsSpace c := by
  induction s with
  | nil => simp [trim] at h
  | cons x s ih =>
    unfold trim at h
    split at h
    · exact ih h
    · obtain ⟨rfl, _⟩ := List.cons.inj h; assumption

theorem trim_eq_self {c : Nat} {t : Bytes} (h : ¬ IsSpace c) : trim (c :: t) = c :: t := by
  unfold trim; rw [if_neg h]

theorem trim_append_space {w s : Bytes} (h : ∀ x ∈ w, IsSpace x) : trim (w ++ s) = trim s := by
  induction w with
  | nil => rfl
  | cons c w ih =>
    rw [List.cons_append, trim, if_pos (h c (by simp))]
    exact ih fun x hx => h x (by simp [hx])

/-- The text is white space, the stripped text and white space. -/
theorem strip_split (s : Bytes) : ∃ w, trim s = strip s ++ w ∧ (∀ x ∈ w, IsSpace x) ∧
    ∀ p c, strip s = p ++ [c] → ¬ IsSpace c := by
  obtain ⟨w, h1, h2⟩ := trim_blanks (trim s).reverse
  refine ⟨w.reverse, ?_, by simpa using h2, ?_⟩
  · have := congrArg List.reverse h1
    rw [List.reverse_reverse, List.reverse_append] at this
    exact this
  · intro p c h
    unfold strip at h
    have := congrArg List.reverse h
    rw [List.reverse_reverse, List.reverse_append] at this
    exact trim_head this

theorem wp_trimBack_stop {Q : Bytes → Mem → Prop} : ∀ (n : Nat) (l : Bytes), (∀ k, n = k + 1 → ∃ c, l[k]? = some c ∧ ¬ IsSpace c) →
    Q l m → wp env E (trimBack l n) Q m := by
  intro n l h hQ
  cases n with
  | zero => exact wp_pure hQ
  | succ n =>
    obtain ⟨c, h1, h2⟩ := h n rfl
    unfold trimBack
    refine wp_bind (wp_bget h1 ?_)
    exact wp_if_neg (by rwa [isspace_iff]) (wp_pure hQ)

/-- The loop replaces the white space at the end by terminators. -/
theorem wp_trimBack {Q : Bytes → Mem → Prop} {u : Bytes} (hu : ∀ p c, u = p ++ [c] → ¬ IsSpace c) :
    ∀ (n : Nat) (w R : Bytes), w.length = n → (∀ x ∈ w, IsSpace x) → Q (u ++ (List.replicate n 0 ++ R)) m →
    wp env E (trimBack (u ++ (w ++ R)) (u.length + n)) Q m := by
  intro n
  induction n with
  | zero =>
    intro w R hw _ hQ
    obtain rfl := List.length_eq_zero_iff.1 hw
    refine wp_trimBack_stop _ _ (fun k hk => ?_) hQ
    rcases List.eq_nil_or_concat u with rfl | ⟨p, c, rfl⟩
    · simp at hk
    · refine ⟨c, ?_, hu p c (by simp)⟩
      simp only [List.concat_eq_append, List.length_append, List.length_singleton] at hk
      obtain rfl : p.length = k := by omega
      simp
  | succ n ih =>
    intro w R hw hs hQ
    rcases List.eq_nil_or_concat w with rfl | ⟨w, c, rfl⟩
    · simp at hw
    simp only [List.concat_eq_append, List.length_append, List.length_singleton] at hw
    have hw : w.length = n := by omega
    rw [show u.length + (n + 1) = (u.length + n) + 1 from rfl]
    unfold trimBack
    have hc : IsSpace c := hs c (by simp)
    have e : u ++ (w.concat c ++ R) = (u ++ w) ++ c :: R := by simp
    have el : (u ++ w).length = u.length + n := by simp [hw]
    rw [e, ← el]
    refine wp_bind (wp_bget getElem?_append_len ?_)
    refine wp_if_pos (by rwa [isspace_iff]) ?_
    refine wp_bind (wp_bset (by simp) ?_)
    have e2 : ((u ++ w) ++ c :: R).set (u ++ w).length 0 = u ++ (w ++ 0 :: R) := by simp
    rw [e2, el]
    refine ih w (0 :: R) hw (fun x hx => hs x (by simp [hx])) ?_
    have e3 : List.replicate (n + 1) 0 ++ R = List.replicate n 0 ++ 0 :: R := by
      rw [List.replicate_succ']; simp
    rw [← e3]
    exact hQ

theorem trim_length_le (s : Bytes) : (trim s).length ≤ s.length := by
  obtain ⟨w, h, _⟩ := trim_blanks s
  conv => rhs; rw [h]
  simp

theorem mem_of_mem_trim {s : Bytes} {x : Nat} (h : x ∈ trim s) : x ∈ s := by
  obtain ⟨w, e, _⟩ := trim_blanks s
  rw [e]; simp [h]

theorem mem_of_mem_strip {s : Bytes} {x : Nat} (h : x ∈ strip s) : x ∈ s := by
  obtain ⟨w, e, _⟩ := strip_split s
  exact mem_of_mem_trim (by rw [e]; simp [h])

theorem zero_notMem_trimmed {s : Bytes} (h0 : 0 ∉ s) : 0 ∉ trimmed s := by
  unfold trimmed
  dsimp only
  split
  · exact fun h => h0 (mem_of_mem_strip h)
  · intro h
    rcases List.mem_append.1 h with h | h
    · exact h0 (mem_of_mem_trim h)
    · exact h0 (List.mem_of_mem_drop h)

theorem trimmed_length_le (s : Bytes) : (trimmed s).length ≤ s.length := by
  have h1 := trim_length_le s
  unfold trimmed
  dsimp only
  split
  · omega
  · simp only [List.length_append, List.length_drop]; omega

/-- `trim_line` in full; the array keeps its length, and nothing after the terminator of the text changes. -/
theorem trim_line_spec {Q : Bytes → Mem → Prop} {s R : Bytes} (h0 : 0 ∉ s)
    (hQ : ∀ R', (trimmed s ++ 0 :: R').length = (s ++ 0 :: R).length → Q (trimmed s ++ 0 :: R') m) :
    wp env E (trim_line (s ++ 0 :: R)) Q m := by
  obtain ⟨w, e, hw⟩ := trim_blanks s
  have hwl : w.length + (trim s).length = s.length := by conv => rhs; rw [e]
                                                         simp
  have ht0 : 0 ∉ trim s := fun h => h0 (mem_of_mem_trim h)
  unfold trim_line
  have hc : ∃ c T, trim s ++ 0 :: R = c :: T ∧ ¬ IsSpace c := by
    cases h : trim s with
    | nil => exact ⟨0, R, rfl, not_space_zero⟩
    | cons c t => exact ⟨c, t ++ 0 :: R, rfl, trim_head h⟩
  obtain ⟨c, T, hT, hc⟩ := hc
  have e1 : s ++ 0 :: R = [] ++ (w ++ c :: T) := by
    rw [← hT, List.nil_append, ← List.append_assoc, ← e]
  refine wp_bind (wp_mono (Q := fun x m' => x = w.length ∧ m = m') ?_ ?_)
  · conv => arg 3; rw [e1]
    refine skipSpace_spec hc w [] _ ?_ hw ⟨by simp, rfl⟩
    simp only [List.nil_append, List.length_append, List.length_cons]; omega
  rintro _ _ ⟨rfl, rfl⟩
  refine wp_bind (wp_mono (Q := fun x m' => x = (trim s).length ∧ m = m') ?_ ?_)
  · have e2 : s ++ 0 :: R = w ++ (trim s ++ 0 :: R) := by rw [← List.append_assoc, ← e]
    conv => arg 3; rw [e2]
    refine strlen_exact ht0 ?_ ⟨rfl, rfl⟩
    simp only [List.length_append, List.length_cons]; omega
  rintro _ _ ⟨rfl, rfl⟩
  refine wp_bind (wp_bmove (A := []) (B := s.take (trim s).length) (C := s.drop (trim s).length ++ 0 :: R) (S := trim s)
    (by rw [List.nil_append, ← List.append_assoc, List.take_append_drop]) rfl (by simp; omega) rfl ?_ ?_ ?_)
  · rw [show s ++ 0 :: R = w ++ (trim s ++ 0 :: R) by rw [← List.append_assoc, ← e]]; simp
  · simp; omega
  obtain ⟨w2, e2, hw2, hs2⟩ := strip_split s
  have hl2 : (trim s).length = (strip s).length + w2.length := by rw [e2]; simp
  rw [List.nil_append]
  conv => arg 3; rw [hl2, e2, List.append_assoc]
  refine wp_trimBack hs2 w2.length w2 _ rfl hw2 ?_
  cases hn : w2.length with
  | zero =>
    have et : trimmed s = trim s ++ s.drop (trim s).length := by
      unfold trimmed; dsimp only; rw [if_neg (by omega)]
    obtain rfl := List.length_eq_zero_iff.1 hn
    rw [List.append_nil] at e2
    have := hQ R (by rw [et]; simp; omega)
    rw [et] at this
    simpa [← e2] using this
  | succ n =>
    have et : trimmed s = strip s := by
      unfold trimmed; dsimp only; rw [if_pos (by omega)]
    have := hQ (List.replicate n 0 ++ (s.drop (trim s).length ++ 0 :: R)) (by rw [et]; simp; omega)
    rw [et, show (trim s).length = (strip s).length + (n + 1) by omega] at this
    simpa [List.replicate_succ] using this

/-! ### Fields -/

theorem cutAt_none {c : Nat} {s : Bytes} (h : cutAt c s = none) : c ∉ s := by
  induction s with
  | nil => simp
  | cons x s ih =>
    unfold cutAt at h
    split at h
    · simp at h
    · rename_i hx
      simp only [Option.map_eq_none_iff] at h
      intro hm
      rcases List.mem_cons.1 hm with rfl | h'
      exacts [hx rfl, ih h h']

theorem cutAt_some {c : Nat} {s a b : Bytes} (h : cutAt c s = some (a, b)) : s = a ++ c :: b ∧ c ∉ a := by
  induction s generalizing a with
  | nil => simp [cutAt] at h
  | cons x s ih =>
    unfold cutAt at h
    split at h
    · rename_i hx
      obtain ⟨rfl, rfl⟩ := Prod.mk.inj (Option.some.inj h)
      exact ⟨by rw [hx]; rfl, by simp⟩
    · rename_i hx
      rw [Option.map_eq_some_iff] at h
      obtain ⟨⟨a', b'⟩, h1, h2⟩ := h
      obtain ⟨rfl, rfl⟩ := Prod.mk.inj h2
      obtain ⟨e, hn⟩ := ih h1
      refine ⟨by rw [e]; rfl, ?_⟩
      intro hm
      rcases List.mem_cons.1 hm with h' | h'
      exacts [hx h'.symm, hn h']

theorem strchr_found {Q : Option Nat → Mem → Prop} {c : Nat} {R : Bytes} : ∀ (a P : Bytes) (f : Nat), a.length < f → 0 ∉ a → c ∉ a →
    Q (some (P.length + a.length)) m → wp env E (strchr c (P ++ (a ++ c :: R)) f P.length) Q m := by
  intro a
  induction a with
  | nil =>
    intro P f hf _ _ hQ
    obtain ⟨f, rfl⟩ : ∃ g, f = g + 1 := ⟨f - 1, by simp at hf; omega⟩
    unfold strchr
    refine wp_bind (wp_bget getElem?_append_len ?_)
    exact wp_if_pos rfl (wp_pure hQ)
  | cons x a ih =>
    intro P f hf h0 hc hQ
    obtain ⟨f, rfl⟩ : ∃ g, f = g + 1 := ⟨f - 1, by simp at hf; omega⟩
    unfold strchr
    refine wp_bind (wp_bget (by rw [List.cons_append]; exact getElem?_append_len) ?_)
    refine wp_if_neg (fun h => hc (by simp [h])) (wp_if_neg (fun h => h0 (by simp [h])) ?_)
    have := ih (P ++ [x]) f (by simp at hf; omega) (fun h => h0 (by simp [h])) (fun h => hc (by simp [h]))
      (by simpa [Nat.add_assoc, Nat.add_comm 1] using hQ)
    simpa using this

theorem strchr_missing {Q : Option Nat → Mem → Prop} {c : Nat} {R : Bytes} (hc0 : c ≠ 0) : ∀ (a P : Bytes) (f : Nat), a.length < f → 0 ∉ a →
    c ∉ a → Q none m → wp env E (strchr c (P ++ (a ++ 0 :: R)) f P.length) Q m := by
  intro a
  induction a with
  | nil =>
    intro P f hf _ _ hQ
    obtain ⟨f, rfl⟩ : ∃ g, f = g + 1 := ⟨f - 1, by simp at hf; omega⟩
    unfold strchr
    refine wp_bind (wp_bget getElem?_append_len ?_)
    exact wp_if_neg hc0.symm (wp_if_pos rfl (wp_pure hQ))
  | cons x a ih =>
    intro P f hf h0 hc hQ
    obtain ⟨f, rfl⟩ : ∃ g, f = g + 1 := ⟨f - 1, by simp at hf; omega⟩
    unfold strchr
    refine wp_bind (wp_bget (by rw [List.cons_append]; exact getElem?_append_len) ?_)
    refine wp_if_neg (fun h => hc (by simp [h])) (wp_if_neg (fun h => h0 (by simp [h])) ?_)
    have := ih (P ++ [x]) f (by simp at hf; omega) (fun h => h0 (by simp [h])) (fun h => hc (by simp [h])) hQ
    simpa using this

theorem parts_ne_nil (s : Bytes) : parts s ≠ [] := by
  cases s with
  | nil => simp [parts]
  | cons x s => unfold parts; split; simp; split <;> simp

theorem parts_no_comma {s : Bytes} (h : 44 ∉ s) : parts s = [s] := by
  induction s with
  | nil => rfl
  | cons x s ih =>
    unfold parts
    rw [if_neg (fun hx => h (by simp [hx])), ih (fun hs => h (by simp [hs]))]

theorem parts_comma {a b : Bytes} (h : 44 ∉ a) : parts (a ++ 44 :: b) = a :: parts b := by
  induction a with
  | nil => simp [parts]
  | cons x a ih =>
    rw [List.cons_append, parts, if_neg (fun hx => h (by simp [hx])), ih (fun hs => h (by simp [hs]))]

theorem mem_parts {s p : Bytes} {x : Nat} (hp : p ∈ parts s) (hx : x ∈ p) : x ∈ s := by
  induction s generalizing p with
  | nil =>
    simp only [parts, List.mem_singleton] at hp
    subst hp
    simp at hx
  | cons c s ih =>
    unfold parts at hp
    split at hp
    · rcases List.mem_cons.1 hp with rfl | h
      · simp at hx
      · exact List.mem_cons_of_mem _ (ih h hx)
    · split at hp
      · rename_i h; exact absurd h (parts_ne_nil s)
      · rename_i p' ps h
        rcases List.mem_cons.1 hp with rfl | h'
        · rcases List.mem_cons.1 hx with rfl | h''
          · simp
          · exact List.mem_cons_of_mem _ (ih (by rw [h]; simp) h'')
        · exact List.mem_cons_of_mem _ (ih (by rw [h]; simp [h']) hx)

/-- The number of fields that are counted: a comma at the end does not count. -/
theorem countLoop_spec {Q : Nat → Mem → Prop} {R : Bytes} : ∀ (s P : Bytes) (f n : Nat), s.length < f → 0 ∉ s →
    Q (n + (parts s).length - 1 - (if s.getLast? = some 44 then 1 else 0)) m →
    wp env E (countLoop (P ++ (s ++ 0 :: R)) 44 f P.length n) Q m := by
  intro s
  induction s with
  | nil =>
    intro P f n hf _ hQ
    obtain ⟨f, rfl⟩ : ∃ g, f = g + 1 := ⟨f - 1, by simp at hf; omega⟩
    unfold countLoop
    refine wp_bind (wp_bget getElem?_append_len ?_)
    exact wp_if_pos rfl (wp_pure (by simpa [parts] using hQ))
  | cons x s ih =>
    intro P f n hf h0 hQ
    obtain ⟨f, rfl⟩ : ∃ g, f = g + 1 := ⟨f - 1, by simp at hf; omega⟩
    unfold countLoop
    refine wp_bind (wp_bget (by rw [List.cons_append]; exact getElem?_append_len) ?_)
    refine wp_if_neg (fun h => h0 (by simp [h])) ?_
    have hpos : 1 ≤ (parts s).length := List.length_pos_of_ne_nil (parts_ne_nil s)
    have key : ∀ n', Q (n' + (parts s).length - 1 - (if s.getLast? = some 44 then 1 else 0)) m →
        wp env E (countLoop (P ++ (x :: s ++ 0 :: R)) 44 f (P.length + 1) n') Q m := by
      intro n' h
      have := ih (P ++ [x]) f n' (by simp at hf; omega) (fun h => h0 (by simp [h])) h
      simpa using this
    by_cases hx : x = 44
    · subst hx
      have hlen : (parts (44 :: s)).length = (parts s).length + 1 := by simp [parts]
      refine wp_bind (wp_cif (fun _ => ?_) (fun h => absurd rfl h))
      cases s with
      | nil =>
        refine wp_bind (wp_bget (x := 0) (by
          have := getElem?_append_len (P := P ++ [44]) (c := 0) (R := R); simpa using this) ?_)
        refine wp_pure ?_
        simp only [ne_eq, not_true_eq_false, decide_false, Bool.false_eq_true, if_false]
        refine key n ?_
        simpa [parts] using hQ
      | cons y s =>
        have hy : y ≠ 0 := fun h => h0 (by simp [h])
        refine wp_bind (wp_bget (x := y) (by
          have := getElem?_append_len (P := P ++ [44]) (c := y) (R := s ++ 0 :: R); simpa using this) ?_)
        refine wp_pure ?_
        simp only [ne_eq, hy, not_false_eq_true, decide_true, if_true]
        refine key (n + 1) ?_
        rw [hlen] at hQ
        have e : (44 :: y :: s).getLast? = (y :: s).getLast? := by simp [List.getLast?_cons_cons]
        rw [e] at hQ
        rwa [show n + 1 + (parts (y :: s)).length = n + ((parts (y :: s)).length + 1) by omega]
    · have hlen : (parts (x :: s)).length = (parts s).length := by
        rw [parts, if_neg hx]
        split
        · rename_i h; exact absurd h (parts_ne_nil s)
        · rename_i h; rw [h]; rfl
      refine wp_bind (wp_cif (fun h => absurd h hx) (fun _ => wp_pure ?_))
      simp only [Bool.false_eq_true, if_false]
      refine key n ?_
      rw [hlen] at hQ
      cases s with
      | nil => simpa [hx] using hQ
      | cons y s => simpa [List.getLast?_cons_cons] using hQ

theorem count_fields_spec {Q : Nat → Mem → Prop} {s R : Bytes} (h0 : 0 ∉ s)
    (hQ : Q ((fields s).length - (if s.getLast? = some 44 then 1 else 0)) m) :
    wp env E (count_fields (s ++ 0 :: R) 44) Q m := by
  unfold count_fields
  cases s with
  | nil =>
    refine wp_bind (wp_bget (x := 0) rfl ?_)
    exact wp_if_pos rfl (wp_pure (by simpa [fields] using hQ))
  | cons x s =>
    refine wp_bind (wp_bget (x := x) rfl ?_)
    refine wp_if_neg (fun h => h0 (by simp [h])) ?_
    have := countLoop_spec (env := env) (E := E) (Q := Q) (R := R) (m := m) (x :: s) [] ((x :: s ++ 0 :: R).length + 1) 1
      (by simp) h0 (by
        rw [Nat.add_comm 1, Nat.add_sub_cancel]; simpa [fields] using hQ)
    simpa using this

/-- Arrays that contain the texts, with anything after the terminators -/
def Arrays (ls ts : List Bytes) : Prop := List.Forall₂ (fun l t => ∃ R, l = t ++ 0 :: R) ls ts

theorem parse_fields_spec {Q : List Bytes → Mem → Prop} {R : Bytes} {cap : Nat} : ∀ (f pos : Nat) (s : Bytes), s.length < f → 0 ∉ s →
    pos + (parts s).length ≤ cap → (∀ l, Arrays l (parts s) → Q l m) →
    wp env E (parse_fields 44 cap f pos (s ++ 0 :: R)) Q m := by
  intro f
  induction f generalizing Q with
  | zero => intro pos s h; omega
  | succ f ih =>
    intro pos s hf h0 hcap hQ
    have hpos : 1 ≤ (parts s).length := List.length_pos_of_ne_nil (parts_ne_nil s)
    unfold parse_fields
    refine wp_bind (wp_cwhen (fun h => absurd h (by omega)) (fun _ => ?_))
    cases hs : cutAt 44 s with
    | none =>
      have hn := cutAt_none hs
      refine wp_bind ?_
      have := strchr_missing (env := env) (E := E) (m := m) (Q := fun p m' => wp env E (p.elim (pure [s ++ 0 :: R]) fun i => do
        let rest ← parse_fields 44 cap f (pos + 1) ((s ++ 0 :: R).drop (i + 1))
        pure (((s ++ 0 :: R).take i ++ [0]) :: rest)) Q m') (c := 44) (R := R) (by decide) s [] ((s ++ 0 :: R).length + 1)
        (by simp) h0 hn (wp_pure (hQ _ (by rw [parts_no_comma hn]; exact .cons ⟨R, rfl⟩ .nil)))
      simpa using this
    | some p =>
      obtain ⟨a, b⟩ := p
      obtain ⟨e, ha⟩ := cutAt_some hs
      have h0a : 0 ∉ a := fun h => h0 (by rw [e]; simp [h])
      have h0b : 0 ∉ b := fun h => h0 (by rw [e]; simp [h])
      have hp : parts s = a :: parts b := by rw [e]; exact parts_comma ha
      refine wp_bind ?_
      have := strchr_found (env := env) (E := E) (m := m) (Q := fun p m' => wp env E (p.elim (pure [s ++ 0 :: R]) fun i => do
        let rest ← parse_fields 44 cap f (pos + 1) ((s ++ 0 :: R).drop (i + 1))
        pure (((s ++ 0 :: R).take i ++ [0]) :: rest)) Q m') (c := 44) (R := b ++ 0 :: R) a [] ((s ++ 0 :: R).length + 1)
        (by rw [e]; simp) h0a ha ?_
      · rw [e] at this ⊢
        simpa using this
      · simp only [List.length_nil, Nat.zero_add, Option.elim_some]
        have e1 : (s ++ 0 :: R).drop (a.length + 1) = b ++ 0 :: R := by rw [e]; simp
        have e2 : (s ++ 0 :: R).take a.length = a := by rw [e]; simp
        rw [e1, e2]
        rw [hp] at hcap hQ
        refine wp_bind (ih (pos + 1) b (by rw [e] at hf; simp at hf; omega) h0b (by simp at hcap; omega) fun l hl => ?_)
        exact wp_pure (hQ _ (.cons ⟨[], rfl⟩ hl))

theorem parse_fields_overflow {Q : List Bytes → Mem → Prop} {R : Bytes} {cap : Nat} (hu : E .ub) : ∀ (f pos : Nat) (s : Bytes), s.length < f →
    0 ∉ s → cap < pos + (parts s).length → wp env E (parse_fields 44 cap f pos (s ++ 0 :: R)) Q m := by
  intro f
  induction f generalizing Q with
  | zero => intro pos s h; omega
  | succ f ih =>
    intro pos s hf h0 hcap
    unfold parse_fields
    by_cases hcp : cap ≤ pos
    · refine wp_bind (wp_cwhen (fun _ => ?_) (fun h => absurd hcp h))
      exact hu
    refine wp_bind (wp_cwhen (fun h => absurd h hcp) (fun _ => ?_))
    cases hs : cutAt 44 s with
    | none => rw [parts_no_comma (cutAt_none hs)] at hcap; simp at hcap; omega
    | some p =>
      obtain ⟨a, b⟩ := p
      obtain ⟨e, ha⟩ := cutAt_some hs
      have h0a : 0 ∉ a := fun h => h0 (by rw [e]; simp [h])
      have h0b : 0 ∉ b := fun h => h0 (by rw [e]; simp [h])
      have hp : parts s = a :: parts b := by rw [e]; exact parts_comma ha
      refine wp_bind ?_
      have := strchr_found (env := env) (E := E) (m := m) (Q := fun p m' => wp env E (p.elim (pure [s ++ 0 :: R]) fun i => do
        let rest ← parse_fields 44 cap f (pos + 1) ((s ++ 0 :: R).drop (i + 1))
        pure (((s ++ 0 :: R).take i ++ [0]) :: rest)) Q m') (c := 44) (R := b ++ 0 :: R) a [] ((s ++ 0 :: R).length + 1)
        (by rw [e]; simp) h0a ha ?_
      · rw [e] at this ⊢
        simpa using this
      · simp only [List.length_nil, Nat.zero_add, Option.elim_some]
        have e1 : (s ++ 0 :: R).drop (a.length + 1) = b ++ 0 :: R := by rw [e]; simp
        rw [e1]
        rw [hp] at hcap
        exact wp_bind (ih (pos + 1) b (by rw [e] at hf; simp at hf; omega) h0b (by simp at hcap; omega))

theorem fields_overflow {s : Bytes} (h : s.getLast? = some 44) : 2 ≤ (fields s).length := by
  have hne : s ≠ [] := by rintro rfl; simp at h
  unfold fields
  rw [if_neg hne]
  obtain ⟨a, rfl⟩ : ∃ a, s = a ++ [44] := by
    rcases List.eq_nil_or_concat s with rfl | ⟨a, c, rfl⟩
    · simp at h
    · exact ⟨a, by simpa using h⟩
  clear h hne
  induction a with
  | nil => simp [parts]
  | cons x a ih =>
    rw [List.cons_append, parts]
    split
    · simp only [List.length_cons]; omega
    · split
      · rename_i h; exact absurd h (parts_ne_nil _)
      · rename_i h; rw [h] at ih; simpa using ih

theorem fieldsOf_spec {Q : List Bytes → Mem → Prop} {s R : Bytes} (h0 : 0 ∉ s) (hc : s.getLast? ≠ some 44)
    (hQ : ∀ l, Arrays l (fields s) → Q l m) : wp env E (fieldsOf (fields s).length (s ++ 0 :: R)) Q m := by
  unfold fieldsOf
  by_cases hs : s = []
  · subst hs
    exact wp_if_neg (by simp [fields]) (wp_pure (hQ _ .nil))
  · have e : fields s = parts s := by unfold fields; rw [if_neg hs]
    rw [e] at hQ ⊢
    have hpos : 1 ≤ (parts s).length := List.length_pos_of_ne_nil (parts_ne_nil s)
    refine wp_if_pos (by omega) ?_
    exact parse_fields_spec _ 0 s (by simp) h0 (by omega) hQ

theorem fieldsOf_overflow {Q : List Bytes → Mem → Prop} {s R : Bytes} (hu : E .ub) (h0 : 0 ∉ s) (hc : s.getLast? = some 44) :
    wp env E (fieldsOf ((fields s).length - 1) (s ++ 0 :: R)) Q m := by
  have h2 := fields_overflow hc
  have hs : s ≠ [] := by rintro rfl; simp at hc
  have e : fields s = parts s := by unfold fields; rw [if_neg hs]
  unfold fieldsOf
  refine wp_if_pos (by omega) ?_
  rw [e] at h2 ⊢
  exact parse_fields_overflow hu _ 0 s (by simp) h0 (by omega)

/-- What `parse_line` returns for a line -/
def LineRep : Line → Option (Bytes × List Bytes × List Bytes) → Prop
  | .syntaxError, r => r = none
  | .overflow, _ => False
  | .test code ins outs, r => ∃ li lo, r = some (code ++ [0], li, lo) ∧ Arrays li ins ∧ Arrays lo outs

theorem parse_line_spec {Q : Option (Bytes × List Bytes × List Bytes) → Mem → Prop} {s R : Bytes} (h0 : 0 ∉ s)
    (hu : lineOf s = .overflow → E .ub) (hQ : ∀ r, LineRep (lineOf s) r → Q r m) :
    wp env E (parse_line (s ++ 0 :: R)) Q m := by
  unfold parse_line
  cases h1 : cutAt 58 s with
  | none =>
    have el : lineOf s = .syntaxError := by unfold lineOf; rw [h1]
    have := strchr_missing (env := env) (E := E) (m := m) (Q := fun p m' => p = none ∧ m = m') (c := 58) (R := R) (by decide) s []
      ((s ++ 0 :: R).length + 1) (by simp) h0 (cutAt_none h1) ⟨rfl, rfl⟩
    refine wp_bind (wp_mono (by simpa using this) ?_)
    rintro _ _ ⟨rfl, rfl⟩
    exact wp_pure (hQ _ (by rw [el]; rfl))
  | some p =>
    obtain ⟨code, s1⟩ := p
    obtain ⟨e1, hc1⟩ := cutAt_some h1
    have h0c : 0 ∉ code := fun h => h0 (by rw [e1]; simp [h])
    have h01 : 0 ∉ s1 := fun h => h0 (by rw [e1]; simp [h])
    have := strchr_found (env := env) (E := E) (m := m) (Q := fun p m' => p = some code.length ∧ m = m') (c := 58) (R := s1 ++ 0 :: R) code []
      ((s ++ 0 :: R).length + 1) (by rw [e1]; simp) h0c hc1 ⟨by simp, rfl⟩
    refine wp_bind (wp_mono (by rw [e1] at this ⊢; simpa using this) ?_)
    rintro _ _ ⟨rfl, rfl⟩
    rw [Option.elim_some]
    have eA : s ++ 0 :: R = (code ++ [58]) ++ (s1 ++ 0 :: R) := by rw [e1]; simp
    have lA : (code ++ [58]).length = code.length + 1 := by simp
    cases h2 : cutAt 58 s1 with
    | none =>
      have el : lineOf s = .syntaxError := by unfold lineOf; rw [h1]; dsimp only; rw [h2]
      have := strchr_missing (env := env) (E := E) (m := m) (Q := fun p m' => p = none ∧ m = m') (c := 58) (R := R) (by decide) s1 (code ++ [58])
        ((s ++ 0 :: R).length + 1) (by rw [e1]; simp; omega) h01 (cutAt_none h2) ⟨rfl, rfl⟩
      rw [← eA, lA] at this
      refine wp_bind (wp_mono this ?_)
      rintro _ _ ⟨rfl, rfl⟩
      exact wp_pure (hQ _ (by rw [el]; rfl))
    | some p =>
      obtain ⟨ins, outs⟩ := p
      obtain ⟨e2, hc2⟩ := cutAt_some h2
      have h0i : 0 ∉ ins := fun h => h01 (by rw [e2]; simp [h])
      have h0o : 0 ∉ outs := fun h => h01 (by rw [e2]; simp [h])
      have := strchr_found (env := env) (E := E) (m := m) (Q := fun p m' => p = some (code.length + 1 + ins.length) ∧ m = m') (c := 58)
        (R := outs ++ 0 :: R) ins (code ++ [58]) ((s ++ 0 :: R).length + 1) (by rw [e1, e2]; simp; omega) h0i hc2 ⟨by simp, rfl⟩
      have e3 : (code ++ [58]) ++ (ins ++ 58 :: (outs ++ 0 :: R)) = s ++ 0 :: R := by rw [e1, e2]; simp
      rw [e3, lA] at this
      refine wp_bind (wp_mono this ?_)
      rintro _ _ ⟨rfl, rfl⟩
      rw [Option.elim_some]
      dsimp only
      have t1 : (s ++ 0 :: R).take code.length = code := by rw [← e3]; simp
      have t2 : ((s ++ 0 :: R).take (code.length + 1 + ins.length) ++ [0]).drop (code.length + 1) = ins ++ 0 :: [] := by
        rw [← e3, ← List.append_assoc, ← lA, ← List.length_append, List.take_left, List.append_assoc, List.drop_left]
      have t3 : (s ++ 0 :: R).drop (code.length + 1 + ins.length + 1) = outs ++ 0 :: R := by
        have : (code ++ [58] ++ ins ++ [58]).length = code.length + 1 + ins.length + 1 := by simp; omega
        rw [← this, ← e3]
        rw [show code ++ [58] ++ (ins ++ 58 :: (outs ++ 0 :: R)) = (code ++ [58] ++ ins ++ [58]) ++ (outs ++ 0 :: R) by simp, List.drop_left]
      rw [t1, t2, t3]
      refine wp_bind (count_fields_spec h0i ?_)
      refine wp_bind (count_fields_spec h0o ?_)
      by_cases hi : ins.getLast? = some 44
      · have el : lineOf s = .overflow := by unfold lineOf; rw [h1]; dsimp only; rw [h2]; dsimp only; rw [if_pos (.inl hi)]
        rw [if_pos hi]
        exact wp_bind (fieldsOf_overflow (hu el) h0i hi)
      rw [if_neg hi, Nat.sub_zero]
      refine wp_bind (fieldsOf_spec h0i hi fun li hli => ?_)
      by_cases ho : outs.getLast? = some 44
      · have el : lineOf s = .overflow := by unfold lineOf; rw [h1]; dsimp only; rw [h2]; dsimp only; rw [if_pos (.inr ho)]
        rw [if_pos ho]
        exact wp_bind (fieldsOf_overflow (hu el) h0o ho)
      rw [if_neg ho, Nat.sub_zero]
      refine wp_bind (fieldsOf_spec h0o ho fun lo hlo => ?_)
      have el : lineOf s = .test code (fields ins) (fields outs) := by
        unfold lineOf; rw [h1]; dsimp only; rw [h2]; dsimp only; rw [if_neg (by simp [hi, ho])]
      exact wp_pure (hQ _ (by rw [el]; exact ⟨li, lo, rfl, hli, hlo⟩))

/-! ### Lines of a file -/

theorem is_blank_spec {Q : Bool → Mem → Prop} {R : Bytes} : ∀ (s P : Bytes) (f : Nat), s.length < f → 0 ∉ s →
    Q (decide (Blank s)) m → wp env E (is_blank (P ++ (s ++ 0 :: R)) f P.length) Q m := by
  intro s
  induction s with
  | nil =>
    intro P f hf _ hQ
    obtain ⟨f, rfl⟩ : ∃ g, f = g + 1 := ⟨f - 1, by simp at hf; omega⟩
    unfold is_blank
    refine wp_bind (wp_bget getElem?_append_len ?_)
    exact wp_if_neg (by simp) (wp_pure (by simpa [Blank, trim] using hQ))
  | cons x s ih =>
    intro P f hf h0 hQ
    obtain ⟨f, rfl⟩ : ∃ g, f = g + 1 := ⟨f - 1, by simp at hf; omega⟩
    unfold is_blank
    refine wp_bind (wp_bget (by rw [List.cons_append]; exact getElem?_append_len) ?_)
    have hx0 : x ≠ 0 := fun h => h0 (by simp [h])
    by_cases hx : IsSpace x
    · refine wp_if_pos ⟨hx0, by rintro rfl; simp [IsSpace] at hx, by rwa [isspace_iff]⟩ ?_
      have := ih (P ++ [x]) f (by simp at hf; omega) (fun h => h0 (by simp [h])) (by
        have e : trim (x :: s) = trim s := by rw [trim, if_pos hx]
        have : Blank (x :: s) ↔ Blank s := by unfold Blank; rw [e]
        rwa [decide_eq_decide.2 this] at hQ)
      simpa using this
    · refine wp_if_neg (fun h => hx (by rw [← isspace_iff]; exact h.2.2)) (wp_pure ?_)
      have e : trim (x :: s) = x :: s := trim_eq_self hx
      simpa [Blank, e, hx0] using hQ

/-- The first line and the rest of a file are what `fgets` gives. -/
theorem chunks_fgets {limit : Nat} : ∀ (k : Nat) (acc s : Bytes), 0 < k → s ≠ [] →
    chunks limit acc k s = (acc ++ (fgets k s).1) :: chunks limit [] limit (fgets k s).2 := by
  intro k
  induction k with
  | zero => intro _ _ h; omega
  | succ k ih =>
    intro acc s _ hs
    cases s with
    | nil => simp at hs
    | cons c s =>
      rw [chunks, fgets]
      by_cases hc : c = 10
      · rw [if_pos (.inl hc), if_pos hc]
      · rw [if_neg hc]
        dsimp only
        cases k with
        | zero => rw [if_pos (.inr (by omega))]; simp [fgets]
        | succ k =>
          rw [if_neg (by omega)]
          cases s with
          | nil => simp [chunks, fgets]
          | cons d s =>
            rw [Nat.add_sub_cancel, ih (acc ++ [c]) (d :: s) (by omega) (by simp)]
            simp

theorem fgets_length {k : Nat} {s : Bytes} (hk : 0 < k) (hs : s ≠ []) : (fgets k s).2.length < s.length := by
  induction k generalizing s with
  | zero => omega
  | succ k ih =>
    cases s with
    | nil => simp at hs
    | cons c s =>
      rw [fgets]
      split
      · simp
      · dsimp only
        cases k with
        | zero => simp [fgets]
        | succ k =>
          cases s with
          | nil => simp [fgets]
          | cons d s => exact Nat.lt_succ_of_lt (ih (by omega) (by simp))

theorem fgets_le : ∀ (k : Nat) (s : Bytes), (fgets k s).1.length ≤ k
  | 0, _ => by simp [fgets]
  | _ + 1, [] => by simp [fgets]
  | k + 1, c :: s => by
    rw [fgets]
    split
    · simp
    · simpa using fgets_le k s

theorem upTo0_split (s : Bytes) : 0 ∉ upTo0 s ∧ ∃ R, s ++ [0] = upTo0 s ++ 0 :: R := by
  induction s with
  | nil => exact ⟨by simp [upTo0], [], rfl⟩
  | cons c s ih =>
    unfold upTo0 at ih ⊢
    obtain ⟨h1, R, h2⟩ := ih
    by_cases hc : c = 0
    · subst hc; simp
    · rw [List.takeWhile_cons_of_pos (by simpa using hc)]
      refine ⟨?_, R, by rw [List.cons_append, h2]; rfl⟩
      intro h
      rcases List.mem_cons.1 h with h | h
      exacts [hc h.symm, h1 h]

/-- The numbered lines of a file that are left -/
def linesFrom (cur : Nat) (inp : Bytes) : List (Nat × Bytes) := numbered cur (chunks 4095 [] 4095 inp)

/-- `read_line` gives the next line and leaves the others, or finds the end of the file. -/
theorem read_line_spec {Q : Option Bytes × Bytes × Nat → Mem → Prop} : ∀ (f : Nat) (inp : Bytes) (cur : Nat), inp.length < f →
    (linesFrom cur inp = [] → Q (none, [], cur + (chunks 4095 [] 4095 inp).length) m) →
    (∀ n s ls R rest, linesFrom cur inp = (n, s) :: ls → 0 ∉ s → s.length ≤ 4095 → linesFrom n rest = ls → rest.length < inp.length →
      n + (chunks 4095 [] 4095 rest).length = cur + (chunks 4095 [] 4095 inp).length → Q (some (s ++ 0 :: R), rest, n) m) →
    wp env E (read_line LINE_MAX f inp cur) Q m := by
  intro f
  induction f with
  | zero => intro inp cur h; omega
  | succ f ih =>
    intro inp cur hf hQ1 hQ2
    unfold read_line
    by_cases hi : inp = []
    · subst hi
      exact wp_if_pos rfl (wp_pure (by simpa [linesFrom, chunks, numbered] using hQ1))
    refine wp_if_neg hi ?_
    dsimp only
    have eL : LINE_MAX - 1 = 4095 := rfl
    rw [eL]
    obtain ⟨h0, R, eR⟩ := upTo0_split (fgets 4095 inp).1
    have hlen := fgets_length (k := 4095) (by omega) hi
    have eN : linesFrom cur inp = numbered cur ((fgets 4095 inp).1 :: chunks 4095 [] 4095 (fgets 4095 inp).2) := by
      unfold linesFrom; rw [chunks_fgets 4095 [] inp (by omega) hi, List.nil_append]
    have eC : (chunks 4095 [] 4095 inp).length = (chunks 4095 [] 4095 (fgets 4095 inp).2).length + 1 := by
      rw [chunks_fgets 4095 [] inp (by omega) hi]; simp
    have hle := fgets_le 4095 inp
    rw [eR]
    have := is_blank_spec (env := env) (E := E) (m := m) (Q := fun p m' => p = decide (Blank (upTo0 (fgets 4095 inp).1)) ∧ m = m') (R := R)
      (upTo0 (fgets 4095 inp).1) [] ((upTo0 (fgets 4095 inp).1 ++ 0 :: R).length + 1) (by simp) h0 ⟨rfl, rfl⟩
    refine wp_bind (wp_mono (by simpa using this) ?_)
    rintro _ _ ⟨rfl, rfl⟩
    by_cases hb : Blank (upTo0 (fgets 4095 inp).1)
    · refine wp_if_pos (by simpa using hb) ?_
      have e2 : linesFrom cur inp = linesFrom (cur + 1) (fgets 4095 inp).2 := by
        rw [eN, numbered, if_pos hb, linesFrom]
      rw [e2] at hQ1 hQ2
      refine ih _ _ (by omega) (fun h => ?_) fun n s ls R rest h1 h2 h3 h4 h5 h6 => hQ2 n s ls R rest h1 h2 h3 h4 (by omega) (by omega)
      rw [eC] at hQ1
      rw [show cur + 1 + (chunks 4095 [] 4095 (fgets 4095 inp).2).length = cur + ((chunks 4095 [] 4095 (fgets 4095 inp).2).length + 1) by omega]
      exact hQ1 h
    · refine wp_if_neg (by simpa using hb) ?_
      refine wp_bind (trim_line_spec h0 fun R' hR => ?_)
      refine wp_pure (hQ2 _ _ _ R' _ (by rw [eN, numbered, if_neg hb]; rfl) (zero_notMem_trimmed h0) ?_ rfl hlen (by omega))
      rw [← eR] at hR
      simp only [List.length_append, List.length_cons, List.length_nil] at hR
      omega

end Imath
