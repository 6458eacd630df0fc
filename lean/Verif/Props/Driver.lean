import Verif.Proof.Driver
import Verif.Proof.Bridge
import Verif.Concrete

/-!
# Properties of the test driver: lines and fields (C70, C71)
-/

namespace Imath

variable {env : Env} {m : Mem}

/-- The computation ends with a result that satisfies `P`, in the same memory, whatever the allocator does. -/
def Gives {α : Type} (f : M α) (P : α → Prop) : Prop := ∀ env m, ∃ r, f env m = .ok r m ∧ P r

theorem Gives.of_wp {α : Type} {f : M α} {P : α → Prop}
    (h : ∀ env m, wp env (fun _ => False) f (fun r m' => P r ∧ m' = m) m) : Gives f P := by
  intro env m
  have := h env m
  unfold wp at this
  split at this
  · rename_i r m' e
    obtain ⟨h1, rfl⟩ := this
    exact ⟨r, e, h1⟩
  · exact this.elim

/-! ### C70: `trim_line` -/

/-- `trim_line` on any text: the text afterwards is `trimmed s`, the array keeps its length, and nothing outside of it is
touched. -/
theorem C70_trim_line {s R : Bytes} (h0 : 0 ∉ s) :
    Gives (trim_line (s ++ 0 :: R)) fun l => ∃ R', l = trimmed s ++ 0 :: R' ∧ l.length = (s ++ 0 :: R).length :=
  .of_wp fun _ _ => trim_line_spec h0 fun R' h => ⟨⟨R', rfl, h⟩, rfl⟩

-- ` 5 ` becomes `5`; but ` 5` becomes `55`
example : trimmed [32, 53, 32] = [53] ∧ trimmed [32, 53] = [53, 53] := by decide
example : Gives (trim_line [32, 53, 0]) fun l => ∃ R', l = [53, 53] ++ 0 :: R' ∧ l.length = 3 :=
  C70_trim_line (s := [32, 53]) (R := []) (by decide)

/-- A text is white space, the stripped text, and white space; and the stripped text neither starts nor ends with
white space. -/
theorem C70_strip (s : Bytes) : (∃ w w', s = w ++ strip s ++ w' ∧ (∀ x ∈ w, IsSpace x) ∧ ∀ x ∈ w', IsSpace x) ∧
    (∀ c, (strip s).head? = some c → ¬ IsSpace c) ∧ ∀ c, (strip s).getLast? = some c → ¬ IsSpace c := by
  obtain ⟨w, h1, h2⟩ := trim_blanks s
  obtain ⟨w', h3, h4, h5⟩ := strip_split s
  refine ⟨⟨w, w', by rw [List.append_assoc, ← h3, ← h1], h2, h4⟩, ?_, ?_⟩
  · intro c hc
    cases hs : strip s with
    | nil => rw [hs] at hc; simp at hc
    | cons d t =>
      rw [hs] at hc h3
      obtain rfl : d = c := by simpa using hc
      exact trim_head h3
  · intro c hc
    rcases List.eq_nil_or_concat (strip s) with h | ⟨p, d, h⟩
    · rw [h] at hc; simp at hc
    · rw [h] at hc
      obtain rfl : d = c := by simpa using hc
      exact h5 p d (by rw [h]; simp)

/-- The comment (imtest.c:259) says that white space at the start and at the end is removed.  That is so exactly if there is
none at the start, or if there is some at the end of a text that contains other characters, too. -/
theorem C70_trim_line_as_documented_iff (s : Bytes) :
    trimmed s = strip s ↔ (∀ c, s.head? = some c → ¬ IsSpace c) ∨
      ((∃ c ∈ s, ¬ IsSpace c) ∧ ∃ c, s.getLast? = some c ∧ IsSpace c) := by
  obtain ⟨w, h1, h2⟩ := trim_blanks s
  obtain ⟨w', h3, h4, h5⟩ := strip_split s
  have hlen : s.length = w.length + (trim s).length := by conv => lhs; rw [h1]
                                                          simp
  have hlen' : (trim s).length = (strip s).length + w'.length := by rw [h3]; simp
  unfold trimmed
  dsimp only
  constructor
  · intro h
    by_cases hw : w = []
    · left
      intro c hc
      rw [hw, List.nil_append] at h1
      cases hs : s with
      | nil => rw [hs] at hc; simp at hc
      | cons d t =>
        rw [hs] at hc
        obtain rfl : d = c := by simpa using hc
        rw [hs] at h1
        rw [← hs] at h1
        exact trim_head (h1.symm.trans hs)
    · right
      have hpos : 0 < w.length := List.length_pos_of_ne_nil hw
      split at h
      · rename_i hlt
        have hw' : w' ≠ [] := by rintro rfl; simp at hlen'; omega
        refine ⟨?_, ?_⟩
        · cases ht : trim s with
          | nil => rw [ht] at hlt; simp at hlt
          | cons d t => exact ⟨d, mem_of_mem_trim (by rw [ht]; simp), trim_head ht⟩
        · rcases List.eq_nil_or_concat w' with h | ⟨p, d, h⟩
          · exact absurd h hw'
          · refine ⟨d, ?_, h4 d (by rw [h]; simp)⟩
            rw [h1, h3, h]; simp
      · have := congrArg List.length h
        simp only [List.length_append, List.length_drop] at this
        omega
  · rintro (h | ⟨⟨c, hc, hns⟩, d, hd, hsp⟩)
    · have ht : trim s = s := by
        cases s with
        | nil => rfl
        | cons c t => exact trim_eq_self (h c rfl)
      split
      · rfl
      · have : w' = [] := List.length_eq_zero_iff.1 (by omega)
        rw [this, List.append_nil] at h3
        rw [← h3, ht]; simp
    · rw [if_pos]
      by_contra hlt
      have hw' : w' = [] := List.length_eq_zero_iff.1 (by omega)
      rw [hw', List.append_nil] at h3
      rw [h3] at h1
      rcases List.eq_nil_or_concat (strip s) with h | ⟨p, e, h⟩
      · rw [h, List.append_nil] at h1
        exact hns (h2 c (by rw [← h1]; exact hc))
      · rw [h] at h1
        rw [h1] at hd
        obtain rfl : e = d := by simpa using hd
        exact h5 p e (by rw [h]; simp) hsp

/-- The claim of the comment is not true of all texts. -/
theorem C70_trim_line_violation : ¬ ∀ s : Bytes, 0 ∉ s → trimmed s = strip s := fun h =>
  absurd (h [32, 53] (by decide)) (by decide)

/-- Trimming a text again does not change it. -/
theorem C70_trim_line_again (s : Bytes) : trimmed (trimmed s) = trimmed s := by
  by_cases hall : ∀ x ∈ s, IsSpace x
  · have ht : trim s = [] := by
      have := trim_append_space (s := []) hall
      simpa [trim] using this
    have e : trimmed s = s := by unfold trimmed; simp [ht]
    rw [e, e]
  -- the result starts and ends with characters other than white space
  obtain ⟨w, h1, h2⟩ := trim_blanks s
  obtain ⟨w', h3, h4, h5⟩ := strip_split s
  have hne : strip s ≠ [] := by
    intro h
    rw [h, List.nil_append] at h3
    refine hall fun x hx => ?_
    rw [h1, h3] at hx
    rcases List.mem_append.1 hx with hx | hx
    exacts [h2 x hx, h4 x hx]
  have key : ∀ t : Bytes, t ≠ [] → (∀ c, t.head? = some c → ¬ IsSpace c) → (∀ c, t.getLast? = some c → ¬ IsSpace c) →
      trimmed t = t := by
    intro t ht hh hl
    have e1 : trim t = t := by
      cases t with
      | nil => rfl
      | cons c t => exact trim_eq_self (hh c rfl)
    have e2 : strip t = t := by
      unfold strip
      rw [e1]
      rcases List.eq_nil_or_concat t with h | ⟨p, d, h⟩
      · exact absurd h ht
      · rw [h]
        simp only [List.concat_eq_append, List.reverse_append, List.reverse_cons, List.reverse_nil, List.nil_append,
          List.singleton_append]
        rw [trim_eq_self (hl d (by rw [h]; simp))]; simp
    unfold trimmed
    simp [e1, e2]
  have hs := (C70_strip s).2
  unfold trimmed
  dsimp only
  split
  · exact key _ hne hs.1 hs.2
  · rename_i hlt
    have hw' : w' = [] := List.length_eq_zero_iff.1 (by
      have : (trim s).length = (strip s).length + w'.length := by rw [h3]; simp
      omega)
    rw [hw', List.append_nil] at h3
    refine key _ (by rw [h3]; simp [hne]) ?_ ?_
    · intro c hc
      rw [h3] at hc
      refine hs.1 c ?_
      cases hst : strip s with
      | nil => exact absurd hst hne
      | cons d t => rw [hst] at hc; simpa using hc
    · intro c hc
      rw [h3] at hc h1
      by_cases hd : s.drop (strip s).length = []
      · rw [hd, List.append_nil] at hc; exact hs.2 c hc
      · rw [List.getLast?_append_of_ne_nil _ hd, List.getLast?_drop] at hc
        split at hc
        · simp at hc
        · refine hs.2 c ?_
          rw [h1, List.getLast?_append_of_ne_nil _ hne] at hc
          exact hc

/-- Lines that end with a line feed are trimmed as documented. -/
theorem C70_trim_line_newline {s : Bytes} (h : ∃ c ∈ s, ¬ IsSpace c) : trimmed (s ++ [10]) = strip (s ++ [10]) := by
  rw [C70_trim_line_as_documented_iff]
  obtain ⟨c, h1, h2⟩ := h
  exact .inr ⟨⟨c, by simp [h1], h2⟩, 10, by simp, by simp [IsSpace]⟩

example : ∃ c ∈ [32, 53], ¬ IsSpace c := ⟨53, by simp, by decide⟩

/-! ### C71: `parse_line` -/

/-- The arrays hold the texts. -/
def TextsIn (ls : List Bytes) (ts : List Bytes) : Prop :=
  ls.length = ts.length ∧ ∀ (i : Nat) (l t : Bytes), ls[i]? = some l → ts[i]? = some t → ∃ R, l = t ++ 0 :: R

theorem Arrays.texts {ls ts : List Bytes} (h : Arrays ls ts) : TextsIn ls ts := by
  refine ⟨h.length_eq, fun i l t h1 h2 => ?_⟩
  obtain ⟨k1, rfl⟩ := List.getElem?_eq_some_iff.1 h1
  obtain ⟨k2, rfl⟩ := List.getElem?_eq_some_iff.1 h2
  exact (List.forall₂_iff_get.1 h).2 i k1 k2

/-- The parts of a text contain no commas, and the text is the parts with commas in between. -/
theorem C71_parts (s : Bytes) : (∀ p ∈ parts s, 44 ∉ p) ∧ List.intercalate [44] (parts s) = s := by
  induction s with
  | nil => simp [parts, List.intercalate]
  | cons x s ih =>
    obtain ⟨h1, h2⟩ := ih
    unfold parts
    split
    · rename_i hx
      refine ⟨by simpa using h1, ?_⟩
      cases hp : parts s with
      | nil => exact absurd hp (parts_ne_nil s)
      | cons p ps => rw [hp] at h2; rw [hx]; conv => rhs; rw [← h2]
                     simp [List.intercalate, List.intersperse]
    · rename_i hx
      cases hp : parts s with
      | nil => exact absurd hp (parts_ne_nil s)
      | cons p ps =>
        rw [hp] at h1 h2
        refine ⟨?_, ?_⟩
        · intro q hq
          rcases List.mem_cons.1 hq with rfl | hq
          · intro hm
            rcases List.mem_cons.1 hm with h | h
            exacts [hx h.symm, h1 p (by simp) h]
          · exact h1 q (by simp [hq])
        · conv => rhs; rw [← h2]
          cases ps <;> simp [List.intercalate, List.intersperse]

/-- A line with fewer than two colons is refused. -/
theorem C71_parse_line_syntax {s R : Bytes} (h0 : 0 ∉ s) (hc : s.count 58 < 2) : Gives (parse_line (s ++ 0 :: R)) fun r => r = none := by
  have hl : lineOf s = .syntaxError := by
    unfold lineOf
    cases h1 : cutAt 58 s with
    | none => rfl
    | some p =>
      obtain ⟨a, b⟩ := p
      dsimp only
      cases h2 : cutAt 58 b with
      | none => rfl
      | some q =>
        obtain ⟨c, d⟩ := q
        rw [(cutAt_some h1).1, (cutAt_some h2).1] at hc
        simp at hc
        omega
  exact .of_wp fun _ _ => parse_line_spec h0 (by rw [hl]; simp) fun r hr => by rw [hl] at hr; exact ⟨hr, rfl⟩

theorem cutAt_mk {c : Nat} {a b : Bytes} (h : c ∉ a) : cutAt c (a ++ c :: b) = some (a, b) := by
  induction a with
  | nil => simp [cutAt]
  | cons x a ih =>
    rw [List.cons_append, cutAt, if_neg (fun e => h (by simp [e])), ih (fun e => h (by simp [e]))]; rfl

/-- Any other line is a code, inputs and outputs with colons in between; unless one of the lists ends with a comma, the line
is split into the code and the parts of both lists.  An empty list has no parts. -/
theorem C71_parse_line {code ins outs R : Bytes} (h0 : 0 ∉ code ++ ins ++ outs) (hc : 58 ∉ code) (hi : 58 ∉ ins)
    (h1 : ins.getLast? ≠ some 44) (h2 : outs.getLast? ≠ some 44) :
    Gives (parse_line (code ++ 58 :: (ins ++ 58 :: outs) ++ 0 :: R)) fun r => ∃ li lo, r = some (code ++ [0], li, lo) ∧
      TextsIn li (if ins = [] then [] else parts ins) ∧ TextsIn lo (if outs = [] then [] else parts outs) := by
  have hl : lineOf (code ++ 58 :: (ins ++ 58 :: outs)) = .test code (fields ins) (fields outs) := by
    unfold lineOf
    rw [cutAt_mk hc]; dsimp only; rw [cutAt_mk hi]; dsimp only
    rw [if_neg (by simp [h1, h2])]
  simp only [List.mem_append, not_or] at h0
  refine .of_wp fun _ _ => parse_line_spec (by simp; tauto) (by rw [hl]; simp) fun r hr => ?_
  rw [hl] at hr
  obtain ⟨li, lo, h3, h4, h5⟩ := hr
  exact ⟨⟨li, lo, h3, h4.texts, h5.texts⟩, rfl⟩

-- `neg:5,0:-5`
example : Gives (parse_line ([110, 101, 103] ++ 58 :: ([53, 44, 48] ++ 58 :: [45, 53]) ++ 0 :: [])) fun r => ∃ li lo,
    r = some ([110, 101, 103] ++ [0], li, lo) ∧ TextsIn li (if [53, 44, 48] = [] then [] else parts [53, 44, 48]) ∧
    TextsIn lo (if [45, 53] = [] then [] else parts [45, 53]) :=
  C71_parse_line (code := [110, 101, 103]) (ins := [53, 44, 48]) (outs := [45, 53]) (R := []) (by decide) (by decide) (by decide) (by decide) (by decide)
example : parts [53, 44, 48] = [[53], [48]] := by decide

/-- If a list ends with a comma, one pointer more is stored than there is room for. -/
theorem C71_parse_line_overflow {code ins outs R : Bytes} (h0 : 0 ∉ code ++ ins ++ outs) (hc : 58 ∉ code) (hi : 58 ∉ ins)
    (h : ins.getLast? = some 44 ∨ outs.getLast? = some 44) (env : Env) (m : Mem) :
    Faults env (parse_line (code ++ 58 :: (ins ++ 58 :: outs) ++ 0 :: R)) m .ub := by
  have hl : lineOf (code ++ 58 :: (ins ++ 58 :: outs)) = .overflow := by
    unfold lineOf
    rw [cutAt_mk hc]; dsimp only; rw [cutAt_mk hi]; dsimp only
    rw [if_pos h]
  simp only [List.mem_append, not_or] at h0
  have := parse_line_spec (env := env) (m := m) (E := fun f => f = .ub) (Q := fun _ _ => False) (R := R)
    (s := code ++ 58 :: (ins ++ 58 :: outs)) (by simp; tauto) (fun _ => rfl) (by rw [hl]; exact fun _ h => h)
  unfold wp at this
  unfold Faults
  split at this
  · exact this.elim
  · rename_i e; rw [e, this]

-- `neg:5,0,:-5`
example : Faults env0 (parse_line ([110, 101, 103] ++ 58 :: ([53, 44, 48, 44] ++ 58 :: [45, 53]) ++ 0 :: [])) (memOf []) .ub :=
  C71_parse_line_overflow (code := [110, 101, 103]) (ins := [53, 44, 48, 44]) (outs := [45, 53]) (R := []) (by decide) (by decide) (by decide) (.inl (by decide)) _ _

end Imath
