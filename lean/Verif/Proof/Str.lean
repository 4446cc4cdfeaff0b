/-
Lemmas on text: prefixes taken by a predicate, lines, trimming.
-/
import Verif.Basic.Nom

namespace Osu

/-- Every character of `s` satisfies `f`. -/
def AllC (f : Char → Bool) (s : Str) : Prop := ∀ c ∈ s, f c = true

instance (f : Char → Bool) (s : Str) : Decidable (AllC f s) := by unfold AllC; infer_instance

/-- `s` is empty or its first character does not satisfy `f`. -/
def HeadNot (f : Char → Bool) (s : Str) : Prop := ∀ c r, s = c :: r → f c = false

theorem AllC.nil {f} : AllC f [] := by intro c hc; cases hc

theorem AllC.append {f s t} (h1 : AllC f s) (h2 : AllC f t) : AllC f (s ++ t) := by
  intro c hc
  rcases List.mem_append.1 hc with h | h
  · exact h1 c h
  · exact h2 c h

theorem AllC.cons {f c t} (h1 : f c = true) (h2 : AllC f t) : AllC f (c :: t) := by
  intro d hd
  rcases List.mem_cons.1 hd with rfl | h
  · exact h1
  · exact h2 d h

theorem AllC.of_cons {f c t} (h : AllC f (c :: t)) : f c = true ∧ AllC f t :=
  ⟨h c List.mem_cons_self, fun d hd => h d (List.mem_cons_of_mem _ hd)⟩

theorem AllC.mono {f g : Char → Bool} {s} (h : AllC f s) (hfg : ∀ c, f c = true → g c = true) : AllC g s :=
  fun c hc => hfg c (h c hc)

theorem HeadNot.nil {f} : HeadNot f [] := by intro c r h; cases h

theorem HeadNot.cons {f c s} (h : f c = false) : HeadNot f (c :: s) := by
  intro d r e; cases e; exact h

theorem HeadNot.of_cons {f c s} (h : HeadNot f (c :: s)) : f c = false := h c s rfl

theorem headNot_iff {f s} : HeadNot f s ↔ (s = [] ∨ ∃ c r, s = c :: r ∧ f c = false) := by
  constructor
  · intro h
    cases s with
    | nil => exact .inl rfl
    | cons c r => exact .inr ⟨c, r, rfl, h.of_cons⟩
  · rintro (rfl | ⟨c, r, rfl, h⟩)
    · exact .nil
    · exact .cons h

theorem takeWhile_app {f s t} (h : AllC f s) (ht : HeadNot f t) : (s ++ t).takeWhile f = s := by
  induction s with
  | nil =>
    cases t with
    | nil => rfl
    | cons c r => simp [ht.of_cons]
  | cons a s ih =>
    obtain ⟨h1, h2⟩ := h.of_cons
    simp [h1, ih h2]

theorem dropWhile_app {f s t} (h : AllC f s) (ht : HeadNot f t) : (s ++ t).dropWhile f = t := by
  induction s with
  | nil =>
    cases t with
    | nil => rfl
    | cons c r => simp [ht.of_cons]
  | cons a s ih =>
    obtain ⟨h1, h2⟩ := h.of_cons
    simp [h1, ih h2]

theorem takeWhile_allC (f : Char → Bool) (s : Str) : AllC f (s.takeWhile f) := by
  induction s with
  | nil => exact .nil
  | cons c s ih =>
    rw [List.takeWhile_cons]
    split
    · exact .cons (by assumption) ih
    · exact .nil

theorem dropWhile_headNot (f : Char → Bool) (s : Str) : HeadNot f (s.dropWhile f) := by
  induction s with
  | nil => exact .nil
  | cons c s ih =>
    rw [List.dropWhile_cons]
    split
    · exact ih
    · exact .cons (by simpa using ‹¬ f c = true›)

theorem dropWhile_eq_nil {f : Char → Bool} {s : Str} : s.dropWhile f = [] ↔ AllC f s := by
  induction s with
  | nil => simp [AllC.nil]
  | cons c s ih =>
    rw [List.dropWhile_cons]
    split
    · rename_i h
      rw [ih]
      exact ⟨fun h' => .cons h h', fun h' => h'.of_cons.2⟩
    · rename_i h
      constructor
      · intro e; cases e
      · intro h'; exact absurd h'.of_cons.1 h

/-! ### trim -/

theorem trim_eq_nil {s : Str} : trim s = [] ↔ AllC isWs s := by
  unfold trim trimEnd trimStart
  rw [List.reverse_eq_nil_iff, dropWhile_eq_nil]
  constructor
  · intro h
    rw [← dropWhile_eq_nil]
    cases hd : s.dropWhile isWs with
    | nil => rfl
    | cons c r =>
      have h1 := dropWhile_headNot isWs s
      rw [hd] at h1 h
      have h2 := h c (by simp)
      rw [h1.of_cons] at h2; cases h2
  · intro h
    rw [dropWhile_eq_nil.2 h]
    exact .nil

/-- Trimming leaves a text alone that neither begins nor ends with a blank. -/
theorem trim_id {s : Str} (h1 : HeadNot isWs s) (h2 : HeadNot isWs s.reverse) : trim s = s := by
  have d : ∀ {t : Str}, HeadNot isWs t → t.dropWhile isWs = t := by
    intro t ht
    have := dropWhile_app (f := isWs) (s := []) (t := t) .nil ht
    simpa using this
  unfold trim trimEnd trimStart
  rw [d h1, d h2, List.reverse_reverse]

theorem trim_headNot (s : Str) : HeadNot isWs (trim s) := by
  have h1 := dropWhile_headNot isWs s
  unfold trim trimEnd trimStart
  generalize s.dropWhile isWs = t at *
  -- prefix of t
  have : (t.reverse.dropWhile isWs).reverse <+: t := by
    have := List.dropWhile_suffix (l := t.reverse) isWs
    rw [← List.reverse_prefix] at this
    simpa using this
  obtain ⟨u, hu⟩ := this
  intro c r e
  rw [e] at hu
  exact h1 c (r ++ u) (by rw [← hu]; rfl)

theorem trim_reverse_headNot (s : Str) : HeadNot isWs (trim s).reverse := by
  unfold trim trimEnd
  rw [List.reverse_reverse]
  exact dropWhile_headNot _ _

theorem trim_trim (s : Str) : trim (trim s) = trim s :=
  trim_id (trim_headNot s) (trim_reverse_headNot s)

/-! ### lines -/

/-- No line feed in the text. -/
abbrev NoLF (s : Str) : Prop := AllC (fun c => !(c == '\n')) s

theorem splitNL_ne_nil (s : Str) : splitNL s ≠ [] := by
  cases s with
  | nil => simp [splitNL]
  | cons c s =>
    rw [splitNL]
    split
    · simp
    · split <;> simp

theorem splitNL_noLF {s : Str} (h : NoLF s) : splitNL s = [s] := by
  induction s with
  | nil => rfl
  | cons c s ih =>
    obtain ⟨h1, h2⟩ := h.of_cons
    rw [splitNL, if_neg (by simpa using h1), ih h2]

theorem splitNL_append_nl {l : Str} (h : NoLF l) (s : Str) :
    splitNL (l ++ '\n' :: s) = l :: splitNL s := by
  induction l with
  | nil => simp [splitNL]
  | cons c l ih =>
    obtain ⟨h1, h2⟩ := h.of_cons
    rw [List.cons_append, splitNL, if_neg (by simpa using h1), ih h2]

theorem join_cons_cons (sep x y : Str) (r : List Str) :
    join sep (x :: y :: r) = x ++ sep ++ join sep (y :: r) := rfl

theorem splitNL_join {ls : List Str} (hne : ls ≠ []) (h : ∀ l ∈ ls, NoLF l) :
    splitNL (join ['\n'] ls) = ls := by
  induction ls with
  | nil => exact absurd rfl hne
  | cons x r ih =>
    cases r with
    | nil => exact splitNL_noLF (h x (by simp))
    | cons y r =>
      rw [join_cons_cons, List.append_assoc, List.singleton_append,
        splitNL_append_nl (h x (by simp)), ih (by simp) (fun l hl => h l (by simp [hl]))]

/-- A text that does not end in a carriage return. -/
def NoEndCR (s : Str) : Prop := s.getLast? ≠ some '\r'

instance (s : Str) : Decidable (NoEndCR s) := by unfold NoEndCR; infer_instance

theorem stripCR_id {l : Str} (h : NoEndCR l) : stripCR l = l := by
  unfold stripCR; rw [if_neg h]

theorem linesOf_eq {ls : List Str} (h : ∀ l ∈ ls, NoEndCR l)
    (hl : ∀ l, ls.getLast? = some l → l ≠ []) : linesOf ls = ls := by
  induction ls with
  | nil => rfl
  | cons x r ih =>
    cases r with
    | nil => simp [linesOf, hl x (by simp)]
    | cons y r =>
      rw [linesOf, stripCR_id (h x (by simp)), ih (fun l hl' => h l (by simp [hl']))]
      intro l hl'
      exact hl l (by simpa using hl')

/-- `lines` undoes joining with line feeds. -/
theorem lines_join {ls : List Str} (h1 : ∀ l ∈ ls, NoLF l) (h2 : ∀ l ∈ ls, NoEndCR l)
    (hl : ∀ l, ls.getLast? = some l → l ≠ []) : lines (join ['\n'] ls) = ls := by
  cases ls with
  | nil => rfl
  | cons x r =>
    unfold lines
    rw [splitNL_join (by simp) h1, linesOf_eq h2 hl]

theorem lines_nil : lines [] = [] := rfl
theorem lines_nl : lines ['\n'] = [[]] := by decide

/-- `lines` of a line followed by a line feed and more text. -/
theorem lines_append_nl {l : Str} (h : NoLF l) (h2 : NoEndCR l) (s : Str) :
    lines (l ++ '\n' :: s) = l :: lines s := by
  unfold lines
  rw [splitNL_append_nl h]
  cases hs : splitNL s with
  | nil => exact absurd hs (splitNL_ne_nil s)
  | cons x r => rw [linesOf, stripCR_id h2]

/-- `lines` of a single line. -/
theorem lines_single {l : Str} (h : NoLF l) (hne : l ≠ []) : lines l = [l] := by
  unfold lines
  rw [splitNL_noLF h]
  simp [linesOf, hne]

theorem AllC.noEndCR {f : Char → Bool} {s : Str} (h : AllC f s) (hf : f '\r' = false) : NoEndCR s := by
  intro e
  have := h '\r' (List.mem_of_getLast? e)
  rw [hf] at this; cases this

theorem AllC.noLF {f : Char → Bool} {s : Str} (h : AllC f s) (hf : f '\n' = false) : NoLF s := by
  intro c hc
  have := h c hc
  by_cases e : c = '\n'
  · subst e; rw [hf] at this; cases this
  · simp [e]

end Osu
