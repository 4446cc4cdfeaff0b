/-
The line loop: exact conditions for each outcome, blank lines, printing and reading back.
-/
import Verif.Model.Lines
import Verif.Proof.Str
import Verif.Spec.Lines

namespace Osu

/-- A line that the loop does not skip. -/
def nonBlank (l : Str) : Bool := !(trim l).isEmpty

theorem nonBlank_iff {l : Str} : nonBlank l = true ↔ trim l ≠ [] := by
  unfold nonBlank; cases trim l <;> simp

theorem nonBlank_false {l : Str} : nonBlank l = false ↔ trim l = [] := by
  unfold nonBlank; cases trim l <;> simp

section
variable {E α : Type} {f : Str → Res E α}

theorem lineLoop_blank {n : Nat} {l : Str} {ls : List Str} (h : nonBlank l = false) :
    lineLoop f n (l :: ls) = lineLoop f (n + 1) ls := by
  rw [lineLoop, if_pos (nonBlank_false.1 h)]

theorem lineLoop_ok_iff {n : Nat} {ls : List Str} {as : List α} :
    lineLoop f n ls = .ok as ↔ (ls.filter nonBlank).map f = as.map .ok := by
  induction ls generalizing n as with
  | nil =>
    cases as <;> simp [lineLoop]
  | cons l ls ih =>
    cases hb : nonBlank l with
    | false => rw [lineLoop_blank hb, ih]; simp [hb]
    | true =>
      rw [lineLoop, if_neg (nonBlank_iff.1 hb)]
      simp only [List.filter_cons, hb, if_true, List.map_cons]
      cases hf : f l with
      | err e => cases as <;> simp
      | panic => cases as <;> simp
      | ok a =>
        cases hl : lineLoop f (n + 1) ls with
        | ok as' =>
          have := ih.1 hl
          simp only [Res.ok.injEq]
          constructor
          · rintro rfl; simp [this]
          · intro h
            cases as with
            | nil => simp at h
            | cons b bs =>
              simp only [List.map_cons, List.cons.injEq, Res.ok.injEq] at h
              obtain ⟨rfl, h⟩ := h
              have h' := (ih (n := n + 1)).2 h
              rw [hl] at h'; cases h'; rfl
        | _ =>
          simp only [reduceCtorEq, false_iff]
          intro h
          cases as with
          | nil => simp at h
          | cons b bs =>
            simp only [List.map_cons, List.cons.injEq] at h
            have h' := (ih (n := n + 1)).2 h.2
            rw [hl] at h'; cases h'

/-- The state before the line that ends the loop: earlier lines are blank or accepted. -/
def EarlierOK (f : Str → Res E α) (pre : List Str) : Prop := ∀ l ∈ pre, nonBlank l = true → ∃ a, f l = .ok a

theorem lineLoop_err_iff {n : Nat} {ls : List Str} {e : LErr E} :
    lineLoop f n ls = .err e ↔
      ∃ pre l post, ls = pre ++ l :: post ∧ EarlierOK f pre ∧ nonBlank l = true ∧ f l = .err e.error ∧
        e.line = n + pre.length := by
  induction ls generalizing n with
  | nil => simp [lineLoop]
  | cons x ls ih =>
    have key : (lineLoop f n (x :: ls) = .err e ↔ (nonBlank x = true ∧ f x = .err e.error ∧ e.line = n) ∨
        ((nonBlank x = true → ∃ a, f x = .ok a) ∧ lineLoop f (n + 1) ls = .err e)) := by
      cases hb : nonBlank x with
      | false => rw [lineLoop_blank hb]; simp
      | true =>
        rw [lineLoop, if_neg (nonBlank_iff.1 hb)]
        cases hf : f x with
        | err e' =>
          simp only [Res.err.injEq, true_and, reduceCtorEq, exists_false, imp_false]
          constructor
          · rintro rfl; exact .inl ⟨rfl, rfl⟩
          · rintro (⟨h1, h2⟩ | ⟨h, _⟩)
            · cases e; simp_all
            · exact absurd trivial h
        | panic => simp
        | ok a =>
          cases hl : lineLoop f (n + 1) ls <;> simp
    rw [key, ih]
    constructor
    · rintro (⟨h1, h2, h3⟩ | ⟨h1, pre, l, post, rfl, h2, h3, h4, h5⟩)
      · exact ⟨[], x, ls, rfl, (by intro l hl; cases hl), h1, h2, by simpa using h3⟩
      · refine ⟨x :: pre, l, post, rfl, ?_, h3, h4, by simp [h5]; omega⟩
        intro y hy
        rcases List.mem_cons.1 hy with rfl | hy
        · exact h1
        · exact h2 y hy
    · rintro ⟨pre, l, post, h1, h2, h3, h4, h5⟩
      cases pre with
      | nil => cases h1; exact .inl ⟨h3, h4, by simpa using h5⟩
      | cons y pre =>
        cases h1
        exact .inr ⟨h2 _ (by simp), pre, l, post, rfl, fun z hz => h2 z (by simp [hz]), h3, h4,
          by simp at h5; omega⟩

theorem lineLoop_panic_iff {n : Nat} {ls : List Str} :
    lineLoop f n ls = .panic ↔
      ∃ pre l post, ls = pre ++ l :: post ∧ EarlierOK f pre ∧ nonBlank l = true ∧ f l = .panic := by
  induction ls generalizing n with
  | nil => simp [lineLoop]
  | cons x ls ih =>
    have key : (lineLoop f n (x :: ls) = .panic ↔ (nonBlank x = true ∧ f x = .panic) ∨
        ((nonBlank x = true → ∃ a, f x = .ok a) ∧ lineLoop f (n + 1) ls = .panic)) := by
      cases hb : nonBlank x with
      | false => rw [lineLoop_blank hb]; simp
      | true =>
        rw [lineLoop, if_neg (nonBlank_iff.1 hb)]
        cases hf : f x with
        | err e' => simp
        | panic => simp
        | ok a => cases hl : lineLoop f (n + 1) ls <;> simp
    rw [key, ih]
    constructor
    · rintro (⟨h1, h2⟩ | ⟨h1, pre, l, post, rfl, h2, h3, h4⟩)
      · exact ⟨[], x, ls, rfl, (by intro l hl; cases hl), h1, h2⟩
      · refine ⟨x :: pre, l, post, rfl, ?_, h3, h4⟩
        intro y hy
        rcases List.mem_cons.1 hy with rfl | hy
        · exact h1
        · exact h2 y hy
    · rintro ⟨pre, l, post, h1, h2, h3, h4⟩
      cases pre with
      | nil => cases h1; exact .inl ⟨h3, h4⟩
      | cons y pre =>
        cases h1
        exact .inr ⟨h2 _ (by simp), pre, l, post, rfl, fun z hz => h2 z (by simp [hz]), h3, h4⟩

/-- The error names the first line that is not blank and not accepted. -/
theorem parseLines_err_iff {s : Str} {k : Nat} {e : E} :
    parseLines f s = .err ⟨k, e⟩ ↔
      (∃ l, (lines s)[k]? = some l ∧ nonBlank l = true ∧ f l = .err e) ∧
      ∀ j l, j < k → (lines s)[j]? = some l → nonBlank l = true → ∃ a, f l = .ok a := by
  unfold parseLines
  rw [lineLoop_err_iff]
  generalize lines s = ls
  constructor
  · rintro ⟨pre, l, post, rfl, h1, h2, h3, h4⟩
    simp only [Nat.zero_add] at h4
    subst h4
    refine ⟨⟨l, by simp, h2, h3⟩, ?_⟩
    intro j l' hj hl'
    rw [List.getElem?_append_left hj] at hl'
    exact h1 l' (List.mem_of_getElem? hl')
  · rintro ⟨⟨l, h1, h2, h3⟩, h4⟩
    obtain ⟨hk, hl⟩ := List.getElem?_eq_some_iff.1 h1
    refine ⟨ls.take k, l, ls.drop (k + 1), ?_, ?_, h2, h3, ?_⟩
    · rw [← hl, List.getElem_cons_drop, List.take_append_drop]
    · intro x hx
      obtain ⟨j, hj, rfl⟩ := List.mem_iff_getElem.1 hx
      simp only [List.length_take] at hj
      have : (ls.take k)[j] = ls[j] := List.getElem_take
      rw [this]
      exact h4 j ls[j] (by omega) (by simp)
    · simp; omega

theorem parseLines_ok_iff {s : Str} {as : List α} :
    parseLines f s = .ok as ↔ ((lines s).filter nonBlank).map f = as.map .ok := lineLoop_ok_iff

/-- A section text does not panic if no line does. -/
theorem parseLines_no_panic (h : ∀ l, f l ≠ .panic) (s : Str) : parseLines f s ≠ .panic := by
  unfold parseLines
  rw [Ne, lineLoop_panic_iff]
  rintro ⟨_, l, _, _, _, _, hp⟩
  exact h l hp

theorem parseLines_panic {s : Str} (h : parseLines f s = .panic) : ∃ l ∈ lines s, f l = .panic := by
  unfold parseLines at h
  rw [lineLoop_panic_iff] at h
  obtain ⟨pre, l, post, h1, _, _, h2⟩ := h
  exact ⟨l, by rw [h1]; simp, h2⟩

/-- Every item of a parsed section comes from a line. -/
theorem parseLines_mem {s : Str} {as : List α} (h : parseLines f s = .ok as) :
    ∀ a ∈ as, ∃ l ∈ lines s, nonBlank l = true ∧ f l = .ok a := by
  rw [parseLines_ok_iff] at h
  intro a ha
  have : Res.ok a ∈ ((lines s).filter nonBlank).map f := by rw [h]; exact List.mem_map_of_mem ha
  obtain ⟨l, hl, he⟩ := List.mem_map.1 this
  rw [List.mem_filter] at hl
  exact ⟨l, hl.1, hl.2, he⟩

/-! ### Printing and reading back -/

/-- A line that can be printed on its own. -/
structure LineOK (l : Str) : Prop where
  lf : NoLF l
  cr : NoEndCR l
  nb : nonBlank l = true

theorem LineOK.ne_nil {l : Str} (h : LineOK l) : l ≠ [] := by
  rintro rfl; have := h.nb; revert this; decide

theorem lines_printed {ls : List Str} (h : ∀ l ∈ ls, LineOK l) :
    lines (join ['\n'] ls) = ls ∧ ls.filter nonBlank = ls := by
  constructor
  · refine lines_join (fun l hl => (h l hl).lf) (fun l hl => (h l hl).cr) ?_
    intro l hl
    exact (h l (List.mem_of_getLast? hl)).ne_nil
  · rw [List.filter_eq_self]; exact fun l hl => (h l hl).nb

/-- Round trip of a list of items, each printing to a line that reads as `g` of the item. -/
theorem parseLines_printed {β : Type} {shw : β → Option Str} {g : β → α} {l : List β}
    (h : ∀ b ∈ l, ∃ t, shw b = some t ∧ LineOK t ∧ f t = .ok (g b)) :
    ∃ s, printLinesP shw l = some s ∧ parseLines f s = .ok (l.map g) := by
  have : ∃ ts, l.mapM shw = some ts ∧ (∀ t ∈ ts, LineOK t) ∧ ts.map f = (l.map g).map .ok := by
    induction l with
    | nil => exact ⟨[], rfl, (by intro t ht; cases ht), rfl⟩
    | cons b l ih =>
      obtain ⟨ts, h1, h2, h3⟩ := ih fun x hx => h x (by simp [hx])
      obtain ⟨t, h4, h5, h6⟩ := h b (by simp)
      refine ⟨t :: ts, by simp [List.mapM_cons, h4, h1], ?_, by simp [h6, h3]⟩
      intro x hx
      rcases List.mem_cons.1 hx with rfl | hx
      · exact h5
      · exact h2 x hx
  obtain ⟨ts, h1, h2, h3⟩ := this
  refine ⟨join ['\n'] ts, by simp [printLinesP, h1], ?_⟩
  rw [parseLines_ok_iff, (lines_printed h2).1, (lines_printed h2).2, h3]

theorem printLinesP_some {β : Type} (shw : β → Str) (l : List β) :
    printLinesP (fun b => some (shw b)) l = some (printLines shw l) := by
  have : ∀ l : List β, l.mapM (fun b => some (shw b)) = some (l.map shw) := by
    intro l
    induction l with
    | nil => rfl
    | cons b l ih => simp [List.mapM_cons, ih]
  simp [printLinesP, printLines, this]

end

/-! ### Inserting blank lines -/

theorem lines_append (a b : Str) : lines (a ++ '\n' :: b) = lines (a ++ ['\n']) ++ lines b := by
  have sp : ∀ a : Str, splitNL (a ++ '\n' :: b) = (splitNL (a ++ ['\n'])).dropLast ++ splitNL b := by
    intro a
    induction a with
    | nil => simp [splitNL]
    | cons c a ih =>
      simp only [List.cons_append]
      rw [splitNL, splitNL]
      split
      · rw [ih, List.dropLast_cons_of_ne_nil (splitNL_ne_nil _), List.cons_append]
      · rw [ih]
        cases h1 : splitNL (a ++ ['\n']) with
        | nil => exact absurd h1 (splitNL_ne_nil _)
        | cons x r =>
          have hr : r ≠ [] := by
            rintro rfl
            have : (splitNL (a ++ ['\n'])).length ≥ 2 := by
              clear ih h1
              induction a with
              | nil => decide
              | cons d a ih =>
                simp only [List.cons_append]
                rw [splitNL]
                split
                · have := splitNL_ne_nil (a ++ ['\n'])
                  cases h : splitNL (a ++ ['\n']) with
                  | nil => exact absurd h this
                  | cons _ _ => simp
                · cases h : splitNL (a ++ ['\n']) with
                  | nil => rw [h] at ih; simp at ih
                  | cons _ _ => rw [h] at ih; simpa using ih
            rw [h1] at this; simp at this
          cases r with
          | nil => exact absurd rfl hr
          | cons y r => simp
  have last : ∀ a : Str, ∃ p, splitNL (a ++ ['\n']) = p ++ [[]] ∧ p ≠ [] := by
    intro a
    induction a with
    | nil => exact ⟨[[]], rfl, by simp⟩
    | cons c a ih =>
      obtain ⟨p, h, hp⟩ := ih
      simp only [List.cons_append]
      rw [splitNL, h]
      split
      · exact ⟨[] :: p, rfl, by simp⟩
      · cases p with
        | nil => exact absurd rfl hp
        | cons x p => exact ⟨(c :: x) :: p, rfl, by simp⟩
  obtain ⟨p, hp, _⟩ := last a
  unfold lines
  rw [sp a, hp]
  simp only [List.dropLast_concat]
  clear hp sp last
  induction p with
  | nil => simp [linesOf]
  | cons x p ih =>
    cases p with
    | nil =>
      cases hb : splitNL b with
      | nil => exact absurd hb (splitNL_ne_nil b)
      | cons y r => simp [linesOf]
    | cons y p =>
      simp only [List.cons_append, linesOf] at ih ⊢
      rw [ih (by simp)]

theorem isWs_stripCR {l : Str} (h : AllC isWs l) : AllC isWs (stripCR l) := by
  unfold stripCR
  split
  · exact fun c hc => h c ((List.dropLast_sublist _).mem hc)
  · exact h

theorem splitNL_allC {f : Char → Bool} {s : Str} (h : AllC f s) : ∀ l ∈ splitNL s, AllC f l := by
  induction s with
  | nil => intro l hl; simp [splitNL] at hl; subst hl; exact .nil
  | cons c s ih =>
    obtain ⟨h1, h2⟩ := h.of_cons
    rw [splitNL]
    split
    · intro l hl
      rcases List.mem_cons.1 hl with rfl | hl
      · exact .nil
      · exact ih h2 l hl
    · cases hs : splitNL s with
      | nil => exact absurd hs (splitNL_ne_nil s)
      | cons x r =>
        rw [hs] at ih
        intro l hl
        rcases List.mem_cons.1 hl with rfl | hl
        · exact .cons h1 (ih h2 x (by simp))
        · exact ih h2 l (by simp [hl])

theorem linesOf_allC {f : Char → Bool} {ls : List Str} (h : ∀ l ∈ ls, AllC f l) :
    ∀ l ∈ linesOf ls, AllC f l := by
  induction ls with
  | nil => intro l hl; cases hl
  | cons x r ih =>
    cases r with
    | nil =>
      intro l hl
      rw [linesOf] at hl
      split at hl
      · cases hl
      · exact h l (by simpa using hl)
    | cons y r =>
      intro l hl
      rw [linesOf] at hl
      rcases List.mem_cons.1 hl with rfl | hl
      · unfold stripCR
        split
        · exact fun c hc => h x (by simp) c ((List.dropLast_sublist _).mem hc)
        · exact h x (by simp)
      · exact ih (fun l' hl' => h l' (by simp [hl'])) l hl

theorem lines_allC {f : Char → Bool} {s : Str} (h : AllC f s) : ∀ l ∈ lines s, AllC f l :=
  linesOf_allC (splitNL_allC h)

/-- The lines that count, of a blank text: none. -/
theorem filter_lines_blank {w : Str} (h : AllC isWs w) : (lines w).filter nonBlank = [] := by
  rw [List.filter_eq_nil_iff]
  intro l hl
  rw [nonBlank_iff, Ne, Classical.not_not, trim_eq_nil]
  exact lines_allC h l hl

/-- Lines never contain a line feed. -/
theorem lines_noLF (s : Str) : ∀ l ∈ lines s, NoLF l := by
  have : ∀ s : Str, ∀ l ∈ splitNL s, NoLF l := by
    intro s
    induction s with
    | nil => intro l hl; simp [splitNL] at hl; subst hl; exact .nil
    | cons c s ih =>
      rw [splitNL]
      split
      · intro l hl
        rcases List.mem_cons.1 hl with rfl | hl
        · exact .nil
        · exact ih l hl
      · rename_i hc
        cases hs : splitNL s with
        | nil => exact absurd hs (splitNL_ne_nil s)
        | cons x r =>
          rw [hs] at ih
          intro l hl
          rcases List.mem_cons.1 hl with rfl | hl
          · exact .cons (by simpa using hc) (ih x (by simp))
          · exact ih l (by simp [hl])
  exact linesOf_allC (this s)

/-! ### Only the lines that count matter -/

/-- Outcome of the loop without line indices. -/
def seqAll {E α : Type} (f : Str → Res E α) : List Str → Res E (List α)
  | [] => .ok []
  | l :: ls => f l >>= fun a => seqAll f ls >>= fun as => .ok (a :: as)

theorem lineLoop_seqAll {E α : Type} (f : Str → Res E α) (n : Nat) (ls : List Str) :
    (lineLoop f n ls).mapErr LErr.error = seqAll f (ls.filter nonBlank) := by
  induction ls generalizing n with
  | nil => rfl
  | cons l ls ih =>
    cases hb : nonBlank l with
    | false => rw [lineLoop_blank hb, ih]; simp [hb]
    | true =>
      rw [lineLoop, if_neg (nonBlank_iff.1 hb)]
      simp only [List.filter_cons, hb, if_true, seqAll]
      cases f l with
      | err e => rfl
      | panic => rfl
      | ok a =>
        rw [← ih (n + 1)]
        cases lineLoop f (n + 1) ls <;> rfl

/-- Texts with the same lines that count have the same outcome, apart from line indices. -/
theorem parseLines_congr {E α : Type} (f : Str → Res E α) {s t : Str}
    (h : (lines s).filter nonBlank = (lines t).filter nonBlank) :
    (parseLines f s).mapErr LErr.error = (parseLines f t).mapErr LErr.error := by
  unfold parseLines
  rw [lineLoop_seqAll, lineLoop_seqAll, h]

theorem splitNL_snoc (a : Str) : splitNL (a ++ ['\n']) = splitNL a ++ [[]] := by
  induction a with
  | nil => rfl
  | cons c a ih =>
    simp only [List.cons_append]
    rw [splitNL, splitNL]
    split
    · rw [ih, List.cons_append]
    · rw [ih]
      cases h : splitNL a with
      | nil => exact absurd h (splitNL_ne_nil a)
      | cons x r => simp

theorem splitNL_last {a : Str} (h : NoEndCR a) : ∀ l, (splitNL a).getLast? = some l → NoEndCR l := by
  induction a with
  | nil => intro l hl; simp [splitNL] at hl; subst hl; simp [NoEndCR]
  | cons c a ih =>
    have ha : NoEndCR a := by
      intro h'
      apply h
      cases a with
      | nil => simp at h'
      | cons d a => simpa [List.getLast?_cons_cons] using h'
    rw [splitNL]
    split
    · intro l hl
      cases hs : splitNL a with
      | nil => exact absurd hs (splitNL_ne_nil a)
      | cons x r => rw [hs, List.getLast?_cons_cons] at hl; exact ih ha l (by rw [hs]; exact hl)
    · cases hs : splitNL a with
      | nil => exact absurd hs (splitNL_ne_nil a)
      | cons x r =>
        intro l hl
        cases r with
        | nil =>
          simp at hl
          subst hl
          -- the whole text is one line
          have : c :: x = c :: a := by
            have hj : ∀ a x : Str, splitNL a = [x] → a = x := by
              intro a
              induction a with
              | nil => intro x h; simp [splitNL] at h; exact h.symm
              | cons d a ih =>
                intro x h
                rw [splitNL] at h
                split at h
                · cases hs : splitNL a with
                  | nil => exact absurd hs (splitNL_ne_nil a)
                  | cons y r => rw [hs] at h; simp at h
                · cases hs : splitNL a with
                  | nil => exact absurd hs (splitNL_ne_nil a)
                  | cons y r =>
                    rw [hs] at h
                    simp at h
                    obtain ⟨rfl, rfl⟩ := h
                    rw [ih y hs]
            rw [hj a x hs]
          rw [this]; exact h
        | cons y r =>
          rw [List.getLast?_cons_cons] at hl
          exact ih ha l (by rw [hs, List.getLast?_cons_cons]; exact hl)

/-- A final line feed does not matter. -/
theorem filter_lines_snoc {a : Str} (h : NoEndCR a) :
    (lines (a ++ ['\n'])).filter nonBlank = (lines a).filter nonBlank := by
  unfold lines
  rw [splitNL_snoc]
  have hl := splitNL_last h
  revert hl
  generalize splitNL a = ls
  induction ls with
  | nil => intro _; rfl
  | cons x r ih =>
    intro hl
    cases r with
    | nil =>
      have hx := stripCR_id (hl x rfl)
      simp only [List.cons_append, List.nil_append, linesOf, hx, if_true]
      split
      · rename_i h; subst h; rfl
      · rfl
    | cons y r =>
      have := ih (by intro l h'; exact hl l (by rw [List.getLast?_cons_cons]; exact h'))
      simp only [List.cons_append, linesOf, List.filter_cons] at this ⊢
      rw [this]

theorem filter_lines_mid (a b : Str) {w : Str} (h : AllC isWs w) :
    (lines (a ++ '\n' :: (w ++ '\n' :: b))).filter nonBlank = (lines (a ++ '\n' :: b)).filter nonBlank := by
  have hw : AllC isWs (w ++ ['\n']) := h.append (.cons (by decide) .nil)
  rw [lines_append a, lines_append w, lines_append a b, List.filter_append, List.filter_append,
    List.filter_append, filter_lines_blank hw, List.nil_append]

theorem filter_lines_start (b : Str) {w : Str} (h : AllC isWs w) :
    (lines (w ++ '\n' :: b)).filter nonBlank = (lines b).filter nonBlank := by
  have hw : AllC isWs (w ++ ['\n']) := h.append (.cons (by decide) .nil)
  rw [lines_append w, List.filter_append, filter_lines_blank hw, List.nil_append]

theorem filter_lines_end {a w : Str} (ha : NoEndCR a) (h : AllC isWs w) :
    (lines (a ++ '\n' :: w)).filter nonBlank = (lines a).filter nonBlank := by
  rw [lines_append a, List.filter_append, filter_lines_blank h, List.append_nil, filter_lines_snoc ha]

theorem BlankInsert.filter {s t : Str} (h : BlankInsert s t) :
    (lines t).filter nonBlank = (lines s).filter nonBlank := by
  cases h with
  | mid a b w h => exact filter_lines_mid a b h
  | first _ w h => exact filter_lines_start _ h
  | last _ w ha h => exact filter_lines_end ha h

theorem BlankEq.filter {s t : Str} (h : BlankEq s t) : (lines t).filter nonBlank = (lines s).filter nonBlank := by
  induction h with
  | refl => rfl
  | ins _ h ih => rw [h.filter, ih]
  | del _ h ih => rw [← h.filter, ih]

theorem blank_iff {l : Str} : Blank l ↔ nonBlank l = false := by
  rw [nonBlank_false, trim_eq_nil]; rfl

theorem parseLines_firstBad {E α : Type} {f : Str → Res E α} {s : Str} {k : Nat} {e : E} :
    parseLines f s = .err ⟨k, e⟩ ↔ FirstBad f s k e := by
  rw [parseLines_err_iff]
  unfold FirstBad
  simp only [blank_iff, Bool.not_eq_false]
  refine and_congr Iff.rfl ⟨fun h j l h1 h2 => ?_, fun h j l h1 h2 h3 => ?_⟩
  · cases hb : nonBlank l with
    | false => exact .inl rfl
    | true => exact .inr (h j l h1 h2 hb)
  · rcases h j l h1 h2 with h | h
    · rw [h3] at h; cases h
    · exact h

end Osu
