/-
When a list of items, written one to a line, is read back unchanged.
-/
import Verif.Proof.Lines

namespace Osu

theorem nonBlank_of_comma {s : Str} (h : ',' ∈ s) : nonBlank s = true := by
  rw [nonBlank_iff, Ne, trim_eq_nil]
  intro hb
  have := hb _ h
  revert this; decide

theorem comma_stripCR {s : Str} (h : ',' ∈ s) : ',' ∈ stripCR s := by
  unfold stripCR
  split
  · rename_i hl
    have hne : s ≠ [] := by rintro rfl; cases h
    rw [List.getLast?_eq_some_getLast hne] at hl
    have hd := List.dropLast_concat_getLast hne
    rw [Option.some.inj hl] at hd
    rw [← hd] at h
    rcases List.mem_append.1 h with h | h
    · exact h
    · simp at h
  · exact h

section
variable {E α : Type} {f : Str → Res E α} {shw : α → Option Str}

theorem linesOf_exact (hB : ∀ {t s}, shw t = some s → ',' ∈ s)
    (hC : ∀ {t s}, shw t = some s → f (stripCR s) = .ok t → NoEndCR s) {l : List α} {ts : List Str} (h : l.mapM shw = some ts) :
    ((linesOf ts).filter nonBlank).map f = l.map .ok ↔
      (∀ t ∈ l, ∀ s, shw t = some s → f s = .ok t) ∧ ∀ t ∈ l.dropLast, ∀ s, shw t = some s → NoEndCR s := by
  induction l generalizing ts with
  | nil =>
    cases h
    simp [linesOf]
  | cons t l ih =>
    rw [List.mapM_cons] at h
    cases hs : shw t with
    | none => simp [hs] at h
    | some s =>
      cases hm : l.mapM shw with
      | none => simp [hs, hm] at h
      | some ts' =>
        simp only [hs, hm, Option.pure_def, Option.bind_eq_bind, Option.bind_some, Option.some.injEq] at h
        subst h
        have hb := hB hs
        cases l with
        | nil =>
          cases hm
          have hne : s ≠ [] := by rintro rfl; cases hb
          simp [linesOf, hne, nonBlank_of_comma hb, hs]
        | cons t' l =>
          cases ts' with
          | nil =>
            rw [List.mapM_cons] at hm
            cases h1 : shw t' with
            | none => simp [h1] at hm
            | some s' =>
              cases h2 : l.mapM shw <;> simp [h1, h2] at hm
          | cons s' ts' =>
            have ih := ih hm
            simp only [linesOf, List.filter_cons, nonBlank_of_comma (comma_stripCR hb), if_true, List.map_cons, List.cons.injEq]
            rw [List.map_cons] at ih
            rw [ih]
            constructor
            · rintro ⟨h1, h2, h3⟩
              have hcr := hC hs h1
              rw [stripCR_id hcr] at h1
              refine ⟨fun x hx y hy => ?_, fun x hx y hy => ?_⟩
              · rcases List.mem_cons.1 hx with rfl | hx
                · rw [hs] at hy; cases hy; exact h1
                · exact h2 x hx y hy
              · simp only [List.dropLast_cons₂] at hx
                rcases List.mem_cons.1 hx with rfl | hx
                · rw [hs] at hy; cases hy; exact hcr
                · exact h3 x hx y hy
            · rintro ⟨h1, h2⟩
              have hcr := h2 t (by simp) s hs
              refine ⟨by rw [stripCR_id hcr]; exact h1 t (by simp) s hs, fun x hx y hy => h1 x (by simp only [List.mem_cons] at hx ⊢; exact .inr hx) y hy,
                fun x hx y hy => h2 x (by simp only [List.dropLast_cons₂, List.mem_cons]; exact .inr hx) y hy⟩

/-- A list is read back unchanged from what is written exactly if each item is, none is written with a line feed and none
but the last with a carriage return at the end. -/
theorem section_exact (hA : ∀ {x t s}, NoLF x → f x = .ok t → shw t = some s → NoLF s) (hB : ∀ {t s}, shw t = some s → ',' ∈ s)
    (hC : ∀ {t s}, shw t = some s → f (stripCR s) = .ok t → NoEndCR s) {l : List α} :
    (∃ s, printLinesP shw l = some s ∧ parseLines f s = .ok l) ↔
      (∀ t ∈ l, ∃ s, shw t = some s ∧ NoLF s ∧ f s = .ok t) ∧ ∀ t ∈ l.dropLast, ∀ s, shw t = some s → NoEndCR s := by
  have hmem : ∀ {l : List α} {ts}, l.mapM shw = some ts → (∀ t ∈ l, ∃ s ∈ ts, shw t = some s) ∧ (∀ s ∈ ts, ∃ t ∈ l, shw t = some s) ∧
      (ts = [] ↔ l = []) := by
    intro l
    induction l with
    | nil => intro ts h; cases h; simp
    | cons t l ih =>
      intro ts h
      rw [List.mapM_cons] at h
      cases hs : shw t with
      | none => simp [hs] at h
      | some s =>
        cases hm : l.mapM shw with
        | none => simp [hs, hm] at h
        | some ts' =>
          simp only [hs, hm, Option.pure_def, Option.bind_eq_bind, Option.bind_some, Option.some.injEq] at h
          subst h
          obtain ⟨h1, h2, -⟩ := ih hm
          refine ⟨fun x hx => ?_, fun x hx => ?_, by simp⟩
          · rcases List.mem_cons.1 hx with rfl | hx
            · exact ⟨s, by simp, hs⟩
            · obtain ⟨y, h3, h4⟩ := h1 x hx
              exact ⟨y, by simp [h3], h4⟩
          · rcases List.mem_cons.1 hx with rfl | hx
            · exact ⟨t, by simp, hs⟩
            · obtain ⟨y, h3, h4⟩ := h2 x hx
              exact ⟨y, by simp [h3], h4⟩
  have hlines : ∀ {ts : List Str}, (∀ s ∈ ts, NoLF s) → lines (join ['\n'] ts) = linesOf ts := by
    intro ts h
    cases ts with
    | nil => rfl
    | cons x r => unfold lines; rw [splitNL_join (by simp) h]
  constructor
  · rintro ⟨s, h1, h2⟩
    obtain ⟨ts, hm, rfl⟩ := Option.map_eq_some_iff.1 h1
    obtain ⟨m1, m2, -⟩ := hmem hm
    have hlf : ∀ s ∈ ts, NoLF s := by
      intro s hs
      obtain ⟨t, ht, hts⟩ := m2 s hs
      obtain ⟨x, hx, -, hf⟩ := parseLines_mem h2 t ht
      exact hA (lines_noLF _ x hx) hf hts
    rw [parseLines_ok_iff, hlines hlf, linesOf_exact hB hC hm] at h2
    refine ⟨fun t ht => ?_, h2.2⟩
    obtain ⟨s, hs, hts⟩ := m1 t ht
    exact ⟨s, hts, hlf s hs, h2.1 t ht s hts⟩
  · rintro ⟨h1, h2⟩
    obtain ⟨ts, hm⟩ : ∃ ts, l.mapM shw = some ts := by
      clear h2
      induction l with
      | nil => exact ⟨[], rfl⟩
      | cons t l ih =>
        obtain ⟨ts, hm⟩ := ih fun x hx => h1 x (by simp [hx])
        obtain ⟨s, hs, -⟩ := h1 t (by simp)
        exact ⟨s :: ts, by simp [List.mapM_cons, hs, hm]⟩
    obtain ⟨m1, m2, -⟩ := hmem hm
    refine ⟨join ['\n'] ts, by simp [printLinesP, hm], ?_⟩
    rw [parseLines_ok_iff, hlines ?_, linesOf_exact hB hC hm]
    · refine ⟨fun t ht s hs => ?_, h2⟩
      obtain ⟨s', hs', -, hf⟩ := h1 t ht
      rw [hs] at hs'; cases hs'; exact hf
    · intro s hs
      obtain ⟨t, ht, hts⟩ := m2 s hs
      obtain ⟨s', hs', hlf, -⟩ := h1 t ht
      rw [hts] at hs'; cases hs'; exact hlf

end
end Osu
