/-
How many lines the text of a storyboard has.
-/
import Verif.Proof.SavedLines
import Verif.Props.OsbExact

namespace Osu
open SB Ev

theorem lineCount_sum (ts : List Str) : lineCount (join ['\n'] ts) = (ts.map lineCount).sum := by
  induction ts with
  | nil => rfl
  | cons t ts ih =>
    cases ts with
    | nil => simp [join]
    | cons u us =>
      rw [join_cons_cons, List.append_assoc, List.singleton_append, lineCount_break, ih]; rfl

theorem lineCount_two (a b : Str) : lineCount (a ++ '\n' :: '\n' :: b) = lineCount a + lineCount b := by
  rw [lineCount_break]
  have := lineCount_break [] b
  rw [List.nil_append, lineCount_nil] at this
  omega

section
variable {D : Type} [DecLib D] [UniLib]

/-- The text of an event has one line for the event and one for each command, whatever the variables are. -/
theorem event_saved {v : Nat} {vars : List Variable} {e : Event D} (hw : EvWritableC true v e) (hv : ∀ x ∈ vars, VarWritableC true x) :
    ∃ t, Event.shw v vars e = some (some t) ∧ lineCount t = 1 + (listing 1 (cmdsOf e)).length := by
  obtain ⟨hh, hc⟩ := hw
  by_cases hcom : ∃ s, e = .comment s
  · obtain ⟨s, rfl⟩ := hcom
    have hs : AllC (lastC true) s := hh
    refine ⟨_, rfl, ?_⟩
    have := lineCount_join (ls := [c!"//" ++ s]) fun l hl => by
      simp only [List.mem_singleton] at hl
      subst hl
      refine ⟨lastC_noLF (AllC.append (wide_last (by decide)) hs), ?_⟩
      rw [nonBlank_iff, Ne, trim_eq_nil]; intro h; exact absurd (h '/' (by simp)) (by decide)
    exact this
  · obtain ⟨h, ht, hshw⟩ := head_print hh (fun s hs => hcom ⟨s, hs⟩)
    have hl : ∀ l ∈ evLines vars h e, NoLF l ∧ nonBlank l = true := by
      intro l hl
      rcases List.mem_cons.1 hl with rfl | hl
      · exact ⟨lastC_noLF ht.chars, headText_nb ht⟩
      · obtain ⟨x, hx, rfl⟩ := List.mem_map.1 hl
        refine ⟨lastC_noLF (cr := true) (cmdLine_chars (variableReplace_chars (lastC_of (by decide)) ?_ (body_chars (hc x hx)))), cmdLine_nb _ _ _⟩
        intro y hy c hcc
        have hy' : y ∈ vars := by
          unfold cmdVars at hy
          split at hy
          · cases hy
          · cases hy
          · exact hy
        exact lastC_ok ⟨((hv y hy').name c hcc).2.1, nofun⟩
    have he : Event.shw v vars e = some (some (join ['\n'] (evLines vars h e))) := by
      rw [hshw, withCmds, cmdsToStr, printCmds_eq]
      simp only [Option.map_some, evLines]
      congr 2
      cases hl : Ev.listLines (cmdVars vars e) (listing 1 (cmdsOf e)) with
      | nil => simp [join]
      | cons l ls =>
        rw [if_neg, join_cons_cons]
        · simp
        · have : l ≠ [] := by
            have hm : l ∈ Ev.listLines (cmdVars vars e) (listing 1 (cmdsOf e)) := by rw [hl]; simp
            obtain ⟨x, hx, rfl⟩ := List.mem_map.1 hm
            intro h0; have := cmdLine_nb (cmdVars vars e) x.1 x.2; rw [h0] at this; cases this
          cases l with
          | nil => exact absurd rfl this
          | cons c l => cases ls <;> simp [join]
    refine ⟨_, he, ?_⟩
    rw [lineCount_join hl, evLines, Ev.listLines, List.length_cons, List.length_map, Nat.add_comm]

theorem events_board {v : Nat} {vars : List Variable} {t : Str} {es : List (Event D)} (hv : ∀ x ∈ vars, VarWritableC true x)
    (h : ∀ e ∈ es, writtenIn v e = true → EvWritableC true v e) (ht : Events.shwVars v vars es = some t) :
    lineCount t = eventEntries (es.filter (writtenIn v)) := by
  rw [← shwVars_filter] at ht
  have hw : ∀ e ∈ es.filter (writtenIn v), EvWritableC true v e := fun e he => h e (List.mem_filter.1 he).1 (List.mem_filter.1 he).2
  generalize es.filter (writtenIn v) = l at hw ht
  have key : ∃ ts : List Str, l.mapM (Event.shw v vars) = some (ts.map some) ∧ (ts.map lineCount).sum = eventEntries l := by
    clear ht
    induction l with
    | nil => exact ⟨[], rfl, rfl⟩
    | cons e l ih =>
      obtain ⟨ts, h1, h2⟩ := ih fun x hx => hw x (by simp [hx])
      obtain ⟨t, h3, h4⟩ := event_saved (hw e (by simp)) hv
      refine ⟨t :: ts, by simp [List.mapM_cons, h3, h1], ?_⟩
      rw [List.map_cons, List.sum_cons, h2, h4]
      unfold eventEntries
      rw [List.map_cons, List.sum_cons]
      rfl
  obtain ⟨ts, h1, h2⟩ := key
  rw [Events.shwVars, h1] at ht
  cases ht
  show lineCount (join ['\n'] ((ts.map some).filterMap id)) = _
  rw [show (ts.map some).filterMap id = ts by simp [List.filterMap_map], lineCount_sum, h2]

theorem vars_board {vs : List Variable} (hv : ∀ x ∈ vs, VarWritableC true x) :
    lineCount (c!"[Variables]\n" ++ join ['\n'] (vs.map Variable.shw)) = 1 + vs.length := by
  have : lineCount (c!"[Variables]" ++ '\n' :: join ['\n'] (vs.map Variable.shw)) = 1 + vs.length := by
    rw [lineCount_break, lineCount_join, List.length_map]
    · congr 1
    · intro l hl
      obtain ⟨x, hx, rfl⟩ := List.mem_map.1 hl
      refine ⟨noC_mem.2 fun hm => ?_, ?_⟩
      · simp only [Variable.shw, List.mem_append, List.mem_singleton] at hm
        rcases hm with ((hm | hm) | hm) | hm
        · cases hm
        · exact ((hv x hx).name _ hm).2.1 rfl
        · cases hm
        · exact ((hv x hx).value _ hm).1 rfl
      · rw [nonBlank_iff, Ne, trim_eq_nil]; intro h; exact absurd (h '$' (by simp [Variable.shw])) (by decide)
  exact this

end
end Osu
