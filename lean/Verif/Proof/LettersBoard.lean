/-
The characters of the text that is written for a storyboard.
-/
import Verif.Proof.Letters
import Verif.Proof.SavedBoard

namespace Osu
open SB Ev

section
variable {D : Type} [DecLib D] [UniLib] {s : Str}

/-- The characters that may be written, as a test. -/
def mayWrite (s : Str) (c : Char) : Bool := decide (c ∈ s ∨ Printable c ∨ c = '\n')

omit [DecLib D] [UniLib] in
theorem mayWrite_iff {s t : Str} : AllC (mayWrite s) t ↔ NothingForeign s t := by
  simp only [AllC, NothingForeign, mayWrite, decide_eq_true_eq]

omit [DecLib D] [UniLib] in
theorem join_holds {sep : Str} {ls : List Str} {l : Str} (h : l ∈ ls) : ∀ c ∈ l, c ∈ join sep ls := by
  induction ls with
  | nil => cases h
  | cons a ls ih =>
    intro c hc
    cases ls with
    | nil => cases List.mem_singleton.1 h; exact hc
    | cons b ls =>
      rw [join_cons_cons]
      rcases List.mem_cons.1 h with rfl | h
      · simp [hc]
      · have := ih h c hc
        simp [this]

theorem put_cmdVars {vars : List Variable} (hv : ∀ x ∈ vars, NothingForeign s x.value) (l : Str) (x : Nat × Command D) (hl : NothingForeign s l)
    (h : CmdLineVars vars l x) : ∀ p ∈ commandToks x.2, Fits s p := by
  obtain ⟨-, -, b, t, -, hr, hc⟩ := h
  rw [resolved_iff] at hr
  refine put_command hc (nf_pieces (nf_sub (s := s) (t := t) ?_ fun _ hc => List.dropWhile_subset _ hc))
  rw [hr]
  exact mayWrite_iff.1 (substVars_chars (fun x hx => mayWrite_iff.2 (hv x hx)) (mayWrite_iff.2 hl))

/-- The text of an event, whatever the variables are. -/
theorem nf_event {v : Nat} {vars : List Variable} {e : Event D} {t : Str} (hw : EvWritableC true v e) (hf : ∀ col ∈ eventLines v e, ∀ p ∈ col, Fits s p)
    (hv : ∀ x ∈ vars, NothingForeign s x.name) (ht : Event.shw v vars e = some (some t)) : NothingForeign s t := by
  have plain : ∀ {u : Str}, Event.shw v [] e = some (some u) → NothingForeign s u := fun hu =>
    spelt_fits ((C81_event v e _).1 hu).2 (put_glue (.inr rfl) hf)
  obtain ⟨hh, -⟩ := hw
  by_cases hcom : ∃ s, e = .comment s
  · obtain ⟨s, rfl⟩ := hcom
    cases ht
    exact plain rfl
  · obtain ⟨h, -, hshw⟩ := head_print hh (fun s hs => hcom ⟨s, hs⟩)
    have he : ∀ vars, Event.shw v vars e = some (some (join ['\n'] (evLines vars h e))) := by
      intro vars
      rw [hshw, withCmds, cmdsToStr, printCmds_eq]
      simp only [Option.map_some, evLines]
      congr 2
      cases hl : Ev.listLines (cmdVars vars e) (listing 1 (cmdsOf e)) with
      | nil => simp [join]
      | cons l ls =>
        rw [if_neg, join_cons_cons]
        · simp
        · have : l ≠ [] := by
            have hm : l ∈ Ev.listLines (cmdVars vars e) (listing 1 (cmdsOf e)) := by rw [hl]; simp
            obtain ⟨x, hx, rfl⟩ := List.mem_map.1 hm
            intro h0; have := cmdLine_nb (cmdVars vars e) x.1 x.2; rw [h0] at this; cases this
          cases l with
          | nil => exact absurd rfl this
          | cons c l => cases ls <;> simp [join]
    have base : ∀ l ∈ evLines [] h e, NothingForeign s l := fun l hl => nf_sub (plain (he [])) (join_holds hl)
    rw [he] at ht
    cases ht
    refine nf_join (fun c hc => .inr (.inr (List.mem_singleton.1 hc))) fun l hl => ?_
    rcases List.mem_cons.1 hl with rfl | hl
    · exact base _ (.head _)
    · obtain ⟨x, hx, rfl⟩ := List.mem_map.1 hl
      have hb := base _ (List.mem_cons_of_mem _ (List.mem_map_of_mem (f := fun x => cmdLine (cmdVars [] e) x.1 x.2) hx))
      have hn : cmdVars [] e = [] := by cases e <;> rfl
      simp only [hn, cmdLine, Command.toStrVars, Command.variableReplace] at hb
      obtain ⟨h1, h2⟩ := nf_append.1 hb
      obtain ⟨h3, h4⟩ := nf_append.1 h2
      refine nf_append.2 ⟨h1, nf_append.2 ⟨h3, mayWrite_iff.1 (variableReplace_chars (mayWrite_iff.2 (nf_plain (t := ['$']) (by decide)) '$' (.head _)) ?_ (mayWrite_iff.2 h4))⟩⟩
      intro y hy
      have hy' : y ∈ vars := by cases e <;> first | exact hy | cases hy
      exact mayWrite_iff.2 (hv y hy')

theorem nf_eventsVars {v : Nat} {vars : List Variable} {t : Str} {es : List (Event D)} (hv : ∀ x ∈ vars, NothingForeign s x.name)
    (hw : ∀ e ∈ es, writtenIn v e = true → EvWritableC true v e) (hf : ∀ e ∈ es, ∀ col ∈ eventLines v e, ∀ p ∈ col, Fits s p)
    (ht : Events.shwVars v vars es = some t) : NothingForeign s t := by
  rw [← shwVars_filter] at ht
  unfold Events.shwVars at ht
  obtain ⟨ts, h1, rfl⟩ := Option.map_eq_some_iff.1 ht
  refine nf_join (fun c hc => .inr (.inr (List.mem_singleton.1 hc))) fun l hl => ?_
  have hl : some l ∈ ts := by simpa using hl
  obtain ⟨e, he, h2⟩ := mapM_mem _ _ _ h1 _ hl
  obtain ⟨h3, h4⟩ := List.mem_filter.1 he
  exact nf_event (hw e h3 h4) (hf e h3) hv h2

/-- What is saved of a loaded storyboard has no foreign characters. -/
theorem nf_board {v : Nat} {x t : Str} {o : Osb D} (h : Osb.parse v x = .ok (some o)) (ht : Osb.shw v o = some (some t)) : NothingForeign x t := by
  obtain ⟨-, hw⟩ := osb_read_writable (cr := true) nofun h
  obtain ⟨hv, pre, xs, rest, ⟨ls, k1, -, -, k4⟩, -, ho⟩ := (C55_exact v x o).1 h
  have body : ∀ y ∈ xs, y.name = c!"Variables" ∨ y.name = c!"Events" → NothingForeign x y.body := by
    intro y hy _ c hc
    have g1 : y.body ≠ [] := by intro e; rw [e] at hc; cases hc
    obtain ⟨⟨a, b, e1, -⟩, -⟩ := sections_bodies k4 y hy g1
    have hj : c ∈ join ['\n'] ls := by rw [e1]; simp [hc]
    rcases mem_join hj with hj | ⟨l, hl, hj⟩
    · exact .inr (.inr (List.mem_singleton.1 hj))
    · obtain ⟨p, q, e2, -⟩ := lines_mem_at (s := x) (l := l) (by rw [k1]; simp [hl])
      left; rw [e2]; simp [hj]
  have varl : ∀ {b : Str} {vs : List Variable}, NothingForeign x b → VarsRead (contentLines (lines b)) vs →
      ∀ y ∈ vs, NothingForeign x y.name ∧ NothingForeign x y.value := by
    intro b vs hb hr
    have hl : ∀ l ∈ contentLines (lines b), NothingForeign x l := fun l hl => nf_lines hb l (List.mem_filter.1 hl).1
    generalize contentLines (lines b) = L at hr hl
    induction hr with
    | nil => nofun
    | @cons l ls v vs h _ ih =>
      intro y hy
      rcases List.mem_cons.1 hy with rfl | hy
      · have := hl l (.head _)
        exact ⟨nf_sub this fun c hc => by rw [h.1]; simp [hc], nf_sub this fun c hc => by rw [h.1]; simp [hc]⟩
      · exact ih (fun l hm => hl l (.tail _ hm)) y hy
  have evs : ∀ {b : Str} {vs : List Variable} {es : List (Event D)}, NothingForeign x b → (∀ y ∈ vs, NothingForeign x y.value) →
      Events.parseVars v vs b = .ok es → ∀ e ∈ es, ∀ col ∈ eventLines v e, ∀ p ∈ col, Fits x p := by
    intro b vs es hb hv h
    exact put_section (put_cmdVars hv) (events_vars_reads.1 h) fun l hl => nf_lines hb l (List.mem_filter.1 hl).1
  clear h
  have key : (∀ vs, o.variables = some vs → ∀ y ∈ vs, NothingForeign x y.name ∧ NothingForeign x y.value) ∧
      ∀ es, o.events = some es → ∀ e ∈ es, ∀ col ∈ eventLines v e, ∀ p ∈ col, Fits x p := by
    cases ho with
    | none => exact ⟨nofun, nofun⟩
    | vars hx h => exact ⟨fun vs e => by cases e; exact varl (body _ (by simp) (.inl hx)) h, nofun⟩
    | events hy h => exact ⟨nofun, fun es e => by cases e; exact evs (vs := []) (body _ (by simp) (.inr hy)) nofun h⟩
    | varsEvents hx hy h h' =>
      have hvs := varl (body _ (by simp) (.inl hx)) h
      exact ⟨fun vs e => by cases e; exact hvs, fun es e => by cases e; exact evs (body _ (by simp) (.inr hy)) (fun y hy => (hvs y hy).2) h'⟩
    | eventsVars hy hx h' h =>
      exact ⟨fun vs e => by cases e; exact varl (body _ (by simp) (.inl hx)) h,
        fun es e => by cases e; exact evs (vs := []) (body _ (by simp) (.inr hy)) nofun h'⟩
  have lf : NothingForeign x ['\n', '\n'] := fun c hc => .inr (.inr (by simpa using hc))
  have hd : ∀ {a b : Str}, a.all (fun c => decide (Printable c)) = true → NothingForeign x b → NothingForeign x ((a ++ ['\n']) ++ b) := fun ha hb =>
    nf_append.2 ⟨nf_append.2 ⟨nf_plain ha, fun c hc => .inr (.inr (List.mem_singleton.1 hc))⟩, hb⟩
  have hvar : ∀ l ∈ (o.variables.toList).map (fun vs => c!"[Variables]\n" ++ join ['\n'] (vs.map Variable.shw)), NothingForeign x l := by
    intro l hl
    obtain ⟨vs, hvs, rfl⟩ := List.mem_map.1 hl
    have hvs := key.1 vs (by simpa using hvs)
    refine hd (a := c!"[Variables]") (by decide) (nf_join (fun c hc => .inr (.inr (List.mem_singleton.1 hc))) fun l hl => ?_)
    obtain ⟨y, hy, rfl⟩ := List.mem_map.1 hl
    exact nf_append.2 ⟨nf_append.2 ⟨nf_append.2 ⟨nf_plain (by decide), (hvs y hy).1⟩, nf_plain (by decide)⟩, (hvs y hy).2⟩
  rcases osb_shw_some hv ht with ⟨he, rfl⟩ | ⟨es, u, he, hu, rfl⟩
  · exact nf_join lf hvar
  · refine nf_join lf fun l hl => ?_
    rcases List.mem_append.1 hl with hl | hl
    · exact hvar l hl
    · cases List.mem_singleton.1 hl
      refine hd (a := c!"[Events]") (by decide) (nf_eventsVars ?_ (hw es he) (key.2 es he) hu)
      cases hvs : o.variables with
      | none => nofun
      | some vs => exact fun y hy => (key.1 vs hvs y hy).1

end
end Osu
