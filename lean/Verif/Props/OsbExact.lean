/-
C38 and C39, exactly: which events with variables, and which storyboards, are read back unchanged from their text.
-/
import Verif.Props.Osb
import Verif.Props.EventsExact
import Verif.Proof.FileExact
import Verif.Props.AppendOsb

namespace Osu
open SB Ev Parser
variable {D : Type} [DecLib D]

/-! ## The text of events with variables -/

/-- The first line of an event is read as the event without its commands, and is not indented. -/
def HeadOut (v : Nat) (e : Event D) (h : Str) : Prop := HeadReads v h ((quoted e).setCommands []) ∧ indentOf h = 0

theorem headReads_indent {v : Nat} {h : Str} {e : Event D} (hh : HeadReads v h e) : indentOf h = 0 := by
  cases hh with
  | comment s => rfl
  | event hr =>
    obtain ⟨c, t, rfl, -, hc, -⟩ := evReads_first hr
    have : (c == ' ' || c == '_') = false := hc
    simp [indentOf, List.takeWhile_cons, this]

/-- The lines of events that can be written. -/
inductive EvsOut (v : Nat) (vars : List Variable) : List (Event D) → List Str → Prop
  | nil : EvsOut v vars [] []
  | cons {e : Event D} {es : List (Event D)} {h : Str} {ls : List Str} (hh : HeadOut v e h) (hs : EvsOut v vars es ls) :
      EvsOut v vars (e :: es) (evLines vars h e ++ ls)

section
variable [UniLib] {v : Nat} {vars : List Variable}

theorem cmdLines_chars {cr : Bool} (hn : ∀ x ∈ vars, VarWritableC cr x) {e : Event D} (hw : ∀ x ∈ listing 1 (cmdsOf e), CmdWritableC cr x.2) :
    ∀ x ∈ listing 1 (cmdsOf e), AllC (lastC cr) (cmdLine (cmdVars vars e) x.1 x.2) := by
  intro x hx
  refine cmdLine_chars (variableReplace_chars (lastC_of (by decide)) ?_ (body_chars (hw x hx)))
  intro y hy c hc
  have hy : y ∈ vars := by cases e <;> first | exact hy | cases hy
  exact lastC_ok ((hn y hy).name c hc).2

theorem event_out {cr : Bool} (hn : ∀ x ∈ vars, VarWritableC cr x) {e : Event D} (hw : EvWritableC cr v e) :
    ∃ h, HeadOut v e h ∧ Event.shw v vars e = some (some (join ['\n'] (evLines vars h e))) ∧
      ∀ l ∈ evLines vars h e, AllC (lastC cr) l ∧ nonBlank l = true := by
  by_cases hcom : ∃ s, e = .comment s
  · obtain ⟨s, rfl⟩ := hcom
    have hs : AllC (lastC cr) s := hw.1
    refine ⟨c!"//" ++ s, ⟨.comment s, rfl⟩, rfl, ?_⟩
    intro l hl
    have hl : l ∈ [c!"//" ++ s] := hl
    simp only [List.mem_singleton] at hl
    subst hl
    refine ⟨AllC.append (wide_last (by decide)) hs, ?_⟩
    rw [nonBlank_iff, Ne, trim_eq_nil]; intro h; exact absurd (h '/' (by simp)) (by decide)
  · obtain ⟨h, ht, hshw⟩ := head_print hw.1 (fun s hs => hcom ⟨s, hs⟩)
    have hok := cmdLines_chars hn hw.2
    have hr : HeadReads v h ((quoted e).setCommands []) := .event (event_reads.1 ht.parse)
    refine ⟨h, ⟨hr, headReads_indent hr⟩, ?_, ?_⟩
    · rw [hshw, withCmds, cmdsToStr, printCmds_eq]
      simp only [Option.map_some, evLines]
      congr 2
      cases hl : Ev.listLines (cmdVars vars e) (listing 1 (cmdsOf e)) with
      | nil => simp [join]
      | cons l ls =>
        rw [if_neg, join_cons_cons]
        · simp
        · have : l ≠ [] := by
            have hm : l ∈ Ev.listLines (cmdVars vars e) (listing 1 (cmdsOf e)) := by rw [hl]; simp
            obtain ⟨x, hx, rfl⟩ := List.mem_map.1 hm
            intro h0; have := cmdLine_nb (cmdVars vars e) x.1 x.2; rw [h0] at this; cases this
          cases l with
          | nil => exact absurd rfl this
          | cons c l => cases ls <;> simp [join]
    · intro l hl
      rcases List.mem_cons.1 hl with rfl | hl
      · exact ⟨ht.chars, headText_nb ht⟩
      · obtain ⟨x, hx, rfl⟩ := List.mem_map.1 hl
        exact ⟨hok x hx, cmdLine_nb _ _ _⟩

theorem evsOut_nil {es : List (Event D)} {ls : List Str} (h : EvsOut v vars es ls) : ls = [] ↔ es = [] := by
  cases h <;> simp [evLines]

theorem events_out {cr : Bool} (hn : ∀ x ∈ vars, VarWritableC cr x) {es : List (Event D)} (hw : ∀ e ∈ es, EvWritableC cr v e)
    (hE : cr = true → ∀ s, Events.shwVars v vars es = some s → CleanEnds s) :
    ∃ ls, EvsOut v vars es ls ∧ (∀ l ∈ ls, LineOK l) ∧ Events.shwVars v vars es = some (join ['\n'] ls) := by
  have key : ∃ (ts : List Str) (ls : List Str), es.mapM (Event.shw v vars) = some (ts.map some) ∧ join ['\n'] ts = join ['\n'] ls ∧
      (∀ l ∈ ls, AllC (lastC cr) l ∧ nonBlank l = true) ∧ EvsOut v vars es ls ∧ ts.length = es.length := by
    clear hE
    induction es with
    | nil => exact ⟨[], [], rfl, rfl, (by simp), .nil, rfl⟩
    | cons e es ih =>
      obtain ⟨ts, ls, h1, h2, h3, h4, h5⟩ := ih fun x hx => hw x (by simp [hx])
      obtain ⟨h, g1, g2, g3⟩ := event_out hn (hw e (by simp))
      have hne : evLines vars h e ≠ [] := by simp [evLines]
      refine ⟨join ['\n'] (evLines vars h e) :: ts, evLines vars h e ++ ls, ?_, ?_, ?_, .cons g1 h4, by simp [h5]⟩
      · simp [List.mapM_cons, g2, h1]
      · cases ts with
        | nil =>
          have : es = [] := List.length_eq_zero_iff.1 h5.symm
          rw [(evsOut_nil h4).2 this, List.append_nil]
          rfl
        | cons t ts =>
          cases ls with
          | nil =>
            have : es = [] := (evsOut_nil h4).1 rfl
            subst this
            simp at h5
          | cons l ls => rw [join_cons_cons, h2, ← join_cons_cons, join_join hne]
      · intro l hl
        rcases List.mem_append.1 hl with hl | hl
        · exact g3 l hl
        · exact h3 l hl
  obtain ⟨ts, ls, h1, h2, h3, h4, -⟩ := key
  have hs : Events.shwVars v vars es = some (join ['\n'] ls) := by
    unfold Events.shwVars
    rw [h1]
    simp [List.filterMap_map, h2]
  exact ⟨ls, h4, lineOK_lastC h3 fun h => hE h _ hs, hs⟩

/-! ## What is read from it -/

/-- Two lists of events of the same shape: the same first lines up to quotes, and the commands of the second one are what the
command lines of the first one are read as. -/
inductive ReadAs (v : Nat) (vars : List Variable) : List (Event D) → List (Event D) → Prop
  | nil : ReadAs v vars [] []
  | cons {e e' : Event D} {es es' : List (Event D)} (hh : (quoted e).setCommands [] = e'.setCommands [])
      (hc : CmdLines (CmdLineVars vars) (Ev.listLines (cmdVars vars e) (listing 1 (cmdsOf e))) (listing 1 (cmdsOf e')))
      (hs : ReadAs v vars es es') : ReadAs v vars (e :: es) (e' :: es')

theorem headReads_unique {h : Str} {e e' : Event D} (h1 : HeadReads v h e) (h2 : HeadReads v h e') : e = e' := by
  cases h1 with
  | comment s =>
    generalize hx : c!"//" ++ s = x at h2
    cases h2 with
    | comment t => rw [List.append_cancel_left hx]
    | event hr =>
      obtain ⟨c, t, rfl, hc, -⟩ := evReads_first hr
      cases hx
      exact absurd rfl hc
  | event hr =>
    generalize hx : h = x at h2
    cases h2 with
    | comment s =>
      obtain ⟨c, t, rfl, hc, -⟩ := evReads_first hr
      cases hx
      exact absurd rfl hc
    | event hr' =>
      subst hx
      rw [← event_reads] at hr hr'
      exact Res.ok.inj (hr.symm.trans hr')

theorem cmdLines_mem {R : Str → Nat × Command D → Prop} {ls : List Str} {xs : List (Nat × Command D)} (h : CmdLines R ls xs) :
    ∀ l ∈ ls, ∃ x, R l x := by
  induction h with
  | nil => nofun
  | cons h _ ih =>
    intro l hl
    rcases List.mem_cons.1 hl with rfl | hl
    · exact ⟨_, h⟩
    · exact ih l hl

theorem cut_eq {p : Str → Bool} {a b c d : List Str} (ha : ∀ l ∈ a, p l = true) (hb : ∀ l, b.head? = some l → p l = false)
    (hc : ∀ l ∈ c, p l = true) (hd : ∀ l, d.head? = some l → p l = false) (h : a ++ b = c ++ d) : a = c ∧ b = d := by
  have key : ∀ {x y : List Str}, (∀ l ∈ x, p l = true) → (∀ l, y.head? = some l → p l = false) → (x ++ y).takeWhile p = x := by
    intro x y hx hy
    rw [List.takeWhile_append_of_pos hx]
    cases y with
    | nil => simp
    | cons l y => simp [List.takeWhile_cons, hy l rfl]
  have e : a = c := by rw [← key ha hb, h, key hc hd]
  subst e
  exact ⟨rfl, List.append_cancel_left h⟩

theorem evsOut_first {es : List (Event D)} {ls : List Str} (h : EvsOut v vars es ls) : ∀ l, ls.head? = some l → indentOf l = 0 := by
  cases h with
  | nil => nofun
  | cons hh hs => intro l hl; cases hl; exact hh.2

theorem section_first {R : Str → Nat × Command D → Prop} {es : List (Event D)} {ls : List Str} (h : SectionReads v R ls es) :
    ∀ l, ls.head? = some l → indentOf l = 0 := by
  cases h with
  | nil => nofun
  | cons hh hc hs => intro l hl; cases hl; exact headReads_indent hh

theorem read_as {es : List (Event D)} {ls : List Str} (h : EvsOut v vars es ls) :
    ∀ {es' : List (Event D)}, SectionReads v (CmdLineVars vars) ls es' → ReadAs v vars es es' := by
  induction h with
  | nil =>
    intro es' h'
    cases h'
    exact .nil
  | @cons e es h ls hh hs ih =>
    intro es' h'
    rw [evLines, List.cons_append] at h'
    generalize hx : h :: (Ev.listLines (cmdVars vars e) (listing 1 (cmdsOf e)) ++ ls) = x at h'
    cases h' with
    | nil => cases hx
    | @cons h2 cls ls2 e' evs hh2 hc2 hs2 =>
      injection hx with e1 e2
      subst e1
      obtain ⟨k1, k2⟩ := cut_eq (p := fun l => decide (1 ≤ indentOf l)) (by
          intro l hl
          obtain ⟨x, hx, rfl⟩ := List.mem_map.1 hl
          have : indentOf (cmdLine (cmdVars vars e) x.1 x.2) = x.1 := cmdLine_indent _ _ _
          rw [decide_eq_true_iff, this]
          exact listing_levels _ x hx) (by
          intro l hl
          rw [evsOut_first hs l hl]; rfl) (by
          intro l hl
          obtain ⟨x, h1, h2, -⟩ := cmdLines_mem hc2 l hl
          rw [decide_eq_true_iff, h2]; exact h1) (by
          intro l hl
          rw [section_first hs2 l hl]; rfl) e2
      subst k2
      rw [← k1] at hc2
      exact .cons (headReads_unique hh.1 hh2) hc2 (ih hs2)

theorem readAs_length {es es' : List (Event D)} (h : ReadAs v vars es es') : es.length = es'.length := by
  induction h with
  | nil => rfl
  | cons _ _ _ ih => simp [ih]

theorem cmdLines_own {R : Str → Nat × Command D → Prop} {vs : List Variable} {L : List (Nat × Command D)}
    (h : CmdLines R (Ev.listLines vs L) L) : ∀ x ∈ L, R (cmdLine vs x.1 x.2) x := by
  induction L with
  | nil => nofun
  | cons y L ih =>
    generalize hx : Ev.listLines vs (y :: L) = x at h
    cases h with
    | cons h1 h2 =>
      cases hx
      intro x hx
      rcases List.mem_cons.1 hx with rfl | hx
      · exact h1
      · exact ih h2 x hx

theorem cmdLines_of {R : Str → Nat × Command D → Prop} {vs : List Variable} {L : List (Nat × Command D)}
    (h : ∀ x ∈ L, R (cmdLine vs x.1 x.2) x) : CmdLines R (Ev.listLines vs L) L := by
  induction L with
  | nil => exact .nil
  | cons y L ih => exact .cons (h y (by simp)) (ih fun x hx => h x (by simp [hx]))

theorem readAs_self {es : List (Event D)} (h : ReadAs v vars es es) : ∀ e ∈ es, (quoted e).setCommands [] = e.setCommands [] ∧
    ∀ x ∈ listing 1 (cmdsOf e), CmdLineVars vars (cmdLine (cmdVars vars e) x.1 x.2) x := by
  have aux : ∀ {es es' : List (Event D)}, ReadAs v vars es es' → es = es' → ∀ e ∈ es, (quoted e).setCommands [] = e.setCommands [] ∧
      ∀ x ∈ listing 1 (cmdsOf e), CmdLineVars vars (cmdLine (cmdVars vars e) x.1 x.2) x := by
    intro es es' h
    induction h with
    | nil => nofun
    | cons hh hc hs ih =>
      intro he e hm
      injection he with e1 e2
      subst e1
      rcases List.mem_cons.1 hm with rfl | hm
      · exact ⟨hh, cmdLines_own hc⟩
      · exact ih e2 e hm
  exact aux h rfl

omit [DecLib D] [UniLib] in
theorem pathOf_set (e : Event D) (cs : List (Command D)) : pathOf (e.setCommands cs) = pathOf e := by
  cases e <;> rfl

omit [UniLib] in
theorem plain_of_set {e : Event D} (h : (quoted e).setCommands [] = e.setCommands []) : ∀ f, pathOf e = some f → PathPlain f := by
  intro f hf
  have h := congrArg pathOf h
  rw [pathOf_set, pathOf_set] at h
  unfold quoted at h
  rw [hf] at h
  simp only at h
  rw [pathOf_withPath (g := quotePath f) hf] at h
  rw [← Option.some.inj h]
  exact quotePath_plain f

theorem cmdsRead_of_own {cr : Bool} (hn : ∀ x ∈ vars, VarWritableC cr x) {e : Event D} (hw : ∀ x ∈ listing 1 (cmdsOf e), CmdWritableC cr x.2)
    (h : ∀ x ∈ listing 1 (cmdsOf e), CmdLineVars vars (cmdLine (cmdVars vars e) x.1 x.2) x) : CmdsRead cr vars e := by
  intro x hx
  obtain ⟨-, h1, -, h2, -⟩ := cmdLineVars_iff.1 (h x hx)
  exact ⟨h2, cmdLines_chars hn hw x hx, cmdLine_indent _ _ _, h1⟩

/-- An event whose commands are read back one by one: its first line and all its commands can be written, its path needs no
quotes, and each command is read from its own line, in which the values of the variables are replaced by their names. In
the lines of backgrounds and videos nothing is replaced. -/
def EvKept (v : Nat) (vars : List Variable) (e : Event D) : Prop :=
  EvFits v e ∧ (∀ f, pathOf e = some f → PathPlain f) ∧
    ∀ x ∈ listing 1 (cmdsOf e), CmdLineVars vars (spaces x.1 ++ x.2.toStrVars (cmdVars vars e)) x

/-- The lines of a text of events, and what they are if reading them gives all events back. -/
theorem events_back {es : List (Event D)} {ls : List Str}
    (ho : EvsOut v vars (es.filter (writtenIn v)) ls) (hw : ∀ e ∈ es, writtenIn v e = true → EvFits v e)
    (h : SectionReads v (CmdLineVars vars) ls es) : ∀ e ∈ es, EvKept v vars e := by
  have hr := read_as ho h
  have hf : es.filter (writtenIn v) = es := List.filter_eq_self.2 (List.length_filter_eq_length_iff.1 (readAs_length hr))
  rw [hf] at hr
  intro e he
  obtain ⟨h1, h2⟩ := readAs_self hr e he
  exact ⟨hw e he (List.length_filter_eq_length_iff.1 (by rw [hf]) e he), plain_of_set h1, h2⟩

theorem varValues {cr : Bool} {vars : List Variable} (hn : ∀ x ∈ vars, VarWritableC cr x) : ∀ x ∈ vars, AllC (lastC cr) x.value :=
  fun x hx c hc => lastC_ok ((hn x hx).value c hc)

/-- Events written with variables, in a text no line of which ends in a carriage return, are read back unchanged with the same
variables exactly if each of them can be written, needs no quotes, and has commands that are read back each from its own line. -/
theorem C38_iff (hn : ∀ x ∈ vars, VarFits x) {evs : List (Event D)} {s : Str} (hs : Events.shwVars v vars evs = some s)
    (hc : CleanEnds s) : Events.parseVars v vars s = .ok evs ↔ ∀ e ∈ evs, EvKept v vars e := by
  have hE : ∀ es : List (Event D), Events.shwVars v vars es = some s → true = true → ∀ t, Events.shwVars v vars es = some t → CleanEnds t := by
    intro es hs _ t ht
    rw [hs] at ht; cases ht; exact hc
  constructor
  · intro h
    have hw : ∀ e ∈ evs, writtenIn v e = true → EvFits v e :=
      sectionReads_writable_vars (varValues hn) (events_reads_vars.1 h) fun l hl => noCR_lines (cr := true) nofun l (List.mem_filter.1 hl).1
    have hs' : Events.shwVars v vars (evs.filter (writtenIn v)) = some s := (shwVars_filter v vars evs).trans hs
    obtain ⟨ls, h1, h2, h3⟩ := events_out (v := v) hn (es := evs.filter (writtenIn v)) (fun e he =>
      hw e (List.mem_filter.1 he).1 (List.mem_filter.1 he).2) (hE _ hs')
    rw [hs'] at h3
    cases h3
    rw [events_vars_reads, contentLines_eq, (lines_printed h2).1, (lines_printed h2).2] at h
    exact events_back h1 hw h
  · intro h
    obtain ⟨t, h1, h2, -⟩ := events_text (v := v) (vars := vars) (evs := evs) (fun e he =>
      ⟨(h e he).1.1, cmdsRead_of_own hn (h e he).1.2 (h e he).2.2⟩) (hE _ hs)
    rw [hs] at h1
    cases h1
    rw [h2]
    congr 1
    conv => rhs; rw [← List.map_id evs]
    exact List.map_congr_left fun e he => quoted_plain (h e he).2.1

/-! ## Storyboards -/

/-- Lines joined by line feeds, followed by a line feed and more text. -/
theorem lines_join_more {ls : List Str} (hne : ls ≠ []) (h : ∀ l ∈ ls, NoLF l ∧ NoEndCR l) (r : Str) :
    lines (join ['\n'] ls ++ '\n' :: r) = ls ++ lines r := by
  induction ls with
  | nil => exact absurd rfl hne
  | cons l ls ih =>
    obtain ⟨h1, h2⟩ := h l (by simp)
    cases ls with
    | nil => exact lines_append_nl h1 h2 r
    | cons l' ls =>
      rw [join_cons_cons, List.append_assoc, List.append_assoc, List.singleton_append, lines_append_nl h1 h2,
        ih (by simp) fun x hx => h x (by simp [hx])]
      rfl

theorem sections_nil : Sections [] [] [] := .nil (by
  rintro ⟨ws, nm, r, e, -⟩
  have := congrArg List.length e
  simp at this)

/-- The text of the variables, an empty line, and an empty `Events` section. -/
theorem empty_events_layout {t : Str} (ht : WellText t) :
    Layout (c!"[Variables]\n" ++ t ++ c!"\n\n[Events]\n") [] [⟨[], c!"Variables", ['\n'], t ++ ['\n']⟩, ⟨['\n'], c!"Events", [], []⟩] [] := by
  obtain ⟨ls, e, h1, h2, h3, h4⟩ := id ht
  have e1 : join ['\n'] (c!"[Variables]" :: (ls ++ [[], c!"[Events]"])) = c!"[Variables]\n" ++ t ++ c!"\n\n[Events]" := by
    rw [← List.cons_append, join_app (by simp) (by simp)]
    obtain ⟨l, ls', e'⟩ := List.exists_cons_of_ne_nil h1
    rw [e, e', join_cons_cons]
    simp [join]
  refine ⟨c!"[Variables]" :: (ls ++ [[], c!"[Events]"]), ?_, nofun, ?_, ?_⟩
  · have hb : ∀ l ∈ c!"[Variables]" :: (ls ++ [[], c!"[Events]"]), NoLF l ∧ NoEndCR l := by
      intro l hl
      simp only [List.mem_cons, List.mem_append, List.not_mem_nil, or_false] at hl
      rcases hl with rfl | hl | rfl | rfl
      · exact ⟨by unfold NoLF; decide, by unfold NoEndCR; decide⟩
      · exact ⟨(h2 l hl).lf, (h2 l hl).cr⟩
      · exact ⟨.nil, by unfold NoEndCR; decide⟩
      · exact ⟨by unfold NoLF; decide, by unfold NoEndCR; decide⟩
    have := lines_join_more (by simp) hb []
    rw [e1] at this
    simpa [lines_nil] using this
  · intro l hl; cases hl; exact .inl ⟨c!"Variables]", by decide⟩
  · rw [e1, show c!"[Variables]\n" ++ t ++ c!"\n\n[Events]" = [] ++ '[' :: (c!"Variables" ++ ']' :: (['\n'] ++ ((t ++ ['\n']) ++ c!"\n[Events]"))) by simp]
    refine .cons (x := ⟨[], c!"Variables", ['\n'], t ++ ['\n']⟩) (s := c!"\n[Events]") .nil ⟨(by decide : ']' ∉ c!"Variables"), (by decide : '\n' ∉ c!"Variables")⟩ (.cons (by decide) .nil) ?_
      ⟨.inr ⟨_, rfl⟩, ?_⟩ (.cons (x := ⟨['\n'], c!"Events", [], []⟩) (s := []) (.cons (by decide) .nil) (by decide) .nil nofun
        ⟨.inl rfl, ?_⟩ sections_nil)
    · have h1 := ht.head
      obtain ⟨c, r, e⟩ := List.exists_cons_of_ne_nil ht.ne_nil
      show HeadNot isMultispace (t ++ ['\n'] ++ _)
      rw [e] at h1 ⊢
      exact .cons h1.of_cons
    · intro a q e
      rcases List.eq_nil_or_concat q with rfl | ⟨q', z, rfl⟩
      · have := congrArg List.getLast? (show t ++ ['\n'] = (a ++ ['\n']) ++ ['['] by rw [show t ++ ['\n'] = _ from e]; simp)
        simp at this
      · have e : t ++ ['\n'] = (a ++ '\n' :: '[' :: q') ++ [z] := by
          rw [show t ++ ['\n'] = _ from e]; simp
        exact ht.noBracket a q' (List.append_inj_left' e rfl)
    · intro a b e
      have := congrArg List.length e
      simp at this

theorem empty_events_layout0 : Layout c!"[Events]\n" [] [⟨[], c!"Events", [], []⟩] [] := by
  refine ⟨[c!"[Events]"], by decide, nofun, ?_, ?_⟩
  · intro l hl; cases hl; exact .inl ⟨c!"Events]", by decide⟩
  · refine .cons (x := ⟨[], c!"Events", [], []⟩) (s := []) .nil (by decide) .nil nofun ⟨.inl rfl, ?_⟩ sections_nil
    intro a b e
    have := congrArg List.length e
    simp at this

theorem empty_vars_layout0 : Layout c!"[Variables]\n" [] [⟨[], c!"Variables", [], []⟩] [] := by
  refine ⟨[c!"[Variables]"], by decide, nofun, ?_, ?_⟩
  · intro l hl; cases hl; exact .inl ⟨c!"Variables]", by decide⟩
  · refine .cons (x := ⟨[], c!"Variables", [], []⟩) (s := []) .nil (by decide) .nil nofun ⟨.inl rfl, ?_⟩ sections_nil
    intro a b e
    have := congrArg List.length e
    simp at this

/-- An empty `Variables` section before another one is never read as no variables. -/
theorem empty_vars_never {pre : List Str} {xs : List Sect} {rest t : Str} {o : Osb D}
    (hl : Layout (c!"[Variables]\n\n\n[Events]\n" ++ t) pre xs rest) (hr : OsbReads v xs o) (ho : o.variables = some []) : False := by
  obtain ⟨ls, h1, h2, h3, h4⟩ := hl
  have e1 : lines (c!"[Variables]\n\n\n[Events]\n" ++ t) = [c!"[Variables]", [], [], c!"[Events]"] ++ lines t := by
    have := lines_join_more (ls := [c!"[Variables]", [], [], c!"[Events]"]) (by simp) (by
      intro l hl
      simp only [List.mem_cons, List.not_mem_nil, or_false] at hl
      rcases hl with rfl | rfl | rfl | rfl <;> exact ⟨by unfold NoLF; decide, by unfold NoEndCR; decide⟩) t
    exact this
  rw [e1] at h1
  have hpre : pre = [] := by
    cases pre with
    | nil => rfl
    | cons l pre =>
      injection h1 with e _
      exact absurd (.inl ⟨c!"Variables]", by rw [← e]; decide⟩) (h2 l (by simp))
  subst hpre
  rw [List.nil_append] at h1
  subst h1
  obtain ⟨z, hz, ez⟩ : ∃ z, AtEnd z ∧ join ['\n'] ([c!"[Variables]", [], [], c!"[Events]"] ++ lines t) = c!"[Variables]\n\n\n[Events]" ++ z := by
    cases lines t with
    | nil => exact ⟨[], .inl rfl, rfl⟩
    | cons l ls => exact ⟨'\n' :: join ['\n'] (l :: ls), .inr ⟨_, rfl⟩, rfl⟩
  rw [ez] at h4
  generalize hx : c!"[Variables]\n\n\n[Events]" ++ z = y at h4
  cases h4 with
  | nil _ =>
    cases hr
    cases ho
  | @cons x s xs r hw hn hw2 hb he h =>
    obtain ⟨ws, nm, ws2, body⟩ := x
    simp only at hx hw hn hw2 hb he
    have k1 := headNot_unique (a := []) (b := c!"[Variables]\n\n\n[Events]" ++ z) .nil hw (.cons (by decide)) (.cons (by decide)) hx
    obtain ⟨k2, k3⟩ := k1
    subst k2
    injection k3 with _ k3
    have k4 : nm = c!"Variables" ∧ ws2 ++ (body ++ s) = c!"\n\n\n[Events]" ++ z := by
      exact name_unique hn.1 (by decide) k3.symm
    obtain ⟨rfl, k5⟩ := k4
    obtain ⟨k6, k7⟩ := headNot_unique (a := c!"\n\n\n") (b := c!"[Events]" ++ z) (by intro c hc; revert c; decide) hw2 (.cons (by decide)) hb k5.symm
    have hbn : body ≠ [] := by
      rintro rfl
      rcases he.1 with h | ⟨r', h⟩ <;> rw [h] at k7 <;> cases k7
    obtain ⟨u, rest', eb, hu, hr'⟩ := firstLine_split body
    have h2 : AtEnd (rest' ++ s) := by
      rcases hr' with rfl | ⟨r, rfl⟩
      · exact he.1.imp (fun h => by simpa using h) fun ⟨r, h⟩ => ⟨_, by simpa using h⟩
      · exact .inr ⟨_, rfl⟩
    obtain ⟨rfl, -⟩ := line_unique (show NoLF c!"[Events]" by unfold NoLF; decide) hu hz h2 (by rw [k7, eb]; simp)
    have hcl : contentLines (lines body) ≠ [] := by
      rw [contentLines_eq]
      have : c!"[Events]" ∈ (lines body).filter nonBlank := by
        rw [List.mem_filter]
        refine ⟨?_, by decide⟩
        rcases hr' with rfl | ⟨r, rfl⟩
        · rw [eb]; decide
        · rw [eb, lines_append_nl (by unfold NoLF; decide) (by unfold NoEndCR; decide)]; simp
      intro h; rw [h] at this; cases this
    have hv : VarsRead (contentLines (lines body)) [] := by
      generalize hxs : ((⟨[], c!"Variables", ws2, body⟩ : Sect) :: xs) = ys at hr
      cases hr with
      | none => cases hxs
      | vars hx h => cases hxs; cases ho; exact h
      | events => cases ho
      | varsEvents _ _ h => cases hxs; cases ho; exact h
      | eventsVars hy => cases hxs; exact absurd (show c!"Variables" = c!"Events" from hy) (by decide)
    generalize contentLines (lines body) = L at hcl hv
    cases hv
    exact hcl rfl

theorem osb_of_layout {s : Str} {xs : List Sect} {rest : Str} {o : Osb D} (hv : 14 ≤ v) (hl : Layout s [] xs rest) :
    Osb.parse v s = .ok (some o) ↔ OsbReads v xs o := by
  rw [osb_parse_eq hv hl (by simp), osbReads_steps, ← osbLoop_ok (line := ([] : List Str).length) seenOK_nil]
  cases osbLoop v xs ([] : List Str).length [] (⟨none, none⟩ : Osb D) with
  | ok o' => exact ⟨fun h => by cases h; rfl, fun h => by cases h; rfl⟩
  | err e => exact ⟨(fun h => by cases h), (fun h => by cases h)⟩
  | panic => exact ⟨(fun h => by cases h), (fun h => by cases h)⟩

theorem evsOut_lines {es : List (Event D)} {ls : List Str} (h : EvsOut v vars es ls) :
    (∀ l, ls.head? = some l → HeadNot isMultispace l) ∧ ∀ l ∈ ls, l.head? ≠ some '[' := by
  induction h with
  | nil => exact ⟨nofun, nofun⟩
  | @cons e es h ls hh hs ih =>
    obtain ⟨h1, h2⟩ := headReads_start hh.1
    refine ⟨fun l hl => by cases hl; exact h1, ?_⟩
    intro l hl
    rcases List.mem_append.1 hl with hl | hl
    · rcases List.mem_cons.1 hl with rfl | hl
      · exact h2
      · obtain ⟨x, hx, rfl⟩ := List.mem_map.1 hl
        have := listing_levels _ x hx
        obtain ⟨j, hj⟩ : ∃ j, x.1 = j + 1 := ⟨x.1 - 1, by omega⟩
        rw [hj]
        simp [cmdLine, spaces, List.replicate_succ]
    · exact ih.2 l hl

/-- The text of a storyboard. -/
theorem osb_shw_some {o : Osb D} {s : Str} (hv : 14 ≤ v) (h : Osb.shw v o = some (some s)) :
    (o.events = none ∧ s = join ['\n', '\n'] ((o.variables.toList).map fun vs => c!"[Variables]\n" ++ join ['\n'] (vs.map Variable.shw))) ∨
    ∃ es t, o.events = some es ∧ Events.shwVars v (o.variables.getD []) es = some t ∧
      s = join ['\n', '\n'] ((o.variables.toList).map (fun vs => c!"[Variables]\n" ++ join ['\n'] (vs.map Variable.shw)) ++ [c!"[Events]\n" ++ t]) := by
  unfold Osb.shw at h
  rw [if_neg (by omega)] at h
  obtain ⟨vars, evs⟩ := o
  cases evs with
  | none =>
    left
    cases vars <;> (simp only [Option.bind_eq_bind, Option.bind_some, Option.some.injEq] at h; subst h; exact ⟨rfl, rfl⟩)
  | some es =>
    right
    simp only at h
    cases ht : Events.shwVars v (vars.getD []) es with
    | none => rw [ht] at h; cases h
    | some t =>
      rw [ht] at h
      refine ⟨es, t, rfl, ht, ?_⟩
      cases vars <;> (cases h; rfl)

/-- A storyboard whose variables can be written, with some variables if there are events after them, and whose events are
kept with these variables. -/
def OsbKept (v : Nat) (o : Osb D) : Prop :=
  (∀ vs, o.variables = some vs → (vs = [] → o.events = none) ∧ ∀ x ∈ vs, VarFits x) ∧
  ∀ es, o.events = some es → ∀ e ∈ es, EvKept v (o.variables.getD []) e

/-- A storyboard in whose text no line ends in a carriage return is read back unchanged exactly if its variables can be written, there are
some if there are events after them, and each event can be written, needs no quotes, and has commands that are read back each
from its own line, in which the values of the variables stand as references. Empty lists of events are read back, and so is
an empty list of variables without events. -/
theorem C39_iff {o : Osb D} {s : Str} (hv : 14 ≤ v) (hs : Osb.shw v o = some (some s)) (hc : CleanEnds s) :
    Osb.parse v s = .ok (some o) ↔ OsbKept v o := by
  unfold OsbKept
  have hV : NameOK c!"Variables" := by unfold NameOK; decide
  have hE : NameOK c!"Events" := by unfold NameOK; decide
  have hread : ∀ {vs : List Variable} {es : List (Event D)} {t : Str}, (∀ x ∈ vs, VarFits x) → Events.shwVars v vs es = some t →
      CleanEnds t → (Events.parseVars v vs t = .ok es ↔ ∀ e ∈ es, EvKept v vs e) := fun h1 h2 h3 => C38_iff h1 h2 h3
  -- the text of the events is empty or can stand in a file
  have hwell : ∀ {vs : List Variable} {es : List (Event D)} {t : Str}, (∀ x ∈ vs, VarFits x) → Events.shwVars v vs es = some t → CleanEnds t →
      (∀ e ∈ es, writtenIn v e = true → EvFits v e) → t = [] ∨ WellText t := by
    intro vs es t h1 h2 hct h3
    obtain ⟨ls, g1, g2, g3⟩ := events_out (v := v) h1 (es := es.filter (writtenIn v)) (fun e he =>
      h3 e (List.mem_filter.1 he).1 (List.mem_filter.1 he).2) (fun _ t' ht' => by
      rw [shwVars_filter, h2] at ht'; cases ht'; exact hct)
    rw [shwVars_filter, h2] at g3
    cases g3
    cases ls with
    | nil => exact .inl rfl
    | cons l ls =>
      obtain ⟨k1, k2⟩ := evsOut_lines g1
      exact .inr ⟨_, rfl, by simp, g2, k1, fun x hx => k2 x (List.mem_of_mem_tail hx)⟩
  have hkept : ∀ {vs : List Variable} {es : List (Event D)}, (∀ e ∈ es, EvKept v vs e) → ∀ e ∈ es, writtenIn v e = true → EvFits v e :=
    fun h e he _ => (h e he).1
  obtain ⟨vars, evs⟩ := o
  rcases osb_shw_some hv hs with ⟨h1, h2⟩ | ⟨es, t, h1, h2, h3⟩
  · simp only at h1 h2
    subst h1
    cases vars with
    | none =>
      have : s = join ['\n', '\n'] (([] : List (Str × Str)).map blockText) := h2
      subst this
      rw [osb_of_layout hv (blocks_layout0 (by simp))]
      exact ⟨fun _ => ⟨nofun, nofun⟩, fun _ => .none⟩
    | some vs =>
      cases vs with
      | nil =>
        have : s = c!"[Variables]\n" := h2
        subst this
        rw [osb_of_layout hv empty_vars_layout0]
        exact ⟨fun _ => ⟨fun vs e => by cases e; exact ⟨fun _ => rfl, nofun⟩, nofun⟩, fun _ => .vars rfl .nil⟩
      | cons x vs =>
        constructor
        · intro h
          exact ⟨fun vs' e => ⟨fun _ => rfl, (osb_read_writable (cr := true) nofun h).1 vs' e⟩, nofun⟩
        · rintro ⟨h, -⟩
          have h2' : s = c!"[Variables]\n" ++ join ['\n'] ((x :: vs).map Variable.shw) := h2
          obtain ⟨w1, w2⟩ := vars_text (h _ rfl).2 (by simp) fun _ => (h2' ▸ hc).suffix
          have : s = join ['\n', '\n'] ([(c!"Variables", join ['\n'] ((x :: vs).map Variable.shw))].map blockText) := h2
          subst this
          rw [osb_of_layout hv (blocks_layout0 (by simpa using ⟨hV, w1⟩))]
          exact .vars rfl (varsRead_iff.1 w2)
  · simp only at h1 h2 h3
    subst h1
    cases vars with
    | none =>
      have e : s = c!"[Events]\n" ++ t := h3
      have h2 : Events.shwVars v [] es = some t := h2
      have hct : CleanEnds t := (e ▸ hc).suffix
      have key : t = [] ∨ WellText t → (Osb.parse v s = .ok (some ⟨none, some es⟩) ↔ ∀ e ∈ es, EvKept v [] e) := by
        intro hw
        rw [← hread (by simp) h2 hct]
        rcases hw with rfl | hw
        · rw [show s = c!"[Events]\n" by rw [e]; rfl, osb_of_layout hv empty_events_layout0]
          exact ⟨fun h => by cases h; assumption, fun h => .events rfl h⟩
        · rw [show s = join ['\n', '\n'] ([(c!"Events", t)].map blockText) by rw [e]; rfl,
            osb_of_layout hv (blocks_layout0 (by simpa using ⟨hE, hw⟩))]
          exact ⟨fun h => by cases h; assumption, fun h => .events rfl h⟩
      constructor
      · intro h
        exact ⟨nofun, fun es' e' => by
          cases e'
          exact (key (hwell (by simp) h2 hct ((osb_read_writable (cr := true) nofun h).2 es rfl))).1 h⟩
      · rintro ⟨-, h⟩
        exact (key (hwell (by simp) h2 hct (hkept (h es rfl)))).2 (h es rfl)
    | some vs =>
      have h2 : Events.shwVars v vs es = some t := h2
      have e : s = c!"[Variables]\n" ++ join ['\n'] (vs.map Variable.shw) ++ c!"\n\n[Events]\n" ++ t := by
        rw [h3]; simp [join]
      have hct : CleanEnds t := (e ▸ hc).suffix
      have key : vs ≠ [] → (∀ x ∈ vs, VarFits x) → t = [] ∨ WellText t →
          (Osb.parse v s = .ok (some ⟨some vs, some es⟩) ↔ ∀ e ∈ es, EvKept v vs e) := by
        intro hne hvw hw
        obtain ⟨w1, w2⟩ := vars_text hvw hne fun _ => by
          rw [e, List.append_assoc, List.append_assoc, show c!"\n\n[Events]\n" ++ t = '\n' :: (c!"\n[Events]\n" ++ t) from rfl] at hc
          exact hc.suffix.prefix
        rw [varsRead_iff, ← contentLines_tail tail_nl w1.last] at w2
        rw [← hread hvw h2 hct]
        rcases hw with rfl | hw
        · rw [show s = c!"[Variables]\n" ++ join ['\n'] (vs.map Variable.shw) ++ c!"\n\n[Events]\n" by rw [e, List.append_nil],
            osb_of_layout hv (empty_events_layout w1)]
          constructor
          · intro h
            cases h with
            | varsEvents _ _ _ h' => exact h'
            | eventsVars hy => exact absurd (show c!"Variables" = c!"Events" from hy) (by decide)
          · exact fun h => .varsEvents rfl rfl w2 h
        · rw [show s = join ['\n', '\n'] ([(c!"Variables", join ['\n'] (vs.map Variable.shw)), (c!"Events", t)].map blockText) by
              rw [e]; simp [join, blockText],
            osb_of_layout hv (blocks_layout0 (by simpa using ⟨⟨hV, w1⟩, hE, hw⟩))]
          constructor
          · intro h
            cases h with
            | varsEvents _ _ _ h' => exact h'
            | eventsVars hy => exact absurd (show c!"Variables" = c!"Events" from hy) (by decide)
          · exact fun h => .varsEvents rfl rfl w2 h
      constructor
      · intro h
        obtain ⟨g1, g2⟩ := osb_read_writable (cr := true) nofun h
        have hne : vs ≠ [] := by
          rintro rfl
          obtain ⟨-, pre, xs, rest, hl, -, hr⟩ := (C55_exact v s _).1 h
          rw [e] at hl
          exact empty_vars_never hl hr rfl
        exact ⟨fun vs' e' => by cases e'; exact ⟨fun h' => absurd h' hne, g1 vs rfl⟩, fun es' e' => by
          cases e'
          exact (key hne (g1 vs rfl) (hwell (g1 vs rfl) h2 hct (g2 es rfl))).1 h⟩
      · rintro ⟨g1, g2⟩
        obtain ⟨k1, k2⟩ := g1 vs rfl
        exact (key (fun h => by cases k1 h) k2 (hwell k2 h2 hct (hkept (g2 es rfl)))).2 (g2 es rfl)

/-- Appending the text that a file gives for its storyboard gives another file of that version the same storyboard, and
changes nothing else, exactly under these conditions. -/
theorem C40_iff {f : OsuFile D} {o : Osb D} {s : Str} (hv : 14 ≤ f.version) (ho : f.osb = some o) (hs : f.osbToStr = some (some s))
    (hc : CleanEnds s) (g : OsuFile D) (hg : g.version = f.version) :
    g.appendOsb s = ({ g with osb := some o }, .ok ()) ↔ OsbKept f.version o := by
  unfold OsuFile.osbToStr at hs
  rw [ho] at hs
  rw [← C39_iff hv hs hc]
  unfold OsuFile.appendOsb
  rw [hg]
  cases hp : (Osb.parse f.version s : Res _ (Option (Osb D))) with
  | ok o' =>
    constructor
    · intro h
      have h := congrArg (fun x : OsuFile D × Res (LErr OsbErr) Unit => x.1.osb) h
      simp only at h
      rw [h]
    · intro h
      rw [Res.ok.inj h]
  | err e => exact ⟨(fun h => by cases (congrArg Prod.snd h)), nofun⟩
  | panic => exact ⟨(fun h => by cases (congrArg Prod.snd h)), nofun⟩

end

section
attribute [local instance] asciiUni

/-- A sprite and a background with one scale command of the given value each. -/
private def two (x : Str) : List (Event Dec96) :=
  [.object ⟨.foreground, ⟨.inr 12, true⟩, ⟨.ofStr c!"1", .ofStr c!"2"⟩, .sprite c!"a.png", [.mk (some 320) (.scale .linear none (.ofStr x) [])]⟩,
    .background ⟨0, c!"b.png", none, [.mk (some 320) (.scale .linear none (.ofStr x) [])]⟩]

/-- Names one of which begins with the other: a value of the first one is kept, a value of the second one is not. -/
private def pre : List Variable := [⟨c!"a", c!"5"⟩, ⟨c!"ab", c!"7"⟩]
private theorem pre_ok : ∀ x ∈ pre, VarFits x := by
  intro x hx
  have hx : x = ⟨c!"a", c!"5"⟩ ∨ x = ⟨c!"ab", c!"7"⟩ := by simpa [pre] using hx
  rcases hx with rfl | rfl <;> exact ⟨by decide, by decide⟩

example : Events.shwVars 14 pre (two c!"5") = some c!"Sprite,Foreground,12,a.png,1,2\n S,0,320,,$a\n0,0,b.png\n S,0,320,,5" := by decide
private theorem two_kept : ∀ e ∈ two c!"5", EvKept 14 pre e :=
  (C38_iff pre_ok (s := c!"Sprite,Foreground,12,a.png,1,2\n S,0,320,,$a\n0,0,b.png\n S,0,320,,5") (by decide) (cleanEndsB_ok (by decide))).1 (by rfl)
example : ∃ e ∈ two c!"7", ¬EvKept 14 pre e := by
  apply Classical.byContradiction
  intro h
  have h : ∀ e ∈ two c!"7", EvKept 14 pre e := fun e he => Classical.not_not.1 fun h' => h ⟨e, he, h'⟩
  have h := (C38_iff pre_ok (evs := two c!"7") (s := c!"Sprite,Foreground,12,a.png,1,2\n S,0,320,,$ab\n0,0,b.png\n S,0,320,,7") (by decide) (cleanEndsB_ok (by decide))).2 h
  have h' : Events.parseVars 14 pre c!"Sprite,Foreground,12,a.png,1,2\n S,0,320,,$ab\n0,0,b.png\n S,0,320,,7" =
    .ok [.object ⟨.foreground, ⟨.inr 12, true⟩, ⟨.ofStr c!"1", .ofStr c!"2"⟩, .sprite c!"a.png", [.mk (some 320) (.scale .linear none (.ofStr (D := Dec96) c!"5b") [])]⟩,
      .background ⟨0, c!"b.png", none, [.mk (some 320) (.scale .linear none (.ofStr c!"7") [])]⟩] := by rfl
  have h := Res.ok.inj (h.symm.trans h')
  injection h with h _
  injection h with h
  injection h with _ _ _ _ h
  injection h with h _
  injection h with _ h
  injection h with _ _ h _
  exact absurd h (by decide)

/-- In the lines of a background references are not written, but they are looked for: a value `$a` is lost. -/
example : ∃ s, Events.shwVars 14 pre [(.background ⟨0, c!"b.png", none, [.mk (some 320) (.scale .linear none (.ofStr c!"$a") [])]⟩ : Event Dec96)] = some s ∧
    Events.parseVars 14 pre s = .ok [(.background ⟨0, c!"b.png", none, [.mk (some 320) (.scale .linear none (.ofStr c!"5") [])]⟩ : Event Dec96)] :=
  ⟨c!"0,0,b.png\n S,0,320,,$a", by decide, by rfl⟩

example : Osb.parse 14 c!"[Variables]\n$a=5\n$ab=7\n\n[Events]\nSprite,Foreground,12,a.png,1,2\n S,0,320,,$a\n0,0,b.png\n S,0,320,,5" =
    .ok (some ⟨some pre, some (two c!"5")⟩) :=
  (C39_iff (o := ⟨some pre, some (two c!"5")⟩) (by decide) (by decide) (cleanEndsB_ok (by decide))).2
    ⟨fun vs h => by cases h; exact ⟨nofun, pre_ok⟩, fun es h => by cases h; exact two_kept⟩

example (g : OsuFile Dec96) (hg : g.version = 14) :
    g.appendOsb c!"[Variables]\n$a=5\n$ab=7\n\n[Events]\nSprite,Foreground,12,a.png,1,2\n S,0,320,,$a\n0,0,b.png\n S,0,320,,5" =
      ({ g with osb := some ⟨some pre, some (two c!"5")⟩ }, .ok ()) :=
  (C40_iff (f := { g with osb := some ⟨some pre, some (two c!"5")⟩ }) (by simp [hg]) rfl (by simp only [OsuFile.osbToStr, hg]; decide) (cleanEndsB_ok (by decide)) g rfl).2 (by
    simp only [hg]
    exact ⟨fun vs h => by cases h; exact ⟨nofun, pre_ok⟩, fun es h => by cases h; exact two_kept⟩)

/-- Without events an empty list of variables is kept, with events it is not. -/
example : Osb.parse 14 c!"[Variables]\n" = .ok (some (⟨some [], none⟩ : Osb Dec96)) :=
  (C39_iff (by decide) (by decide) (cleanEndsB_ok (by decide))).2 ⟨fun vs h => by cases h; exact ⟨fun _ => rfl, nofun⟩, nofun⟩
example : Osb.parse 14 c!"[Variables]\n\n\n[Events]\n" ≠ .ok (some (⟨some [], some []⟩ : Osb Dec96)) := by
  rw [Ne, C39_iff (by decide) (by decide) (cleanEndsB_ok (by decide))]
  intro h
  cases (h.1 [] rfl).1 rfl

end

end Osu
