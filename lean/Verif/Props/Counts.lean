/-
C95: how many things a text gives, and how deep commands nest.
-/
import Verif.Proof.Counts

namespace Osu
open SB Ev Parser

section
variable {D : Type} [DecLib D]

/-- C95: a text that is read as timing points or hit objects gives one for each line that is not blank; so does a text that is read
as colours in the versions that have colours. -/
theorem C95_lines (v : Nat) (s : Str) :
    (∀ l : List (TimingPoint D), TimingPoints.parse v s = .ok l → l.length = (contentLines (lines s)).length) ∧
    (∀ l : List (HitObject D), HitObjects.parse v s = .ok l → l.length = (contentLines (lines s)).length) ∧
    (∀ l, Colours.parse v s = .ok (some l) → l.length = (contentLines (lines s)).length) := by
  refine ⟨fun l h => parseLines_len h, fun l h => parseLines_len h, fun l h => ?_⟩
  unfold Colours.parse at h
  split at h
  · cases h
  · cases hp : parseLines Colour.parse s with
    | ok x => rw [hp] at h; cases h; exact parseLines_len hp
    | err e => rw [hp] at h; cases h
    | panic => rw [hp] at h; cases h

example : (TimingPoints.parse 14 c!"1,2,4,1,0,100,1,0\n\n  \r\n3,-100,4,1,0,100,0,0\n" : Res _ (List (TimingPoint Dec96))).isOk = true ∧
    (contentLines (lines c!"1,2,4,1,0,100,1,0\n\n  \r\n3,-100,4,1,0,100,0,0\n")).length = 2 := ⟨by decide, by decide⟩

example : (Colours.parse 14 c!"Combo1 : 1,2,3\n\nSliderBorder:4,5,6").isOk = true := by decide

variable [UniLib]

/-- C95: a text that is read as events gives one event or command, at whatever depth, for each line that is not blank; with variables
too. -/
theorem C95_events (v : Nat) (vars : List Variable) (s : Str) (es : List (Event D)) (h : Events.parseVars v vars s = .ok es) :
    eventEntries es = (contentLines (lines s)).length :=
  section_entries (events_vars_reads.1 h)

/-- C95: there is a command at depth `n` exactly if some line has `n` blanks or underscores at its start. -/
theorem C95_depth (v : Nat) (vars : List Variable) (s : Str) (es : List (Event D)) (h : Events.parseVars v vars s = .ok es) (n : Nat) :
    HasDepth es n ↔ 1 ≤ n ∧ ∃ l ∈ contentLines (lines s), indentOf l = n :=
  section_depth (fun _ _ h => ⟨h.1, h.2.1⟩) (events_vars_reads.1 h) n

end

section
attribute [local instance] asciiUni

/-- The events of the examples: a background with a loop that holds a command. -/
abbrev countedEvents : Str := c!"0,0,a.png\n L,1,2\n\n__S,0,3,,1\n//x"

theorem countedEvents_read : ∃ es : List (Event Dec96), Events.parseVars 14 [] countedEvents = .ok es :=
  ⟨_, by rfl⟩

example : ∃ es : List (Event Dec96), Events.parseVars 14 [] countedEvents = .ok es ∧ eventEntries es = 4 := by
  obtain ⟨es, h⟩ := countedEvents_read
  exact ⟨es, h, (C95_events _ _ _ _ h).trans (by decide)⟩

example : ∃ es : List (Event Dec96), Events.parseVars 14 [] countedEvents = .ok es ∧ HasDepth es 2 ∧ ¬HasDepth es 3 := by
  obtain ⟨es, h⟩ := countedEvents_read
  refine ⟨es, h, (C95_depth _ _ _ _ h 2).2 ⟨by decide, c!"__S,0,3,,1", by decide, by decide⟩, ?_⟩
  rw [C95_depth _ _ _ _ h 3]
  decide
end

section
variable {D : Type} [DecLib D]

/-- C95: a text that is read as General, Editor, Metadata or Difficulty gives at most one field for each row, where carriage returns end
rows too. -/
theorem C95_fields (v : Nat) (s : Str) :
    (∀ g, (General D).fromStr v s = .ok g → filled (generalView g) ≤ rowCount s) ∧
    (∀ g, (Editor D).fromStr v s = .ok g → filled (editorView g) ≤ rowCount s) ∧
    (∀ g, Metadata.fromStr v s = .ok g → filled (metadataView D g) ≤ rowCount s) ∧
    (∀ g, (Difficulty D).fromStr v s = .ok g → filled (difficultyView g) ≤ rowCount s) := by
  have key : ∀ view : FView D, (view.map fun p => p.1.name).Nodup → (∃ es r, KVSplits s es r ∧ Blank r ∧ FReads v es view) →
      filled view ≤ rowCount s := fun view hn ⟨es, r, h, _, hr⟩ => Nat.le_trans (filled_le hn hr) (kv_rows h.1)
  refine ⟨fun g h => key _ ?_ ((C79_general_read v s g).1 h), fun g h => key _ ?_ ((C79_editor_read v s g).1 h),
    fun g h => key _ ?_ ((C79_metadata_read D v s g).1 h), fun g h => key _ ?_ ((C79_difficulty_read v s g).1 h)⟩
  · simp only [generalView, List.map_cons, List.map_nil]; decide
  · simp only [editorView, List.map_cons, List.map_nil]; decide
  · simp only [metadataView, List.map_cons, List.map_nil]; decide
  · simp only [difficultyView, List.map_cons, List.map_nil]; decide

example : ∃ g, (General Dec96).fromStr 14 c!"Mode: 1\n\nCountdown:0" = .ok g ∧ filled (generalView g) = 2 := ⟨_, by rfl, by rfl⟩

/-- Rows are the lines that are not blank if carriage returns stand before line feeds only. -/
theorem C95_rows {s : Str} (h : PlainBreaks s) : rowCount s = (contentLines (lines s)).length := rows_eq_lines h

example : rowCount c!"a\r\nb" = (contentLines (lines c!"a\r\nb")).length := C95_rows fun a b e => by
  rcases a with _ | ⟨_, _ | ⟨_, _ | ⟨_, _ | ⟨_, a⟩⟩⟩⟩
  · simp at e
  · simp at e; exact ⟨c!"b", e.2.symm⟩
  · simp at e
  · simp at e
  · simp at e

variable [UniLib]

/-- The number of things a file has from one section. -/
def sectEntries (f : OsuFile D) : SName → Nat
  | .general => (f.general.map fun g => filled (generalView g)).getD 0
  | .editor => (f.editor.map fun g => filled (editorView g)).getD 0
  | .metadata => (f.metadata.map fun g => filled (metadataView D g)).getD 0
  | .difficulty => (f.difficulty.map fun g => filled (difficultyView g)).getD 0
  | .events => (f.events.map eventEntries).getD 0
  | .timingPoints => (f.timingPoints.map List.length).getD 0
  | .colours => (f.colours.map List.length).getD 0
  | .hitobjects => (f.hitobjects.map List.length).getD 0

theorem sectEntries_read {v : Nat} {f : OsuFile D} {body : Str} {n : SName} (h : SectReads v f body n) : sectEntries f n ≤ rowCount body := by
  have hl := lines_le_rows body
  have hf := C95_fields (D := D) v body
  have hc := C95_lines (D := D) v body
  cases n with
  | general => obtain ⟨x, h, e⟩ := h; rw [sectEntries, e]; exact hf.1 x h
  | editor => obtain ⟨x, h, e⟩ := h; rw [sectEntries, e]; exact hf.2.1 x h
  | metadata => obtain ⟨x, h, e⟩ := h; rw [sectEntries, e]; exact hf.2.2.1 x h
  | difficulty => obtain ⟨x, h, e⟩ := h; rw [sectEntries, e]; exact hf.2.2.2 x h
  | events => obtain ⟨x, h, e⟩ := h; rw [sectEntries, e]; exact Nat.le_trans (Nat.le_of_eq (C95_events v [] body x h)) hl
  | timingPoints => obtain ⟨x, h, e⟩ := h; rw [sectEntries, e]; exact Nat.le_trans (Nat.le_of_eq (hc.1 x h)) hl
  | colours =>
    obtain ⟨x, h, e⟩ := h
    rw [sectEntries, e]
    cases x with
    | none => exact Nat.zero_le _
    | some l => exact Nat.le_trans (Nat.le_of_eq (hc.2.2 l h)) hl
  | hitobjects => obtain ⟨x, h, e⟩ := h; rw [sectEntries, e]; exact Nat.le_trans (Nat.le_of_eq (hc.2.1 x h)) hl

theorem sectEntries_absent {f : OsuFile D} {n : SName} (h : SectAbsent f n) : sectEntries f n = 0 := by
  cases n <;> (simp only [SectAbsent] at h; rw [sectEntries, h]; rfl)

/-- All the names of sections. -/
def allNames : List SName := [.general, .editor, .metadata, .difficulty, .events, .timingPoints, .colours, .hitobjects]

/-- C95: the fields, events, commands, timing points, colours and hit objects of a file together are
fewer than the rows of its text. -/
theorem C95_file (s : Str) (f : OsuFile D) (h : OsuFile.parse s = .ok f) : fileEntries f < rowCount s := by
  obtain ⟨ws, num, r, pre, xs, rest, ⟨⟨bom, -, rfl⟩, -, -, -, hrb⟩, -, hl, -, -, -, -, h4, h5⟩ := (C53_exact s f).1 h
  have h6 : fileEntries f = (allNames.map (sectEntries f)).sum := by
    simp only [fileEntries, allNames, List.map_cons, List.map_nil, List.sum_cons, List.sum_nil, sectEntries]
    omega
  have h7 : rowCount r < rowCount (ws ++ bom ++ c!"osu file format v" ++ num ++ r) := by
    have hb : 1 ≤ rowCount (ws ++ bom ++ c!"osu file format v" ++ num) := rowCount_pos fun h => by
      have := h 'o' (by simp)
      exact absurd this (by decide)
    have hc : ∀ c r', isBreak c = true → r = c :: r' → rowCount r < rowCount (ws ++ bom ++ c!"osu file format v" ++ num ++ r) := by
      rintro c r' hc rfl
      rw [rowCount_break hc]
      have := rowCount_break hc [] r'
      rw [rowCount_nil, List.nil_append] at this
      omega
    rcases hrb with rfl | ⟨r', e | e⟩
    · rw [rowCount_nil, List.append_nil]; omega
    · exact hc _ r' (by decide) e
    · exact hc _ r' (by decide) e
  rw [h6]
  refine Nat.lt_of_le_of_lt (sum_backed SName.text Sect.name (sectEntries f) (fun x => rowCount x.body) allNames xs (by decide) ?_)
    (Nat.lt_of_le_of_lt (layout_rows hl) h7)
  intro n _
  by_cases hn : n.text ∈ xs.map Sect.name
  · obtain ⟨x, hx, e⟩ := List.mem_map.1 hn
    obtain ⟨-, m, hm, hr⟩ := h4 x hx
    have : m = n := by
      have : m.text = n.text := hm.trans e
      revert this
      cases m <;> cases n <;> decide
    subst this
    exact .inr ⟨x, hx, hm.symm, sectEntries_read hr⟩
  · exact .inl (sectEntries_absent (h5 n hn))

/-- C95: they are fewer than the lines that are not blank if carriage returns stand before line feeds only. -/
theorem C95_file_lines (s : Str) (f : OsuFile D) (hs : PlainBreaks s) (h : OsuFile.parse s = .ok f) :
    fileEntries f < (contentLines (lines s)).length := by
  rw [← rows_eq_lines hs]; exact C95_file s f h

omit [DecLib D] [UniLib] in
theorem plain_lines {s : Str} (hp : PlainBreaks s) : ∀ l ∈ lines s, l.getLast? ≠ some '\r' := by
  obtain ⟨n, hn⟩ : ∃ n, s.length = n := ⟨_, rfl⟩
  induction n using Nat.strongRecOn generalizing s with
  | _ n ih =>
    obtain ⟨u, rest, rfl, hu, hr⟩ := firstLine_split s
    have hu' : '\n' ∉ u := fun h => absurd (hu _ h) (by decide)
    intro l hl hc
    rcases hr with rfl | ⟨r, rfl⟩
    · rw [List.append_nil] at hl hp
      by_cases hne : u = []
      · subst hne; cases hl
      · rw [lines_single hu hne, List.mem_singleton] at hl
        subst hl
        obtain ⟨a, rfl⟩ := List.getLast?_eq_some_iff.1 hc
        obtain ⟨b', e⟩ := hp a [] rfl
        cases e
    · rw [lines_cons hu] at hl
      rcases List.mem_cons.1 hl with rfl | hl
      · obtain ⟨a, ha⟩ := List.getLast?_eq_some_iff.1 hc
        have hs : u = a ++ ['\r', '\r'] := by
          unfold stripCR at ha
          split at ha
          · rename_i h
            obtain ⟨w, rfl⟩ := List.getLast?_eq_some_iff.1 h
            rw [List.dropLast_concat] at ha
            rw [ha]; simp
          · rename_i h
            exact absurd (by rw [ha]; simp) h
        subst hs
        obtain ⟨b', e⟩ := hp a ('\r' :: '\n' :: r) (by simp)
        cases e
      · exact ih r.length (by rw [← hn]; simp; omega) (fun a b e => hp (u ++ '\n' :: a) b (by rw [e]; simp)) rfl l hl hc

/-- C95: if a file has a command at depth `n`, some line of its text has `n` blanks or underscores at its start. -/
theorem C95_file_depth (s : Str) (f : OsuFile D) (hs : PlainBreaks s) (h : OsuFile.parse s = .ok f) (es : List (Event D))
    (he : f.events = some es) (n : Nat) (hd : HasDepth es n) : ∃ l ∈ lines s, indentOf l = n := by
  obtain ⟨ws, num, r, pre, xs, rest, hv, -, hl, -, -, -, -, h4, h5⟩ := (C53_exact s f).1 h
  have hn : SName.events.text ∈ xs.map Sect.name := Classical.byContradiction fun hn => by
    have : f.events = none := h5 .events hn
    rw [he] at this; cases this
  obtain ⟨x, hx, e⟩ := List.mem_map.1 hn
  obtain ⟨-, m, hm, hr⟩ := h4 x hx
  have : m = .events := by
    have : m.text = SName.events.text := hm.trans e
    revert this
    cases m <;> decide
  subst this
  obtain ⟨es', hp, he'⟩ := hr
  rw [he] at he'; cases he'
  obtain ⟨h1, l, hm, hi⟩ := (C95_depth f.version [] x.body es hp n).1 hd
  have hm' : l ∈ lines x.body := (List.mem_filter.1 hm).1
  obtain ⟨i, hi'⟩ := List.getElem?_of_mem hm'
  have hi1 : 1 ≤ i := by
    cases i with
    | succ i => omega
    | zero =>
      exfalso
      have hr := events_vars_reads.1 hp
      cases hb : lines x.body with
      | nil => rw [hb] at hi'; cases hi'
      | cons k ks =>
        rw [hb] at hi'
        cases hi'
        have hnb : ¬Blank l := by simpa using (List.mem_filter.1 hm).2
        have hc : contentLines (l :: ks) = l :: contentLines ks := by
          unfold contentLines
          rw [List.filter_cons, if_pos (by simpa using hnb)]
        rw [hb, hc] at hr
        generalize hq : l :: contentLines ks = zs at hr
        cases hr with
        | nil => cases hq
        | cons hh _ _ => injection hq with e _; subst e; rw [head_indent hh] at hi; omega
  obtain ⟨p, q, rfl⟩ := List.append_of_mem hx
  have hcr : ∀ l ∈ lines r, l.getLast? ≠ some '\r' := plain_lines fun a b e' => by
    obtain ⟨⟨bom, -, rfl⟩, -⟩ := hv
    subst e'
    exact hs (ws ++ bom ++ c!"osu file format v" ++ num ++ a) b (by simp)
  obtain ⟨d, h6, h7⟩ := C46_content_position hv hl hcr hi'
  rw [h7 (.inl hi1)] at h6
  exact ⟨l, List.mem_of_getElem? h6, hi⟩

/-- C95: the variables, events and commands of a storyboard together are no more than the rows of its text. -/
theorem C95_storyboard (v : Nat) (s : Str) (o : Osb D) (h : Osb.parse v s = .ok (some o)) : osbEntries o ≤ rowCount s := by
  obtain ⟨-, pre, xs, rest, hl, -, hr⟩ := (C55_exact v s o).1 h
  clear h
  refine Nat.le_trans ?_ (layout_rows hl)
  have hv : ∀ {x : Sect} {vs : List Variable}, VarsRead (contentLines (lines x.body)) vs → vs.length ≤ rowCount x.body :=
    fun h => Nat.le_trans (Nat.le_of_eq (vars_len h)) (lines_le_rows _)
  have he : ∀ {y : Sect} {vs : List Variable} {es : List (Event D)}, Events.parseVars v vs y.body = .ok es → eventEntries es ≤ rowCount y.body :=
    fun h => Nat.le_trans (Nat.le_of_eq (C95_events _ _ _ _ h)) (lines_le_rows _)
  cases hr with
  | none => exact Nat.zero_le _
  | vars hx h => have := hv h; simpa [osbEntries] using this
  | events hy h => have := he (vs := []) h; simpa [osbEntries] using this
  | varsEvents hx hy h h' => have := hv h; have := he h'; simp [osbEntries]; omega
  | eventsVars hy hx h' h => have := hv h; have := he (vs := []) h'; simp [osbEntries]; omega

end

section
attribute [local instance] asciiUni

example : ∃ f : OsuFile Dec96, OsuFile.parse c!"osu file format v14\n[General]\nMode: 1\n\n[Events]\n0,0,a.png\n L,1,2\n__S,0,3,,1" = .ok f ∧
    fileEntries f = 4 ∧ rowCount c!"osu file format v14\n[General]\nMode: 1\n\n[Events]\n0,0,a.png\n L,1,2\n__S,0,3,,1" = 7 :=
  ⟨_, by rfl, by rfl, by decide⟩

example : ∃ f : OsuFile Dec96, OsuFile.parse c!"osu file format v14\n[General]\nMode: 1\n\n[Editor]\nGridSize: 4" = .ok f ∧
    fileEntries f < 5 := by
  refine ⟨_, by rfl, C95_file_lines c!"osu file format v14\n[General]\nMode: 1\n\n[Editor]\nGridSize: 4" _ ?_ (by rfl)⟩
  intro a b e
  have h : '\r' ∉ c!"osu file format v14\n[General]\nMode: 1\n\n[Editor]\nGridSize: 4" := by decide
  exact absurd (by rw [e]; simp) h

example : ∃ f : OsuFile Dec96, OsuFile.parse c!"osu file format v14\n[Events]\n0,0,a.png\r\n L,1,2\r\n__S,0,3,,1" = .ok f ∧
    ∃ es, f.events = some es ∧ HasDepth es 2 :=
  ⟨_, by rfl, _, rfl, (C95_depth 14 [] c!"0,0,a.png\r\n L,1,2\r\n__S,0,3,,1" _ (by rfl) 2).2 ⟨by decide, c!"__S,0,3,,1", by decide, by decide⟩⟩

/-- C95: the bound is reached: one row can hold the header of a section and a field. -/
theorem C95_file_tight : ∃ (s : Str) (f : OsuFile Dec96), OsuFile.parse s = .ok f ∧ fileEntries f = 1 ∧ rowCount s = 2 :=
  ⟨c!"osu file format v14\n[General]Mode: 1", _, by rfl, by rfl, by decide⟩

/-- C95: a file can have more fields than lines, as a carriage return alone separates fields. -/
theorem C95_false_lines : ∃ (s : Str) (f : OsuFile Dec96), OsuFile.parse s = .ok f ∧ (lines s).length < fileEntries f :=
  ⟨c!"osu file format v14\n[General]\nMode: 1\rAudioLeadIn: 0\rPreviewTime: 0\rCountdown: 0", _, by rfl, by decide⟩

example : ∃ o : Osb Dec96, Osb.parse 14 c!"[Variables]\n$a=b\n[Events]\nSprite,Pass,Centre,a.png,1,2\n S,0,3,,1" = .ok (some o) ∧ osbEntries o = 3 :=
  ⟨_, by rfl, by rfl⟩
end

end Osu
