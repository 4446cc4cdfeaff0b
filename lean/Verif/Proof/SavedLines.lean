/-
Lemmas on the number of lines of what is written.
-/
import Verif.Spec.SavedLines
import Verif.Props.Counts
import Verif.Props.SaveAs
import Verif.Proof.Resave
import Verif.Proof.Messages

namespace Osu
open SB Ev Parser

theorem lineCount_nil : lineCount [] = 0 := rfl

theorem lineCount_one {u : Str} (hu : NoLF u) : lineCount u = if Blank u then 0 else 1 := by
  by_cases hne : u = []
  · subst hne; rw [if_pos blank_nil]; rfl
  · unfold lineCount; rw [lines_single hu hne, contentLines_one]

theorem lineCount_cons {u : Str} (hu : NoLF u) (r : Str) : lineCount (u ++ '\n' :: r) = (if Blank u then 0 else 1) + lineCount r := by
  unfold lineCount
  rw [lines_cons hu, contentLines_cons_len]
  simp only [blank_stripCR]

theorem lineCount_break (a b : Str) : lineCount (a ++ '\n' :: b) = lineCount a + lineCount b := by
  obtain ⟨n, hn⟩ : ∃ n, a.length = n := ⟨_, rfl⟩
  induction n using Nat.strongRecOn generalizing a with
  | _ n ih =>
    obtain ⟨u, rest, rfl, hu, rfl | ⟨r, rfl⟩⟩ := firstLine_split a
    · rw [List.append_nil, lineCount_cons hu, lineCount_one hu]
    · rw [List.append_assoc, List.cons_append, lineCount_cons hu, lineCount_cons hu,
        ih r.length (by subst hn; simp; omega) r rfl]
      omega

theorem lineCount_join {ls : List Str} (h : ∀ l ∈ ls, NoLF l ∧ nonBlank l = true) : lineCount (join ['\n'] ls) = ls.length := by
  induction ls with
  | nil => rfl
  | cons x xs ih =>
    obtain ⟨h1, h2⟩ := h x (.head _)
    have hb : ¬Blank x := fun hb => by rw [blank_iff.1 hb] at h2; cases h2
    cases xs with
    | nil => rw [join, lineCount_one h1, if_neg hb]; rfl
    | cons y ys =>
      rw [join_cons_cons, List.append_assoc, List.singleton_append, lineCount_cons h1, if_neg hb, ih fun l hl => h l (.tail _ hl)]
      simp; omega

/-- The text of a file: its first line, the headers, and the lines of the sections. -/
theorem lineCount_file {num : Str} {v : Nat} (hn : IsUNumeral num v) (bs : List (Str × Str)) (hb : ∀ b ∈ bs, '\n' ∉ b.1) :
    lineCount (fileText num bs) = 1 + (bs.map fun b => 1 + lineCount b.2).sum := by
  obtain ⟨h1, -, -, -⟩ := formatLine_chars hn
  have e : fileText num bs = formatLine num ++ '\n' :: ('\n' :: join ['\n', '\n'] (bs.map blockText)) := by
    simp [fileText, formatLine]
  have h0 : ∀ x, lineCount ('\n' :: x) = lineCount x := fun x => by
    have := lineCount_break [] x
    rw [lineCount_nil, Nat.zero_add] at this
    exact this
  have hf : ¬Blank (formatLine num) := fun h => by
    have := h 'o' (by simp [formatLine])
    exact absurd this (by decide)
  rw [e, lineCount_cons h1, if_neg hf, h0]
  congr 1
  clear e hf
  have blk : ∀ b ∈ bs, lineCount (blockText b) = 1 + lineCount b.2 := by
    intro b hm
    have : blockText b = headerOf b.1 ++ '\n' :: b.2 := by simp [blockText, headerOf]
    rw [this, lineCount_cons, if_neg]
    · intro h
      have := h '[' (by simp [headerOf])
      exact absurd this (by decide)
    · refine noC_mem.2 fun h => ?_
      simp [headerOf] at h
      exact hb b hm h
  induction bs with
  | nil => rfl
  | cons b bs ih =>
    have i := ih (fun c hc => hb c (.tail _ hc)) fun c hc => blk c (.tail _ hc)
    rw [show ((b :: bs).map fun b => 1 + lineCount b.2).sum = (1 + lineCount b.2) + (bs.map fun b => 1 + lineCount b.2).sum from rfl, ← i,
      ← blk b (.head _)]
    cases bs with
    | nil => exact (Nat.add_zero _).symm
    | cons c cs =>
      have : join ['\n', '\n'] ((b :: c :: cs).map blockText) =
          blockText b ++ '\n' :: ('\n' :: join ['\n', '\n'] ((c :: cs).map blockText)) := by simp [join]
      rw [this, lineCount_break, h0]

/-! ### Fields -/

section
variable {D : Type} [DecLib D]

theorem intToStr_noLF (n : Int) : '\n' ∉ intToStr n := fun h => absurd (intToStr_chars n _ h) (by decide)

/-- What is written for a value that was read from a text without line feeds has none. -/
theorem shows_noLF {v : Nat} {s t : Str} {k : FKind} {x : FVal D} (h : FMeans v s (some x) k) (hs : '\n' ∉ s) (ht : FShows t x) : '\n' ∉ t := by
  cases k with
  | text => cases h; rw [show t = s from ht]; exact hs
  | integer =>
    obtain ⟨n, -, e⟩ := h; cases e
    rw [(plainInt_iff t _).1 ht]; exact intToStr_noLF _
  | flag =>
    rcases h with ⟨-, e⟩ | ⟨-, e⟩ <;> (cases e; rw [show t = _ from ht]; decide)
  | number =>
    rcases h with ⟨d, -, e⟩ | ⟨-, e⟩
    · cases e
      rw [show t = _ from ht]
      exact fun h => absurd (DecLib.shw_chars d _ h) (by decide)
    · cases e; rw [show t = s from ht]; exact hs
  | integers =>
    have key : ∀ (ps : List Str) (l : List Int32), Spelled PlainInt ps l → '\n' ∉ join [','] ps := by
      intro ps l h
      have : ∀ p ∈ ps, '\n' ∉ p := by
        induction h with
        | nil => nofun
        | cons h _ ih =>
          intro p hp
          rcases List.mem_cons.1 hp with rfl | hp
          · rw [(plainInt_iff _ _).1 h]; exact intToStr_noLF _
          · exact ih p hp
      intro hm
      obtain ⟨p, hp, hc⟩ := (mem_join_comma (by decide)).1 hm
      exact this p hp hc
    rcases h with ⟨-, e⟩ | ⟨_, l, -, -, -, e⟩ <;>
      (cases e; obtain ⟨ps, rfl, hp⟩ := ht; exact key _ _ hp)
  | words => obtain ⟨l, -, -, rfl, e⟩ := h; cases e; rw [show t = _ from ht]; exact hs
  | countdown =>
    rcases h with ⟨-, e⟩ | ⟨-, c, -, e⟩ <;> cases e
    rw [(plainNat_iff t _).1 ht]; exact natToStr_noLF _
  | sampleSet =>
    rcases h with ⟨-, e⟩ | ⟨-, c, -, e⟩ <;> cases e
    rw [show t = _ from ht]; cases c <;> decide
  | mode =>
    obtain ⟨m, -, ⟨-, e⟩ | ⟨-, e⟩⟩ := h <;> cases e
    rw [(plainNat_iff t _).1 ht]; exact natToStr_noLF _
  | overlay =>
    rcases h with ⟨-, e⟩ | ⟨-, c, -, e⟩ <;> cases e
    rw [show t = _ from ht]; cases c <;> decide

theorem entries_value {s r : Str} {es : List (KVLine × Str)} (h : KVEntries s es r) : ∀ e ∈ es, '\n' ∉ e.1.value := by
  induction h with
  | nil => nofun
  | cons hk hw hv hh hg hb hs he h ih =>
    intro e he
    rcases List.mem_cons.1 he with rfl | he
    · intro hm; exact absurd (hv _ hm) (by decide)
    · exact ih e he

theorem fLines_saved {v : Nat} {space : Str → Str} {view : FView D} {ls : List Str} (h : FLines v space view ls) :
    ls.length = savedFields v view := by
  unfold savedFields
  induction h with
  | nil => rfl
  | skip h _ ih =>
    rw [ih, List.filter_cons_of_neg]
    rcases h with rfl | h
    · simp
    · simp [h]
  | line hw _ _ ih => rw [List.length_cons, ih, List.filter_cons_of_pos (by simp [hw]), List.length_cons]

/-- A key/value section that was read is written with one line for each field that is written. -/
theorem fields_saved {v : Nat} {space : Str → Str} (hsp : ∀ t, '\n' ∉ space t) {es : List (KVLine × Str)} {view : FView D} {t : Str}
    (hn : ∀ p ∈ view, '\n' ∉ p.1.name) (hr : FReads v es view) (he : ∀ e ∈ es, '\n' ∉ e.1.value) (hw : FWritten v space view t) :
    lineCount t = savedFields v view := by
  obtain ⟨ls, hl, rfl⟩ := hw
  rw [lineCount_join, fLines_saved hl]
  have hm : ∀ p ∈ view, ∀ x, p.2 = some x → ∀ t, FShows t x → '\n' ∉ t := by
    intro p hp x hx t ht
    rcases hr.2.2 p hp with ⟨e, h1, -, h2⟩ | ⟨-, h⟩
    · rw [hx] at h2; exact shows_noLF h2 (he e h1) ht
    · rw [h] at hx; cases hx
  clear hr
  induction hl with
  | nil => nofun
  | skip _ _ ih => exact ih (fun p hp => hn p (.tail _ hp)) fun p hp => hm p (.tail _ hp)
  | @line f x view ls s hw hs _ ih =>
    intro l hl
    rcases List.mem_cons.1 hl with rfl | hl
    · refine ⟨noC_mem.2 fun h => ?_, ?_⟩
      · rcases List.mem_append.1 h with h | h
        · exact hn _ (.head _) h
        · rcases List.mem_cons.1 h with h | h
          · exact absurd h (by decide)
          · rcases List.mem_append.1 h with h | h
            · exact hsp _ h
            · exact hm _ (.head _) x rfl s hs h
      · cases hb : nonBlank (f.name ++ ':' :: (space s ++ s)) with
        | true => rfl
        | false =>
          have := blank_iff.2 hb ':' (by simp)
          exact absurd this (by decide)
    · exact ih (fun p hp => hn p (.tail _ hp)) (fun p hp => hm p (.tail _ hp)) l hl

end

/-! ### Lines -/

section
variable {D : Type} [DecLib D] [UniLib]

theorem items_saved {α : Type} {shw : α → Option Str} {l : List α} {t : Str} (ht : printLinesP shw l = some t)
    (h : ∀ a ∈ l, ∀ s, shw a = some s → '\n' ∉ s ∧ ',' ∈ s) : lineCount t = l.length := by
  unfold printLinesP at ht
  obtain ⟨ls, hl, rfl⟩ := Option.map_eq_some_iff.1 ht
  rw [lineCount_join]
  · clear ht h
    induction l generalizing ls with
    | nil => cases hl; rfl
    | cons x l ih =>
      rw [List.mapM_cons] at hl
      obtain ⟨y, -, hl⟩ := Option.bind_eq_some_iff.1 hl
      obtain ⟨ys, h2, hl⟩ := Option.bind_eq_some_iff.1 hl
      cases hl
      rw [List.length_cons, List.length_cons, ih ys h2]
  · intro x hx
    obtain ⟨a, ha, e⟩ := mapM_from shw l ls hl x hx
    obtain ⟨h1, h2⟩ := h a ha x e
    exact ⟨noC_mem.2 h1, comma_nonBlank h2⟩

omit [DecLib D] [UniLib] in
theorem eventEntries_quoted (es : List (Event D)) : eventEntries (es.map quoted) = eventEntries es := by
  unfold eventEntries
  rw [List.map_map]
  congr 1
  refine List.map_congr_left fun e _ => ?_
  have := cmdsOf_quoted e
  unfold cmdsOf at this
  simp [this]

theorem events_saved {v : Nat} {s t : Str} {es : List (Event D)} (h : Events.parse v s = .ok es) (ht : Events.shw v es = some t) :
    lineCount t = eventEntries (es.filter (writtenIn v)) := by
  have hw : ∀ e ∈ es.filter (writtenIn v), EvWritableC true v e := fun e he =>
    read_writableC (cr := true) nofun h e (List.mem_filter.1 he).1 (List.mem_filter.1 he).2
  obtain ⟨ls, h1, h2, -, h3⟩ := events_lines (v := v) (vars := []) fun e he => ⟨(hw e he).1, cmdsRead_of_writable (hw e he).2⟩
  rw [shwVars_filter] at h1
  have ht' : Events.shwVars v [] es = some t := ht
  rw [h1] at ht'; cases ht'
  rw [lineCount_join fun l hl => ⟨lastC_noLF (h2 l hl).1, (h2 l hl).2⟩]
  have hr := loop_reads ls 0 [] [] _ .nil (h3 0 [])
  rw [List.nil_append, List.nil_append] at hr
  have := section_entries hr
  rw [eventEntries_quoted] at this
  rw [this, List.filter_eq_self.2 fun l hl => (h2 l hl).2]

/-! ### Files -/

/-- Whether the file has the section. -/
def hasSect (f : OsuFile D) : SName → Bool
  | .general => f.general.isSome
  | .editor => f.editor.isSome
  | .metadata => f.metadata.isSome
  | .difficulty => f.difficulty.isSome
  | .events => f.events.isSome
  | .timingPoints => f.timingPoints.isSome
  | .colours => f.colours.isSome
  | .hitobjects => f.hitobjects.isSome

/-- The number of things that are written for a section. -/
noncomputable def sectSaved (f : OsuFile D) : SName → Nat
  | .general => (f.general.map fun g => savedFields f.version (generalView g)).getD 0
  | .editor => (f.editor.map fun g => savedFields f.version (editorView g)).getD 0
  | .metadata => (f.metadata.map fun g => savedFields f.version (metadataView D g)).getD 0
  | .difficulty => (f.difficulty.map fun g => savedFields f.version (difficultyView g)).getD 0
  | .events => (f.events.map fun es => eventEntries (es.filter (writtenIn f.version))).getD 0
  | .timingPoints => (f.timingPoints.map List.length).getD 0
  | .colours => (f.colours.map List.length).getD 0
  | .hitobjects => (f.hitobjects.map List.length).getD 0

theorem noLF_name {view : FView D} (h : ∀ n ∈ view.map (fun p => p.1.name), '\n' ∉ n) : ∀ p ∈ view, '\n' ∉ p.1.name :=
  fun p hp => h _ (List.mem_map_of_mem hp)

theorem sect_saved {f : OsuFile D} {s : Str} (h : OsuFile.parse s = .ok f) {n : SName} {t : Option Str} (hp : SectPrints f t n) :
    (t.map fun t => 1 + lineCount t).getD 0 = (hasSect f n).toNat + sectSaved f n := by
  obtain ⟨hv, -, hbody⟩ := loaded_parts h
  have blank1 : ∀ t : Str, '\n' ∉ (fun _ : Str => [' ']) t := fun _ => by simp
  rcases hbody n with ha | ⟨body, -, -, -, hr⟩
  · cases n with
    | general => rw [show t = _ from hp, sectSaved, hasSect, show f.general = none from ha]; rfl
    | editor => rw [show t = _ from hp, sectSaved, hasSect, show f.editor = none from ha]; rfl
    | metadata => rw [show t = _ from hp, sectSaved, hasSect, show f.metadata = none from ha]; rfl
    | difficulty => rw [show t = _ from hp, sectSaved, hasSect, show f.difficulty = none from ha]; rfl
    | colours => rw [show t = _ from hp, sectSaved, hasSect, show f.colours = none from ha]; rfl
    | events =>
      have ha : f.events = none := ha
      rcases hp with ⟨-, rfl⟩ | ⟨x, u, e, -⟩
      · rw [sectSaved, hasSect, ha]; rfl
      · rw [ha] at e; cases e
    | timingPoints =>
      have ha : f.timingPoints = none := ha
      rcases hp with ⟨-, rfl⟩ | ⟨x, u, e, -⟩
      · rw [sectSaved, hasSect, ha]; rfl
      · rw [ha] at e; cases e
    | hitobjects =>
      have ha : f.hitobjects = none := ha
      rcases hp with ⟨-, rfl⟩ | ⟨x, u, e, -⟩
      · rw [sectSaved, hasSect, ha]; rfl
      · rw [ha] at e; cases e
  · cases n with
    | general =>
      obtain ⟨x, h1, e⟩ := hr
      rw [show t = _ from hp, sectSaved, hasSect, e]
      obtain ⟨es, r, hk, -, hf⟩ := (C79_general_read _ _ _).1 h1
      have := fields_saved blank1 (noLF_name (by simp only [generalView, List.map_cons, List.map_nil]; decide)) hf (entries_value hk.1)
        ((C79_general_written _ _ _).1 rfl)
      simp only [Option.map_some, Option.getD_some, Option.isSome_some, Bool.toNat_true, this]
    | editor =>
      obtain ⟨x, h1, e⟩ := hr
      rw [show t = _ from hp, sectSaved, hasSect, e]
      obtain ⟨es, r, hk, -, hf⟩ := (C79_editor_read _ _ _).1 h1
      have := fields_saved blank1 (noLF_name (by simp only [editorView, List.map_cons, List.map_nil]; decide)) hf (entries_value hk.1)
        ((C79_editor_written _ _ _).1 rfl)
      simp only [Option.map_some, Option.getD_some, Option.isSome_some, Bool.toNat_true, this]
    | metadata =>
      obtain ⟨x, h1, e⟩ := hr
      rw [show t = _ from hp, sectSaved, hasSect, e]
      obtain ⟨es, r, hk, -, hf⟩ := (C79_metadata_read D _ _ _).1 h1
      have := fields_saved (fun _ => by simp) (noLF_name (by simp only [metadataView, List.map_cons, List.map_nil]; decide)) hf
        (entries_value hk.1) ((C79_metadata_written D _ _ _).1 rfl)
      simp only [Option.map_some, Option.getD_some, Option.isSome_some, Bool.toNat_true, this]
    | difficulty =>
      obtain ⟨x, h1, e⟩ := hr
      rw [show t = _ from hp, sectSaved, hasSect, e]
      obtain ⟨es, r, hk, -, hf⟩ := (C79_difficulty_read _ _ _).1 h1
      have := fields_saved (fun _ => by unfold difficultySpace; split <;> simp)
        (noLF_name (by simp only [difficultyView, List.map_cons, List.map_nil]; decide)) hf
        (entries_value hk.1) ((C79_difficulty_written _ _ _).1 rfl)
      simp only [Option.map_some, Option.getD_some, Option.isSome_some, Bool.toNat_true, this]
    | colours =>
      obtain ⟨x, h1, e⟩ := hr
      have hp : t = f.colours.bind (Colours.shw f.version) := hp
      rw [hp, sectSaved, hasSect, e]
      cases x with
      | none => rfl
      | some l =>
        have hs : Colours.shw f.version l = some (printLines Colour.shw l) := by
          unfold Colours.shw
          unfold Colours.parse at h1
          split at h1
          · cases h1
          · rename_i hn; rw [if_neg hn]
        have : lineCount (printLines Colour.shw l) = l.length := by
          unfold printLines
          rw [lineCount_join, List.length_map]
          intro u hu
          obtain ⟨c, -, rfl⟩ := List.mem_map.1 hu
          exact ⟨(Colour.shw_lineOK c).lf, (Colour.shw_lineOK c).nb⟩
        simp only [Option.bind_some, hs, Option.map_some, Option.getD_some, Option.isSome_some, Bool.toNat_true, this]
    | events =>
      obtain ⟨x, h1, e⟩ := hr
      rcases hp with ⟨e', -⟩ | ⟨y, u, e', hu, rfl⟩
      · rw [e] at e'; cases e'
      · rw [e] at e'; cases e'
        rw [sectSaved, hasSect, e]
        simp only [Option.map_some, Option.getD_some, Option.isSome_some, Bool.toNat_true, events_saved h1 hu]
    | timingPoints =>
      obtain ⟨x, h1, e⟩ := hr
      rcases hp with ⟨e', -⟩ | ⟨y, u, e', hu, rfl⟩
      · rw [e] at e'; cases e'
      · rw [e] at e'; cases e'
        rw [sectSaved, hasSect, e]
        have := items_saved hu fun a ha q hq => by
          obtain ⟨l, hl, -, hr⟩ := parseLines_mem h1 a ha
          exact ⟨fun hc => noC_mem.1 (lines_noLF _ _ hl) (tp_texts hr ((tp_line_char hq (by decide) (by decide) (by decide)).1 hc)), tp_line_comma hq⟩
        simp only [Option.map_some, Option.getD_some, Option.isSome_some, Bool.toNat_true, this]
    | hitobjects =>
      obtain ⟨x, h1, e⟩ := hr
      rcases hp with ⟨e', -⟩ | ⟨y, u, e', hu, rfl⟩
      · rw [e] at e'; cases e'
      · rw [e] at e'; cases e'
        rw [sectSaved, hasSect, e]
        have := items_saved hu fun a ha q hq => by
          obtain ⟨l, hl, -, hr⟩ := parseLines_mem h1 a ha
          refine ⟨fun hc => ?_, ?_⟩
          · obtain ⟨z, hz, hcz⟩ := ho_line_lf hq (.inl rfl) hc
            exact noC_mem.1 (lines_noLF _ _ hl) (ho_texts hr (by decide) hz hcz)
          · rw [ho_shw_form] at hq
            obtain ⟨tm, htm, hs⟩ := Option.bind_eq_some_iff.1 hq
            obtain ⟨ts, hts, rfl⟩ := Option.map_eq_some_iff.1 hs
            rw [preC]; simp
        simp only [Option.map_some, Option.getD_some, Option.isSome_some, Bool.toNat_true, this]

/-- The number of lines that are not blank in the text of a file that was loaded. -/
theorem file_saved {f : OsuFile D} {s t : Str} (h : OsuFile.parse s = .ok f) (ht : f.shw = some t) :
    lineCount t = 1 + sectionCount f + savedEntries f := by
  obtain ⟨p, hp, rfl⟩ := shw_iff.1 ht
  obtain ⟨hv, -, -⟩ := loaded_parts h
  rw [lineCount_file (known_nat hv).1 _ fun b hb => by
    obtain ⟨n, -, e⟩ := listed_mem.1 hb
    rw [← e]; exact (SName.noBom n).2]
  have sum : ∀ ns : List SName, ((ns.filterMap fun n => (p n).map fun t => (n.text, t)).map fun b => 1 + lineCount b.2).sum =
      (ns.map fun n => (hasSect f n).toNat + sectSaved f n).sum := by
    intro ns
    induction ns with
    | nil => rfl
    | cons n ns ih =>
      rw [List.map_cons, List.sum_cons, ← ih]
      have := sect_saved h (hp n)
      cases e : p n with
      | none =>
        rw [e] at this
        rw [List.filterMap_cons_none (by simp [e]), ← this]; simp
      | some t =>
        rw [e] at this
        rw [List.filterMap_cons_some (b := (n.text, t)) (by simp [e]), ← this]; simp
  rw [listed, sum]
  simp only [SName.all, List.map_cons, List.map_nil, List.sum_cons, List.sum_nil, hasSect, sectSaved, sectionCount, savedEntries]
  omega

/-! ### How much is written -/

omit [UniLib] in
theorem savedFields_le (v : Nat) (view : FView D) : savedFields v view ≤ filled view := by
  unfold savedFields filled
  refine List.Sublist.length_le ?_
  induction view with
  | nil => exact .slnil
  | cons p view ih =>
    by_cases h : p.2.isSome = true
    · rw [List.filter_cons_of_pos (p := fun p : FField × Option (FVal D) => p.2.isSome) h]
      by_cases h' : p.1.written v
      · rw [List.filter_cons_of_pos (by simp [h, h'])]; exact ih.cons_cons _
      · rw [List.filter_cons_of_neg (by simp [h'])]; exact ih.cons _
    · rw [List.filter_cons_of_neg (p := fun p : FField × Option (FVal D) => p.2.isSome) h, List.filter_cons_of_neg (by simp [h])]; exact ih

omit [UniLib] in
theorem savedFields_eq (v : Nat) (view : FView D) : savedFields v view = filled view ↔ ∀ p ∈ view, p.2 ≠ none → p.1.written v := by
  induction view with
  | nil => simp [savedFields, filled]
  | cons p view ih =>
    have hle := savedFields_le v view
    unfold savedFields filled at ih hle ⊢
    rw [List.forall_mem_cons, ← ih]
    by_cases h : p.2.isSome = true
    · rw [List.filter_cons_of_pos (p := fun p : FField × Option (FVal D) => p.2.isSome) h]
      have hn : p.2 ≠ none := fun e => by rw [e] at h; cases h
      by_cases h' : p.1.written v
      · rw [List.filter_cons_of_pos (by simp [h, h'])]
        simp [h']
      · rw [List.filter_cons_of_neg (by simp [h'])]
        simp only [List.length_cons]
        constructor
        · intro e; omega
        · intro e; exact absurd (e.1 hn) h'
    · rw [List.filter_cons_of_neg (p := fun p : FField × Option (FVal D) => p.2.isSome) h, List.filter_cons_of_neg (by simp [h])]
      have hn : p.2 = none := by cases e : p.2 with
        | none => rfl
        | some x => rw [e] at h; exact absurd rfl h
      simp [hn]

omit [DecLib D] [UniLib] in
theorem eventEntries_filter_le (v : Nat) (es : List (Event D)) : eventEntries (es.filter (writtenIn v)) ≤ eventEntries es := by
  unfold eventEntries
  induction es with
  | nil => simp
  | cons e es ih =>
    cases h : writtenIn v e
    · rw [List.filter_cons_of_neg (by simp [h])]; simp only [List.map_cons, List.sum_cons]; omega
    · rw [List.filter_cons_of_pos h]; simp only [List.map_cons, List.sum_cons]; omega

omit [DecLib D] [UniLib] in
theorem eventEntries_filter_eq (v : Nat) (es : List (Event D)) :
    eventEntries (es.filter (writtenIn v)) = eventEntries es ↔ ∀ e ∈ es, writtenIn v e = true := by
  induction es with
  | nil => simp
  | cons e es ih =>
    have hle := eventEntries_filter_le v es
    rw [List.forall_mem_cons, ← ih]
    unfold eventEntries at hle ⊢
    cases h : writtenIn v e
    · rw [List.filter_cons_of_neg (by simp [h])]; simp only [List.map_cons, List.sum_cons]
      constructor
      · intro e; omega
      · rintro ⟨e, -⟩; cases e
    · rw [List.filter_cons_of_pos h]; simp only [List.map_cons, List.sum_cons]
      simp

theorem sectSaved_le (f : OsuFile D) (n : SName) : sectSaved f n ≤ sectEntries f n := by
  cases n with
  | general => unfold sectSaved sectEntries; cases f.general with
    | none => exact Nat.le_refl _
    | some x => exact savedFields_le _ _
  | editor => unfold sectSaved sectEntries; cases f.editor with
    | none => exact Nat.le_refl _
    | some x => exact savedFields_le _ _
  | metadata => unfold sectSaved sectEntries; cases f.metadata with
    | none => exact Nat.le_refl _
    | some x => exact savedFields_le _ _
  | difficulty => unfold sectSaved sectEntries; cases f.difficulty with
    | none => exact Nat.le_refl _
    | some x => exact savedFields_le _ _
  | events => unfold sectSaved sectEntries; cases f.events with
    | none => exact Nat.le_refl _
    | some x => exact eventEntries_filter_le _ _
  | timingPoints => exact Nat.le_refl _
  | colours => exact Nat.le_refl _
  | hitobjects => exact Nat.le_refl _

theorem sectSaved_sum (f : OsuFile D) : savedEntries f = (allNames.map (sectSaved f)).sum := by
  simp only [savedEntries, allNames, List.map_cons, List.map_nil, List.sum_cons, List.sum_nil, sectSaved]
  omega

theorem sectEntries_sum (f : OsuFile D) : fileEntries f = (allNames.map (sectEntries f)).sum := by
  simp only [fileEntries, allNames, List.map_cons, List.map_nil, List.sum_cons, List.sum_nil, sectEntries]
  omega

theorem hasSect_sum (f : OsuFile D) : sectionCount f = (allNames.map fun n => (hasSect f n).toNat).sum := by
  simp only [sectionCount, allNames, List.map_cons, List.map_nil, List.sum_cons, List.sum_nil, hasSect]
  omega

theorem hasSect_absent {f : OsuFile D} {n : SName} (h : SectAbsent f n) : hasSect f n = false := by
  cases n <;> (simp only [SectAbsent] at h; rw [hasSect, h]; rfl)

/-- Sections with their headers on lines of their own. -/
theorem sections_rows_alone {t rest : Str} {xs : List Sect} (h : Sections t xs rest) (ha : ∀ x ∈ xs, '\n' ∈ x.ws2) :
    (xs.map fun x => 1 + rowCount x.body).sum ≤ rowCount t := by
  induction h with
  | nil => simp
  | @cons x s xs r hw hn hw2 hb he h ih =>
    have ih := ih fun y hy => ha y (.tail _ hy)
    rw [List.map_cons, List.sum_cons]
    obtain ⟨a, b, e, -⟩ := break_at (ha x (.head _))
    have h0 : 1 ≤ rowCount (x.ws ++ '[' :: (x.name ++ ']' :: a)) := rowCount_pos fun hb => by
      have := hb '[' (by simp)
      exact absurd this (by decide)
    have h1 : 1 + rowCount (x.body ++ s) ≤ rowCount (x.ws ++ '[' :: (x.name ++ ']' :: (x.ws2 ++ (x.body ++ s)))) := by
      have e' : x.ws ++ '[' :: (x.name ++ ']' :: (x.ws2 ++ (x.body ++ s))) =
          (x.ws ++ '[' :: (x.name ++ ']' :: a)) ++ '\n' :: (b ++ (x.body ++ s)) := by rw [e]; simp
      rw [e', rowCount_break (by decide)]
      have := rowCount_right b (x.body ++ s)
      omega
    refine Nat.le_trans ?_ h1
    rcases he.1 with rfl | ⟨r', rfl⟩
    · rw [rowCount_nil] at ih
      rw [List.append_nil]; omega
    · rw [rowCount_break (by decide)]
      have h2 : rowCount ('\n' :: '[' :: r') = rowCount ('[' :: r') := by
        have := rowCount_break (c := '\n') (by decide) [] ('[' :: r')
        rw [rowCount_nil, Nat.zero_add] at this
        exact this
      omega

end
end Osu
