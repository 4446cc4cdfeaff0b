/-
C97: how many lines a saved file has.
-/
import Verif.Proof.SavedLines
import Verif.Proof.Edits

namespace Osu
open SB Ev Parser

section
variable {D : Type} [DecLib D] [UniLib]

/-- C97: the text of a loaded file that is saved has one line for the version, one for each section, and one for each field, event,
command, timing point, colour and hit object that the version writes; all other lines are blank. -/
theorem C97_file (s t : Str) (f : OsuFile D) (h : OsuFile.parse s = .ok f) (ht : f.shw = some t) :
    lineCount t = 1 + sectionCount f + savedEntries f := file_saved h ht

/-- C97: all things the file holds are written exactly if these fields and events are not in it. -/
theorem C97_all (s : Str) (f : OsuFile D) (h : OsuFile.parse s = .ok f) : savedEntries f = fileEntries f ↔
    (∀ g, f.general = some g → (f.version = 14 → g .audioHash = none) ∧
      (6 ≤ f.version → g .editorBookmarks = none ∧ g .editorDistanceSpacing = none)) ∧
    (∀ g, f.editor = some g → f.version ≠ 10 → g .currentTime = none) ∧
    (f.version = 14 → ∀ es, f.events = some es → ∀ c, Event.colourTransformation c ∉ es) := by
  obtain ⟨hv, -, hbody⟩ := loaded_parts h
  have hsum : savedEntries f = fileEntries f ↔ ∀ n : SName, sectSaved f n = sectEntries f n := by
    have hle := sectSaved_le f
    rw [sectSaved_sum, sectEntries_sum]
    constructor
    · intro e n
      simp only [allNames, List.map_cons, List.map_nil, List.sum_cons, List.sum_nil] at e
      have := hle .general; have := hle .editor; have := hle .metadata; have := hle .difficulty
      have := hle .events; have := hle .timingPoints; have := hle .colours; have := hle .hitobjects
      cases n <;> omega
    · intro e
      rw [show sectSaved f = sectEntries f from funext e]
  rw [hsum]
  have hg : sectSaved f .general = sectEntries f .general ↔ ∀ g, f.general = some g → (f.version = 14 → g .audioHash = none) ∧
      (6 ≤ f.version → g .editorBookmarks = none ∧ g .editorDistanceSpacing = none) := by
    rcases hbody .general with ha | ⟨body, -, -, -, g, hr, e⟩
    · rw [sectSaved, sectEntries, show f.general = none from ha]; simp
    · rw [sectSaved, sectEntries, e]
      obtain ⟨es, r, -, -, -, -, hf⟩ := (C79_general_read _ _ _).1 hr
      have hc : 3 ≤ f.version ∧ f.version ≤ 4 → g .countdown = none := by
        intro hv'
        have := hf (⟨c!"Countdown", .countdown, fun v => ¬ (3 ≤ v ∧ v ≤ 4)⟩, (g .countdown).map .countdown) (by simp [generalView])
        rcases this with ⟨_, -, -, ⟨-, e⟩ | ⟨hn, -⟩⟩ | ⟨-, e⟩
        · exact Option.map_eq_none_iff.1 e
        · exact absurd hv' hn
        · exact Option.map_eq_none_iff.1 e
      have hs : f.version = 3 → g .sampleSet = none := by
        intro hv'
        have := hf (⟨c!"SampleSet", .sampleSet, fun v => v ≠ 3⟩, (g .sampleSet).map .sampleSet) (by simp [generalView])
        rcases this with ⟨_, -, -, ⟨-, e⟩ | ⟨hn, -⟩⟩ | ⟨-, e⟩
        · exact Option.map_eq_none_iff.1 e
        · exact absurd hv' hn
        · exact Option.map_eq_none_iff.1 e
      have ho : 3 ≤ f.version ∧ f.version ≤ 13 → g .overlayPosition = none := by
        intro hv'
        have := hf (⟨c!"OverlayPosition", .overlay, fun v => ¬ (3 ≤ v ∧ v ≤ 13)⟩, (g .overlayPosition).map .overlay) (by simp [generalView])
        rcases this with ⟨_, -, -, ⟨-, e⟩ | ⟨hn, -⟩⟩ | ⟨-, e⟩
        · exact Option.map_eq_none_iff.1 e
        · exact absurd hv' hn
        · exact Option.map_eq_none_iff.1 e
      simp only [Option.map_some, Option.getD_some, savedFields_eq, generalView, List.forall_mem_cons, always, implies_true, true_and,
        List.not_mem_nil, false_implies, and_true, ne_eq, Option.map_eq_none_iff, Option.some.injEq, forall_eq']
      constructor
      · rintro ⟨h1, -, -, -, h5, h6⟩
        refine ⟨fun hv' => ?_, fun hv' => ⟨?_, ?_⟩⟩
        · exact Classical.byContradiction fun hn => by have := h1 fun e => hn (Option.map_eq_none_iff.1 e); omega
        · exact Classical.byContradiction fun hn => by have := h5 fun e => hn (Option.map_eq_none_iff.1 e); omega
        · exact Classical.byContradiction fun hn => by have := h6 fun e => hn (Option.map_eq_none_iff.1 e); omega
      · rintro ⟨h1, h2⟩
        refine ⟨fun hn => ?_, fun hn hv' => hn (Option.map_eq_none_iff.2 (hc hv')), fun hn hv' => hn (Option.map_eq_none_iff.2 (hs hv')), fun hn hv' => hn (Option.map_eq_none_iff.2 (ho hv')), fun hn => ?_, fun hn => ?_⟩
        · exact Classical.byContradiction fun hv' => hn (Option.map_eq_none_iff.2 (h1 (by omega)))
        · exact Classical.byContradiction fun hv' => hn (Option.map_eq_none_iff.2 (h2 (by omega)).1)
        · exact Classical.byContradiction fun hv' => hn (Option.map_eq_none_iff.2 (h2 (by omega)).2)
  have he : sectSaved f .editor = sectEntries f .editor ↔ ∀ g, f.editor = some g → f.version ≠ 10 → g .currentTime = none := by
    rw [sectSaved, sectEntries]
    cases f.editor with
    | none => simp
    | some g =>
      simp only [Option.map_some, Option.getD_some, savedFields_eq, editorView, List.forall_mem_cons, always, implies_true, true_and,
        List.not_mem_nil, false_implies, and_true, ne_eq, Option.map_eq_none_iff, Option.some.injEq, forall_eq']
      constructor
      · exact fun h hv => Classical.byContradiction fun hn => hv (h fun e => hn (Option.map_eq_none_iff.1 e))
      · exact fun h hn => Classical.byContradiction fun hv => hn (Option.map_eq_none_iff.2 (h hv))
  have hev : sectSaved f .events = sectEntries f .events ↔
      (f.version = 14 → ∀ es, f.events = some es → ∀ c, Event.colourTransformation c ∉ es) := by
    rw [sectSaved, sectEntries]
    cases f.events with
    | none => simp
    | some es =>
      simp only [Option.map_some, Option.getD_some, eventEntries_filter_eq, Option.some.injEq, forall_eq']
      constructor
      · intro h hv' c hc
        have := h _ hc
        simp only [writtenIn, decide_eq_true_eq] at this
        omega
      · intro h e he
        cases e with
        | colourTransformation c =>
          simp only [writtenIn, decide_eq_true_eq]
          exact Classical.byContradiction fun hn => h (by omega) c he
        | _ => rfl
  have hm : sectSaved f .metadata = sectEntries f .metadata := by
    rw [sectSaved, sectEntries]
    cases f.metadata with
    | none => rfl
    | some g => exact (savedFields_eq _ _).2 (by simp [metadataView, always])
  have hd : sectSaved f .difficulty = sectEntries f .difficulty := by
    rw [sectSaved, sectEntries]
    cases f.difficulty with
    | none => rfl
    | some g => exact (savedFields_eq _ _).2 (by simp [difficultyView, always])
  rw [← hg, ← he, ← hev]
  constructor
  · exact fun h => ⟨h _, h _, h _⟩
  · rintro ⟨h1, h2, h3⟩ n
    cases n
    · exact h1
    · exact h2
    · exact hm
    · exact hd
    · exact h3
    · rfl
    · rfl
    · rfl

/-- C97: if the headers of the sections stand on lines of their own, the saved text has no more lines than the text that was loaded has
rows. -/
theorem C97_not_longer {s ws num r rest t : Str} {pre : List Str} {xs : List Sect} {f : OsuFile D} (hv : Versioned s ws num r)
    (hl : Layout r pre xs rest) (ha : ∀ x ∈ xs, '\n' ∈ x.ws2) (h : OsuFile.parse s = .ok f) (ht : f.shw = some t) :
    lineCount t ≤ rowCount s := by
  obtain ⟨-, -, hf⟩ := parse_layout' hv hl h
  obtain ⟨⟨bom, -, rfl⟩, -, -, -, hrb⟩ := hv
  obtain ⟨-, -, -, h4, h5⟩ := hf
  have h7 : rowCount r < rowCount (ws ++ bom ++ c!"osu file format v" ++ num ++ r) := by
    have hb : 1 ≤ rowCount (ws ++ bom ++ c!"osu file format v" ++ num) := rowCount_pos fun h => by
      have := h 'o' (by simp)
      exact absurd this (by decide)
    have hc : ∀ c r', isBreak c = true → r = c :: r' → rowCount r < rowCount (ws ++ bom ++ c!"osu file format v" ++ num ++ r) := by
      rintro c r' hc rfl
      rw [rowCount_break hc]
      have := rowCount_break hc [] r'
      rw [rowCount_nil, List.nil_append] at this
      omega
    rcases hrb with rfl | ⟨r', e | e⟩
    · rw [rowCount_nil, List.append_nil]; omega
    · exact hc _ r' (by decide) e
    · exact hc _ r' (by decide) e
  have hrows : (xs.map fun x => 1 + rowCount x.body).sum ≤ rowCount r := by
    obtain ⟨ls, h1, -, -, h4⟩ := hl
    exact Nat.le_trans (sections_rows_alone h4 ha) (rowCount_lines_drop r pre ls h1)
  have hb := sum_backed SName.text Sect.name (fun n => (hasSect f n).toNat + sectSaved f n) (fun x : Sect => 1 + rowCount x.body) allNames xs
    (by decide) fun n _ => by
      by_cases hn : n.text ∈ xs.map Sect.name
      · obtain ⟨x, hx, e⟩ := List.mem_map.1 hn
        obtain ⟨-, m, hm, hr⟩ := h4 x hx
        have := SName.text_inj (hm.trans e)
        subst this
        refine .inr ⟨x, hx, hm.symm, ?_⟩
        have h1 := sectEntries_read hr
        have h2 := sectSaved_le f m
        have h3 : (hasSect f m).toNat ≤ 1 := by cases hasSect f m <;> decide
        omega
      · left
        have ha := h5 n hn
        have h1 := sectEntries_absent ha
        have h2 := sectSaved_le f n
        have h3 : (hasSect f n).toNat = 0 := by rw [hasSect_absent ha]; rfl
        show _ + _ = 0
        omega
  have hs : (allNames.map fun n => (hasSect f n).toNat + sectSaved f n).sum = sectionCount f + savedEntries f := by
    rw [hasSect_sum, sectSaved_sum]
    simp only [allNames, List.map_cons, List.map_nil, List.sum_cons, List.sum_nil]
    omega
  rw [C97_file _ t f h ht]
  omega

end

section
attribute [local instance] asciiUni

/-- A file that says more than its version writes. -/
abbrev hashFile : Str := c!"osu file format v14\n\n[General]\nMode: 1\nAudioHash: x\n[Events]\n3,1,2,3,4\n0,0,a.png\n L,1,2\n  S,0,3,,1"

/-- The text that is written for it. -/
abbrev hashSaved : Str := c!"osu file format v14\n\n[General]\nMode: 1\n\n[Events]\n0,0,a.png\n L,1,2\n  S,0,3,,1"

theorem hashFile_read : ∃ f : OsuFile Dec96, OsuFile.parse hashFile = .ok f ∧ f.shw = some hashSaved ∧ sectionCount f = 2 ∧ fileEntries f = 6 :=
  ⟨_, rfl, rfl, rfl, rfl⟩

example : ∃ f : OsuFile Dec96, OsuFile.parse hashFile = .ok f ∧ savedEntries f = 4 := by
  obtain ⟨f, h1, h2, h3, -⟩ := hashFile_read
  have h := C97_file _ _ f h1 h2
  rw [show lineCount hashSaved = 7 by decide, h3] at h
  exact ⟨f, h1, by omega⟩

example : ∃ f : OsuFile Dec96, OsuFile.parse hashFile = .ok f ∧ ∃ g, f.general = some g ∧ g .audioHash = some c!"x" ∧
    savedEntries f ≠ fileEntries f := by
  obtain ⟨f, h1, h2⟩ : ∃ f : OsuFile Dec96, OsuFile.parse hashFile = .ok f ∧ f.version = 14 ∧ ∃ g, f.general = some g ∧ g .audioHash = some c!"x" :=
    ⟨_, rfl, rfl, _, rfl, rfl⟩
  obtain ⟨hv, g, h3, h4⟩ := h2
  refine ⟨f, h1, g, h3, h4, fun e => ?_⟩
  have := (((C97_all _ f h1).1 e).1 g h3).1 hv
  rw [h4] at this
  cases this

example : lineCount hashSaved ≤ rowCount hashFile := by
  obtain ⟨f, h1, h2, -⟩ := hashFile_read
  refine C97_not_longer (s := hashFile) (ws := []) (num := c!"14") (pre := [[], []])
    (xs := [⟨[], c!"General", ['\n'], c!"Mode: 1\nAudioHash: x"⟩, ⟨['\n'], c!"Events", ['\n'], c!"3,1,2,3,4\n0,0,a.png\n L,1,2\n  S,0,3,,1"⟩])
    (rest := []) ⟨⟨[], .inl rfl, rfl⟩, nofun, by decide, by decide, .inr ⟨_, .inr rfl⟩⟩ (layout_iff.2 ⟨by decide, sections_iff.1 (by decide)⟩) ?_ h1 h2
  decide

/-- C97: it is false that a saved file never has more lines than the text that was loaded: a header can share its line. -/
theorem C97_false : ∃ (s t : Str) (f : OsuFile Dec96), OsuFile.parse s = .ok f ∧ f.shw = some t ∧ rowCount s < lineCount t :=
  ⟨c!"osu file format v14\n[General]Mode: 1", _, _, rfl, rfl, by decide⟩

end
end Osu
