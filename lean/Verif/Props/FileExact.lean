/-
C41, exactly: which file values are read back unchanged from the text written for them.
-/
import Verif.Proof.FileExact

namespace Osu
open Parser Ev

section
variable {D : Type} [DecLib D] [UniLib]

/-- A file value that survives being written and read: a known version, no storyboard file, no section that is written as an
empty text, every field and item can be written in the version and is read back from its own line, and the lines of timing
points and hit objects do not look like blanks or like the header of a section. -/
structure FileSurvives (f : OsuFile D) : Prop where
  version : 3 ≤ f.version ∧ f.version ≤ 14
  osb : f.osb = none
  general : ∀ x, f.general = some x → (General D).toStr f.version x ≠ [] ∧
    ∀ k y, x k = some y → GKey.OK k y ∧ GKey.existsIn f.version k y = true
  editor : ∀ x, f.editor = some x → (Editor D).toStr f.version x ≠ [] ∧
    ∀ k y, x k = some y → EKey.OK k y ∧ EKey.existsIn f.version k y = true
  metadata : ∀ x, f.metadata = some x → Metadata.toStr f.version x ≠ [] ∧ ∀ k y, x k = some y → MKey.OK k y
  difficulty : ∀ x, f.difficulty = some x → (Difficulty D).toStr f.version x ≠ [] ∧ ∀ k y, x k = some y → DecOK y
  events : ∀ x, f.events = some x → x ≠ [] ∧ ∀ e ∈ x, EvFits f.version e ∧ ∀ p, pathOf e = some p → PathPlain p
  timingPoints : ∀ x, f.timingPoints = some x → x ≠ [] ∧
    (∀ t ∈ x, TPSurvives f.version t ∧ '\n' ∉ t.time.text ∧ '\n' ∉ t.beatLength.text) ∧ StartsOK (x.map TimingPoint.time)
  colours : ∀ x, f.colours = some x → x ≠ [] ∧ 5 ≤ f.version ∧ ∀ c ∈ x, ColourWritable c
  hitobjects : ∀ x, f.hitobjects = some x → x ≠ [] ∧ (∀ o ∈ x, HOSurvives f.version o ∧ ∀ t ∈ o.texts, '\n' ∉ t) ∧
    StartsOK (x.map fun o => o.position.x)

/-- The items of a section whose text can stand in a file. -/
theorem starts_of_well {E α : Type} {g : Str → Res E α} {lead : α → Decimal D} (hf : ∀ l a, g l = .ok a → LeadOf l (lead a))
    {l : List α} {t : Str} (hw : WellText t) (hcr : CleanEnds t) (hr : parseLines g t = .ok l) :
    l ≠ [] ∧ StartsOK (l.map lead) := by
  refine items_start_of hf hcr hw.head hw.noBracket (fun u rest eb hu hr' => ?_) hw.ne_nil hr
  obtain ⟨ls, e, hne, hl, -, -⟩ := hw
  obtain ⟨x, xs, rfl⟩ := List.exists_cons_of_ne_nil hne
  have hx := hl x (by simp)
  have : ∃ z, t = x ++ z ∧ AtEnd z := by
    cases xs with
    | nil => exact ⟨[], by rw [e]; simp [join], .inl rfl⟩
    | cons y ys => exact ⟨_, by rw [e, join_cons_cons, List.append_assoc]; rfl, .inr ⟨_, rfl⟩⟩
  obtain ⟨z, e', hz⟩ := this
  obtain ⟨rfl, -⟩ := line_unique hu hx.lf hr' hz (eb.symm.trans e')
  exact hx.nb

/-- A section of a file value that survives is read back from the text written for it, if no line of it ends in a carriage return. -/
theorem survives_sect {f : OsuFile D} {n : SName} {t : Str} (hpn : SectPrints f (some t) n) (hct : CleanEnds t) (h : FileSurvives f) :
    WellText t ∧ SectReads f.version f t n := by
  cases n
  case general =>
    obtain ⟨sec, hs, rfl⟩ := Option.map_eq_some_iff.1 (show some t = f.general.map _ from hpn).symm
    obtain ⟨h1, h2⟩ := h.general sec hs
    exact ⟨Schema.wellText (General_lawful D) general_bracket (fun k x t hx ht => (GKey.field _ k x t (h2 k x hx).1 ht).1) h1,
      sec, (C04_general_iff _ _).2 h2, hs⟩
  case editor =>
    obtain ⟨sec, hs, rfl⟩ := Option.map_eq_some_iff.1 (show some t = f.editor.map _ from hpn).symm
    obtain ⟨h1, h2⟩ := h.editor sec hs
    exact ⟨Schema.wellText (Editor_lawful D) editor_bracket (fun k x t hx ht => (EKey.field _ k x t (h2 k x hx).1 ht).1) h1,
      sec, (C04_editor_iff _ _).2 h2, hs⟩
  case metadata =>
    obtain ⟨sec, hs, rfl⟩ := Option.map_eq_some_iff.1 (show some t = f.metadata.map _ from hpn).symm
    obtain ⟨h1, h2⟩ := h.metadata sec hs
    exact ⟨Schema.wellText Metadata_lawful metadata_bracket (fun k x t hx ht => (MKey.field _ k x t (h2 k x hx) ht).1) h1,
      sec, (C04_metadata_iff _ _).2 h2, hs⟩
  case difficulty =>
    obtain ⟨sec, hs, rfl⟩ := Option.map_eq_some_iff.1 (show some t = f.difficulty.map _ from hpn).symm
    obtain ⟨h1, h2⟩ := h.difficulty sec hs
    exact ⟨Schema.wellText (Difficulty_lawful D) difficulty_bracket (fun k x t hx ht => by cases ht; exact DecOK.good (h2 k x hx)) h1,
      sec, (C04_difficulty_iff _ _).2 h2, hs⟩
  case events =>
    rcases hpn with ⟨-, h1⟩ | ⟨x, t', hx, ht, h1⟩
    · cases h1
    cases h1
    obtain ⟨h1, h2⟩ := h.events x hx
    obtain ⟨t', g1, g2, ls, g3, g4, g5⟩ := events_round_trip_fits (fun e hm => (h2 e hm).1) (fun _ s hs => by rw [show Events.shw f.version x = some s from hs] at ht; cases ht; exact hct)
    rw [ht] at g1; cases g1
    refine ⟨events_wellText g2 g3 g4 ?_, x, (C35_iff ht hct).2 h2, hx⟩
    rintro rfl
    exact h1 (g5.1 rfl)
  case timingPoints =>
    rcases hpn with ⟨-, h1⟩ | ⟨x, t', hx, ht, h1⟩
    · cases h1
    cases h1
    obtain ⟨h1, h2, h3⟩ := h.timingPoints x hx
    have hit : ∀ a ∈ x, ∀ s, a.shw f.version = some s → ItemLine a.time s := fun a ha s hs =>
      tp_item hs (h2 a ha).2 (items_noEndCR ht hct a ha s hs)
    refine ⟨lines_wellText (lead := TimingPoint.time) (fun a ha s hs => ⟨(hit a ha s hs).line, (hit a ha s hs).start⟩) h3 h1 ht, x, ?_, hx⟩
    obtain ⟨t', g1, g2⟩ := C16_exact.2 ⟨h2, fun h3 a ha hm => by
      obtain ⟨s, hs, -⟩ := C15_exact.2 (h2 a (List.dropLast_subset _ ha)).1
      exact (hit a (List.dropLast_subset _ ha) s hs).line.cr ((tp_line_cr hs).2 ⟨h3, hm⟩)⟩
    rw [ht] at g1; cases g1
    exact g2
  case colours =>
    obtain ⟨x, hx, ht⟩ := Option.bind_eq_some_iff.1 (show some t = f.colours.bind (Colours.shw f.version) from hpn).symm
    obtain ⟨h1, h2, h3⟩ := h.colours x hx
    obtain ⟨t', g1, g2⟩ := (C12_colours_iff f.version x).2 ⟨by omega, h3⟩
    rw [ht] at g1; cases g1
    exact ⟨colours_wellText ht h1, some x, g2, hx⟩
  case hitobjects =>
    rcases hpn with ⟨-, h1⟩ | ⟨x, t', hx, ht, h1⟩
    · cases h1
    cases h1
    obtain ⟨h1, h2, h3⟩ := h.hitobjects x hx
    obtain ⟨t', g1, g2⟩ := C21_exact.2 ⟨h2, fun a ha hm => by
      obtain ⟨s, hs, -⟩ := C20_exact.2 (h2 a (List.dropLast_subset _ ha)).1
      exact items_noEndCR ht hct a (List.dropLast_subset _ ha) s hs ((ho_last hs (h2 a (List.dropLast_subset _ ha)).1).2 hm)⟩
    rw [ht] at g1; cases g1
    have hit : ∀ a ∈ x, ∀ s, a.shw f.version = some s → ItemLine a.position.x s := fun a ha s hs => by
      obtain ⟨l, hl, -, hf⟩ := parseLines_mem g2 a ha
      have hlf := noC_mem.1 (lines_noLF _ l hl)
      exact ho_item hs (fun t ht h => hlf (ho_texts hf (by decide) ht h)) (items_noEndCR ht hct a ha s hs)
    exact ⟨lines_wellText (lead := fun o : HitObject D => o.position.x) (fun a ha s hs => ⟨(hit a ha s hs).line, (hit a ha s hs).start⟩) h3 h1 ht, x, g2, hx⟩

/-- A file value that survives is read back from the text written for it, if no line of a section ends in a carriage return. -/
theorem survives_back {f : OsuFile D} {p : SName → Option Str} (hp : ∀ n, SectPrints f (p n) n) (hpt : ∀ n t, p n = some t → CleanEnds t)
    (h : FileSurvives f) : ∃ s, f.shw = some s ∧ OsuFile.parse s = .ok f := by
  have key : ∀ n t, p n = some t → WellText t ∧ SectReads f.version f t n := fun n t hn => survives_sect (hn ▸ hp n) (hpt n t hn) h
  exact read_back (g := f) h.version hp key (fun n hn => by
    have hpn := hp n
    rw [hn] at hpn
    cases n
    case general => exact Option.map_eq_none_iff.1 (show none = f.general.map _ from hpn).symm
    case editor => exact Option.map_eq_none_iff.1 (show none = f.editor.map _ from hpn).symm
    case metadata => exact Option.map_eq_none_iff.1 (show none = f.metadata.map _ from hpn).symm
    case difficulty => exact Option.map_eq_none_iff.1 (show none = f.difficulty.map _ from hpn).symm
    case events =>
      rcases hpn with ⟨h1, -⟩ | ⟨x, t', hx, ht, h1⟩
      · exact h1
      · cases h1
    case timingPoints =>
      rcases hpn with ⟨h1, -⟩ | ⟨x, t', hx, ht, h1⟩
      · exact h1
      · cases h1
    case colours =>
      show f.colours = none
      cases hx : f.colours with
      | none => rfl
      | some x =>
        exfalso
        obtain ⟨-, h5, -⟩ := h.colours x hx
        have hpn : none = f.colours.bind (Colours.shw f.version) := hpn
        rw [hx, Option.bind_some, Colours.shw, if_neg (by omega)] at hpn
        cases hpn
    case hitobjects =>
      rcases hpn with ⟨h1, -⟩ | ⟨x, t', hx, ht, h1⟩
      · exact h1
      · cases h1) rfl h.osb

/-- A file value written as a text no line of which ends in a carriage return is read back unchanged from it exactly if it survives. -/
theorem C41_iff {f : OsuFile D} {s : Str} (hs : f.shw = some s) (hcr : CleanEnds s) : OsuFile.parse s = .ok f ↔ FileSurvives f := by
  obtain ⟨p, hp, e⟩ := shw_iff.1 hs
  have hpt : ∀ n t, p n = some t → CleanEnds t := fun n t hn =>
    blocks_cleanEnds (CleanEnds.suffix (a := _) (show CleanEnds (_ ++ _) from e ▸ hcr)) (n.text, t) (listed_mem.2 ⟨n, hn, rfl⟩)
  constructor
  · intro h
    have hwell := file_well hp e hcr h
    obtain ⟨-, num, -, -, -, -, -, hk, -⟩ := (C53_exact s f).1 h
    have hv : 3 ≤ f.version ∧ f.version ≤ 14 := hk.2
    have h' := h
    rw [e, blocks_read hwell (fun b hb => by
      obtain ⟨n, -, hn⟩ := listed_mem.1 hb
      rw [← hn]; exact n.nameOK) (known_nat hv)] at h'
    obtain ⟨-, hosb, -, hread, habs⟩ := h'
    have key : ∀ n, (∃ t, p n = some t ∧ WellText t ∧ SectReads f.version f t n) ∨ (p n = none ∧ SectAbsent f n) := by
      intro n
      cases hn : p n with
      | some t =>
        have hb : (n.text, t) ∈ listed p := listed_mem.2 ⟨n, hn, rfl⟩
        obtain ⟨m, hm, hr⟩ := hread _ hb
        have := SName.text_inj hm
        subst this
        exact .inl ⟨t, rfl, hwell _ hb, hr⟩
      | none =>
        refine .inr ⟨rfl, habs n fun hm => ?_⟩
        obtain ⟨b, hb, e⟩ := List.mem_map.1 hm
        obtain ⟨m, h1, h2⟩ := listed_mem.1 hb
        have := SName.text_inj (h2.trans e)
        subst this
        rw [hn] at h1; cases h1
    refine ⟨hv, hosb, ?_, ?_, ?_, ?_, ?_, ?_, ?_, ?_⟩
    · intro x hx
      rcases key .general with ⟨t, h1, h2, y, h3, h4⟩ | ⟨-, h1⟩
      · have h5 := hp .general
        rw [hx] at h4; cases h4
        simp only [SectPrints, h1, hx, Option.map_some, Option.some.injEq] at h5
        subst h5
        exact ⟨h2.ne_nil, (C04_general_iff _ _).1 h3⟩
      · rw [show f.general = none from h1] at hx; cases hx
    · intro x hx
      rcases key .editor with ⟨t, h1, h2, y, h3, h4⟩ | ⟨-, h1⟩
      · have h5 := hp .editor
        rw [hx] at h4; cases h4
        simp only [SectPrints, h1, hx, Option.map_some, Option.some.injEq] at h5
        subst h5
        exact ⟨h2.ne_nil, (C04_editor_iff _ _).1 h3⟩
      · rw [show f.editor = none from h1] at hx; cases hx
    · intro x hx
      rcases key .metadata with ⟨t, h1, h2, y, h3, h4⟩ | ⟨-, h1⟩
      · have h5 := hp .metadata
        rw [hx] at h4; cases h4
        simp only [SectPrints, h1, hx, Option.map_some, Option.some.injEq] at h5
        subst h5
        exact ⟨h2.ne_nil, (C04_metadata_iff _ _).1 h3⟩
      · rw [show f.metadata = none from h1] at hx; cases hx
    · intro x hx
      rcases key .difficulty with ⟨t, h1, h2, y, h3, h4⟩ | ⟨-, h1⟩
      · have h5 := hp .difficulty
        rw [hx] at h4; cases h4
        simp only [SectPrints, h1, hx, Option.map_some, Option.some.injEq] at h5
        subst h5
        exact ⟨h2.ne_nil, (C04_difficulty_iff _ _).1 h3⟩
      · rw [show f.difficulty = none from h1] at hx; cases hx
    · intro x hx
      rcases key .events with ⟨t, h1, h2, y, h3, h4⟩ | ⟨-, h1⟩
      · have h5 := hp .events
        rw [hx] at h4; cases h4
        rcases h5 with ⟨h5, -⟩ | ⟨y, t', h5, h6, h7⟩
        · rw [hx] at h5; cases h5
        · rw [hx] at h5; cases h5
          rw [h1] at h7; cases h7
          refine ⟨?_, (C35_iff h6 (hpt _ _ h1)).1 h3⟩
          rintro rfl
          exact h2.ne_nil (by cases h6; rfl)
      · rw [show f.events = none from h1] at hx; cases hx
    · intro x hx
      rcases key .timingPoints with ⟨t, h1, h2, y, h3, h4⟩ | ⟨-, h1⟩
      · have h5 := hp .timingPoints
        rw [hx] at h4; cases h4
        rcases h5 with ⟨h5, -⟩ | ⟨y, t', h5, h6, h7⟩
        · rw [hx] at h5; cases h5
        · rw [hx] at h5; cases h5
          rw [h1] at h7; cases h7
          obtain ⟨g1, g2⟩ := starts_of_well (lead := TimingPoint.time) (fun _ _ => tp_lead) h2 (hpt _ _ h1) h3
          exact ⟨g1, (C16_exact.1 ⟨t, h6, h3⟩).1, g2⟩
      · rw [show f.timingPoints = none from h1] at hx; cases hx
    · intro x hx
      rcases key .colours with ⟨t, h1, h2, y, h3, h4⟩ | ⟨-, h1⟩
      · have h5 := hp .colours
        rw [hx] at h4; subst h4
        simp only [SectPrints, h1, hx, Option.bind_some] at h5
        obtain ⟨g1, g2⟩ := (C12_colours_iff _ _).1 ⟨t, h5.symm, h3⟩
        refine ⟨?_, by omega, g2⟩
        rintro rfl
        refine h2.ne_nil ?_
        have h5 := h5.symm
        rw [Colours.shw, if_neg g1] at h5
        cases h5; rfl
      · rw [show f.colours = none from h1] at hx; cases hx
    · intro x hx
      rcases key .hitobjects with ⟨t, h1, h2, y, h3, h4⟩ | ⟨-, h1⟩
      · have h5 := hp .hitobjects
        rw [hx] at h4; cases h4
        rcases h5 with ⟨h5, -⟩ | ⟨y, t', h5, h6, h7⟩
        · rw [hx] at h5; cases h5
        · rw [hx] at h5; cases h5
          rw [h1] at h7; cases h7
          obtain ⟨g1, g2⟩ := starts_of_well (lead := fun o : HitObject D => o.position.x) (fun _ _ => ho_lead) h2 (hpt _ _ h1) h3
          exact ⟨g1, (C21_exact.1 ⟨t, h6, h3⟩).1, g2⟩
      · rw [show f.hitobjects = none from h1] at hx; cases hx
  · intro h
    obtain ⟨s', hs', hp'⟩ := survives_back hp hpt h
    rw [hs] at hs'; cases hs'
    exact hp'

/-- A file whose second timing point has a time that looks like the header of a section is not read back. -/
example {f : OsuFile D} {s : Str} (hs : f.shw = some s) (hcr : CleanEnds s) {a b : TimingPoint D} (hf : f.timingPoints = some [a, b])
    (hb : b.time = .right c!"[Events]") : OsuFile.parse s ≠ .ok f := by
  rw [Ne, C41_iff hs hcr]
  intro h
  have := (h.timingPoints _ hf).2.2.2 b.time (by simp)
  rw [hb] at this
  exact this rfl

/-- A file with a section that is there but has no fields is not read back. -/
example {f : OsuFile D} {s : Str} (hs : f.shw = some s) (hcr : CleanEnds s) (hf : f.metadata = some fun _ => none) : OsuFile.parse s ≠ .ok f := by
  rw [Ne, C41_iff hs hcr]
  intro h
  exact (h.metadata _ hf).1 rfl

end

section
attribute [local instance] asciiUni

/-- A file that survives. -/
example : FileSurvives exampleFile := by
  obtain ⟨s, hs, hp⟩ := C41_round_trip exampleFile_ok
  refine (C41_iff hs (cleanEnds_of_noCR ?_)).1 hp
  have : exampleFile.shw.any (fun s => s.contains '\r') = false := by decide
  rw [hs] at this
  simpa using this

/-- A file with a carriage return in the middle of a line. -/
private def crFile : OsuFile Dec96 := ⟨14, none, none, none, none, none, some [.comment c!"a\rb"], none, none, none⟩

example : FileSurvives crFile ∧ OsuFile.parse c!"osu file format v14\n\n[Events]\n//a\rb" = .ok crFile :=
  have hs : crFile.shw = some c!"osu file format v14\n\n[Events]\n//a\rb" := by rfl
  have hp : OsuFile.parse c!"osu file format v14\n\n[Events]\n//a\rb" = .ok crFile := by rfl
  ⟨(C41_iff hs (cleanEndsB_ok (by decide))).1 hp, hp⟩

end

end Osu
