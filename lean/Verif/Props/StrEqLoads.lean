/-
C83: what the comparison of texts says about the values loaded from them.
-/
import Verif.Proof.StrEqEvents
import Verif.Props.FieldTables
import Verif.Props.Resave
import Verif.Props.TimingPoints
import Verif.Props.HitObjects

namespace Osu
open Parser Ev Trimmer

section
variable {D : Type} [DecLib D]

/-- Two texts accepted as `[General]` sections and not told apart: the same fields, each the same up to blanks. -/
theorem C83_general {v : Nat} {s t : Str} {x y : (General D).Section} (hx : (General D).fromStr v s = .ok x)
    (hy : (General D).fromStr v t = .ok y) (hs : CrLf s) (ht : CrLf t) (h : SameLines (cleanLines s) (cleanLines t)) :
    ViewSame (generalView x) (generalView y) := by
  obtain ⟨es, r, h1, h2, h3⟩ := (C79_general_read v s x).1 hx
  obtain ⟨es', r', g1, g2, g3⟩ := (C79_general_read v t y).1 hy
  exact views_same (T := (generalView x).map Prod.fst) (by show ∀ f ∈ _, _; simp only [generalView, List.map_cons, List.map_nil]; decide) rfl rfl h3 g3 (entries_ws h1.1) (entries_ws g1.1)
    (kv_perm h1 g1 hs ht h2 g2 h)

/-- The same for `[Editor]`. -/
theorem C83_editor {v : Nat} {s t : Str} {x y : (Editor D).Section} (hx : (Editor D).fromStr v s = .ok x)
    (hy : (Editor D).fromStr v t = .ok y) (hs : CrLf s) (ht : CrLf t) (h : SameLines (cleanLines s) (cleanLines t)) :
    ViewSame (editorView x) (editorView y) := by
  obtain ⟨es, r, h1, h2, h3⟩ := (C79_editor_read v s x).1 hx
  obtain ⟨es', r', g1, g2, g3⟩ := (C79_editor_read v t y).1 hy
  exact views_same (T := (editorView x).map Prod.fst) (by show ∀ f ∈ _, _; simp only [editorView, List.map_cons, List.map_nil]; decide) rfl rfl h3 g3 (entries_ws h1.1) (entries_ws g1.1)
    (kv_perm h1 g1 hs ht h2 g2 h)

variable (D) in
/-- The same for `[Metadata]`. -/
theorem C83_metadata {v : Nat} {s t : Str} {x y : Metadata.Section} (hx : Metadata.fromStr v s = .ok x)
    (hy : Metadata.fromStr v t = .ok y) (hs : CrLf s) (ht : CrLf t) (h : SameLines (cleanLines s) (cleanLines t)) :
    ViewSame (metadataView D x) (metadataView D y) := by
  obtain ⟨es, r, h1, h2, h3⟩ := (C79_metadata_read D v s x).1 hx
  obtain ⟨es', r', g1, g2, g3⟩ := (C79_metadata_read D v t y).1 hy
  exact views_same (T := (metadataView D x).map Prod.fst) (by show ∀ f ∈ _, _; simp only [metadataView, List.map_cons, List.map_nil]; decide) rfl rfl h3 g3 (entries_ws h1.1) (entries_ws g1.1)
    (kv_perm h1 g1 hs ht h2 g2 h)

/-- The same for `[Difficulty]`. -/
theorem C83_difficulty {v : Nat} {s t : Str} {x y : (Difficulty D).Section} (hx : (Difficulty D).fromStr v s = .ok x)
    (hy : (Difficulty D).fromStr v t = .ok y) (hs : CrLf s) (ht : CrLf t) (h : SameLines (cleanLines s) (cleanLines t)) :
    ViewSame (difficultyView x) (difficultyView y) := by
  obtain ⟨es, r, h1, h2, h3⟩ := (C79_difficulty_read v s x).1 hx
  obtain ⟨es', r', g1, g2, g3⟩ := (C79_difficulty_read v t y).1 hy
  exact views_same (T := (difficultyView x).map Prod.fst) (by show ∀ f ∈ _, _; simp only [difficultyView, List.map_cons, List.map_nil]; decide) rfl rfl h3 g3 (entries_ws h1.1) (entries_ws g1.1)
    (kv_perm h1 g1 hs ht h2 g2 h)

/-- Timing points: the same up to blanks, in the same order unless every line has a colon. -/
theorem C83_timing_points {v : Nat} {s t : Str} {x y : List (TimingPoint D)} (hx : TimingPoints.parse v s = .ok x)
    (hy : TimingPoints.parse v t = .ok y) (h : SameLines (cleanLines s) (cleanLines t)) :
    EachPerm (PointSame v) x y ∧ ((∃ l ∈ cleanLines s, ':' ∉ l) → Each (PointSame v) x y) := by
  refine lines_same (parsed_each hx) (parsed_each hy) ?_ ?_ h
  · intro l c hl
    exact cleanLine_mem (c := ',') (by decide) (by decide) (comma_of_pieces (tpReads_comma (TimingPoint.parse_iff.1 hl)))
  · intro l l' c c' hl hl' e
    exact tp_same (TimingPoint.parse_iff.1 hl) (TimingPoint.parse_iff.1 hl') (e.pieces (by decide) (by decide))

/-- Hit objects: the same up to blanks, in the same order unless every line has a colon. -/
theorem C83_hit_objects {v : Nat} {s t : Str} {x y : List (HitObject D)} (hx : HitObjects.parse v s = .ok x)
    (hy : HitObjects.parse v t = .ok y) (h : SameLines (cleanLines s) (cleanLines t)) :
    EachPerm (ObjectSame v) x y ∧ ((∃ l ∈ cleanLines s, ':' ∉ l) → Each (ObjectSame v) x y) := by
  refine lines_same (parsed_each hx) (parsed_each hy) ?_ ?_ h
  · intro l c hl
    exact cleanLine_mem (c := ',') (by decide) (by decide) (comma_of_pieces (hoReads_comma (HitObject.parse_iff.1 hl)))
  · intro l l' c c' hl hl' e
    exact object_same (HitObject.parse_iff.1 hl) (HitObject.parse_iff.1 hl') (e.pieces (by decide) (by decide))

end

/-- Colours: the same ones, in some order. -/
theorem C83_colours {v : Nat} {s t : Str} {x y : Option (List Colour)} (hx : Colours.parse v s = .ok x)
    (hy : Colours.parse v t = .ok y) (h : SameLines (cleanLines s) (cleanLines t)) : OptSame List.Perm x y := by
  unfold Colours.parse at hx hy
  split at hx <;> rename_i hv
  · rw [if_pos hv] at hy
    cases hx; cases hy; trivial
  · rw [if_neg hv] at hy
    obtain ⟨l, h1, h2⟩ := Res.bind_eq_ok'.1 hx
    obtain ⟨m, g1, g2⟩ := Res.bind_eq_ok'.1 hy
    cases h2; cases g2
    suffices EachPerm Eq l m by
      obtain ⟨z, hz, e⟩ := this
      cases e.eq; exact hz
    refine (lines_same (parsed_each h1) (parsed_each g1) ?_ ?_ h).1
    · intro l c hl
      have : ':' ∈ (trim l).filter fun c => !isWs c := List.mem_filter.2 ⟨colour_colon (Colour.ok_iff.1 hl), by decide⟩
      rw [filter_trim] at this
      exact cleanLine_mem (c := ':') (by decide) (by decide) (List.mem_filter.1 this).1
    · intro l l' c c' hl hl' e
      exact colour_same (Colour.ok_iff.1 hl) (Colour.ok_iff.1 hl') (by rw [bareText_trim, bareText_trim]; exact e)

section
variable {D : Type} [DecLib D] [UniLib]

/-- Events: the same lines up to blanks. Unless every line has a colon these are the same events in the same order, with the same
commands, up to which loops and triggers hold them. -/
theorem C83_events {v : Nat} {s t : Str} {x y : List (Event D)} (hx : Events.parse v s = .ok x) (hy : Events.parse v t = .ok y)
    (h : SameLines (cleanLines s) (cleanLines t)) :
    EachPerm RowSame (x.flatMap eventRows) (y.flatMap eventRows) ∧ ((∃ l ∈ cleanLines s, ':' ∉ l) → Each EventSame x y) := by
  obtain ⟨h1, h2⟩ := lines_same (section_rows (events_reads.1 hx)) (section_rows (events_reads.1 hy)) (fun _ _ => row_clean)
    (fun _ _ _ _ => row_same) h
  exact ⟨h1, fun hc => rows_events (h2 hc)⟩

/-! ### Whole files -/

omit [DecLib D] [UniLib] in
theorem crlf_append {a b : Str} (h : CrLf (a ++ b)) : CrLf b := fun x y e => h (a ++ x) y (by rw [e]; simp)

omit [DecLib D] [UniLib] in
theorem crlf_lines {s : Str} (h : CrLf s) : ∀ l ∈ lines s, '\r' ∉ l := by
  have key : ∀ s : Str, CrLf s → (∀ l ∈ (splitNL s).dropLast, '\r' ∉ l ∨ ∃ a, l = a ++ ['\r'] ∧ '\r' ∉ a) ∧
      ∀ l, (splitNL s).getLast? = some l → '\r' ∉ l := by
    intro s
    induction s with
    | nil => intro _; exact ⟨nofun, by rintro l h; cases h; simp⟩
    | cons c s ih =>
      intro h
      obtain ⟨i1, i2⟩ := ih (crlf_append (a := [c]) h)
      cases hs : splitNL s with
      | nil => exact absurd hs (splitNL_ne_nil s)
      | cons p ps =>
        rw [hs] at i1 i2
        by_cases hc : c = '\n'
        · subst hc
          have e : splitNL ('\n' :: s) = [] :: p :: ps := by rw [← hs]; rfl
          rw [e]
          refine ⟨?_, by simpa using i2⟩
          intro l hl
          rw [List.dropLast_cons_of_ne_nil (by simp)] at hl
          rcases List.mem_cons.1 hl with rfl | hl
          · exact .inl (by simp)
          · exact i1 l hl
        · have e : splitNL (c :: s) = (c :: p) :: ps := by
            rw [splitNL, if_neg (by simpa using hc), hs]
          rw [e]
          by_cases hr : c = '\r'
          · subst hr
            have hh := h [] s rfl
            cases s with
            | nil => cases hh
            | cons d s =>
              cases hh
              have e' : splitNL ('\n' :: s) = [] :: splitNL s := rfl
              rw [e'] at hs
              cases hs
              cases hps : splitNL s with
              | nil => exact absurd hps (splitNL_ne_nil s)
              | cons q qs =>
                rw [hps] at i1 i2
                refine ⟨?_, by simpa using i2⟩
                intro l hl
                rw [List.dropLast_cons_of_ne_nil (by simp)] at hl
                rcases List.mem_cons.1 hl with rfl | hl
                · exact .inr ⟨[], rfl, by simp⟩
                · exact i1 l (by rw [List.dropLast_cons_of_ne_nil (by simp)]; exact List.mem_cons_of_mem _ hl)
          · cases ps with
            | nil =>
              refine ⟨nofun, ?_⟩
              intro l hl
              cases hl
              have := i2 p rfl
              simp [this, Ne.symm hr]
            | cons q qs =>
              refine ⟨?_, by simpa using i2⟩
              intro l hl
              rw [List.dropLast_cons_of_ne_nil (by simp)] at hl i1
              rcases List.mem_cons.1 hl with rfl | hl
              · rcases i1 p (by simp) with h | ⟨a, rfl, ha⟩
                · exact .inl (by simp [h, Ne.symm hr])
                · exact .inr ⟨c :: a, rfl, by simp [ha, Ne.symm hr]⟩
              · exact i1 l (List.mem_cons_of_mem _ hl)
  obtain ⟨k1, k2⟩ := key s h
  unfold lines
  generalize splitNL s = ps at k1 k2
  induction ps with
  | nil => nofun
  | cons p ps ih =>
    cases ps with
    | nil =>
      intro l hl
      unfold linesOf at hl
      split at hl
      · cases hl
      · cases List.mem_singleton.1 hl
        exact k2 p rfl
    | cons q qs =>
      rw [List.dropLast_cons_of_ne_nil (by simp)] at k1
      intro l hl
      unfold linesOf at hl
      rcases List.mem_cons.1 hl with rfl | hl
      · rcases k1 p (by simp) with h | ⟨a, rfl, ha⟩
        · intro hm
          refine h ?_
          unfold stripCR at hm
          split at hm
          · exact List.dropLast_subset _ hm
          · exact hm
        · unfold stripCR
          simpa using ha
      · exact ih (fun l hl => k1 l (List.mem_cons_of_mem _ hl)) (fun l hl => k2 l (by simpa using hl)) l hl

omit [DecLib D] [UniLib] in
theorem sections_noCR {s r : Str} {xs : List Sect} (h : Sections s xs r) (hs : '\r' ∉ s) : ∀ x ∈ xs, '\r' ∉ x.body := by
  induction h with
  | nil => nofun
  | cons hw hn hw2 hb he h ih =>
    simp only [List.mem_append, List.mem_cons, not_or] at hs
    intro x hx
    rcases List.mem_cons.1 hx with rfl | hx
    · exact hs.2.2.2.2.2.1
    · exact ih hs.2.2.2.2.2.2 x hx

omit [DecLib D] [UniLib] in
theorem own_noCR {s num : Str} {xs : List Sect} (h : OwnLines s num xs) (hs : CrLf s) : ∀ x ∈ xs, CrLf x.body := by
  obtain ⟨ws, r, pre, ⟨⟨bom, -, rfl⟩, -⟩, -, ls, h1, -, -, h2⟩ := h.layout
  have hl := crlf_lines (crlf_append hs)
  rw [h1] at hl
  intro x hx a b e
  exfalso
  refine sections_noCR h2 ?_ x hx (by rw [e]; simp)
  intro hm
  rcases mem_join hm with hm | ⟨l, hl', hm⟩
  · exact absurd hm (by decide)
  · exact hl l (List.mem_append_right _ hl') hm

omit [DecLib D] [UniLib] in
theorem zip_same {xs ys : List Sect} (h : xs.map Sect.name = ys.map Sect.name)
    (hz : ∀ p ∈ xs.zip ys, SameLines (cleanLines p.1.body) (cleanLines p.2.body)) (k : Str) (hk : k ∈ xs.map Sect.name) :
    ∃ x ∈ xs, ∃ y ∈ ys, x.name = k ∧ y.name = k ∧ SameLines (cleanLines x.body) (cleanLines y.body) := by
  induction xs generalizing ys with
  | nil => cases hk
  | cons x xs ih =>
    cases ys with
    | nil => cases h
    | cons y ys =>
      simp only [List.map_cons, List.cons.injEq] at h
      by_cases e : x.name = k
      · exact ⟨x, by simp, y, by simp, e, h.1.symm.trans e, hz (x, y) (by simp)⟩
      · have hk : k ∈ xs.map Sect.name := by
          rcases List.mem_cons.1 hk with hk | hk
          · exact absurd hk.symm e
          · exact hk
        obtain ⟨a, ha, b, hb, h1⟩ := ih h.2 (fun p hp => hz p (List.mem_cons_of_mem _ hp)) hk
        exact ⟨a, List.mem_cons_of_mem _ ha, b, List.mem_cons_of_mem _ hb, h1⟩

/-- Two texts whose headers stand on lines of their own, both accepted and not told apart: the files are the same up to blanks, and
up to the order of lines in sections in which every line has a colon. -/
theorem C83_file {s t num num' : Str} {xs ys : List Sect} {f g : OsuFile D} (hs : OwnLines s num xs) (ht : OwnLines t num' ys)
    (hf : OsuFile.parse s = .ok f) (hg : OsuFile.parse t = .ok g) (hb : BomOK s) (hb' : BomOK t) (hc : CrLf s) (hc' : CrLf t)
    (h : osuStrEq s t = true) : FileSame (KeepsOrder xs) f g := by
  obtain ⟨v, hk, ⟨rfl, -, hnd, hrd, habs⟩, pre, hpre, hl⟩ := ownLines_reads hs hf
  obtain ⟨w, hk', ⟨hw, -, hnd', hrd', habs'⟩, pre', hpre', hl'⟩ := ownLines_reads ht hg
  have h := (eq_layouts hb hb' hl hl').1 h
  have hkp : ∀ (num : Str) (pre : List Str), keptPre (formatLine num :: pre) = [formatLine num] := by
    intro num pre
    have : c!"osu file format v" <+: formatLine num := ⟨num, rfl⟩
    simp only [keptPre]; rw [if_pos this]
  rw [hkp, hkp] at h
  obtain ⟨h1, h2⟩ := h
  have hnum : num = num' := by
    simp only [List.cons.injEq, and_true] at h1; exact List.append_cancel_left h1
  subst hnum
  have hv := uNumeral_eq hk.1 hk'.1
  subst hv
  have h2 : SameSections (xs.map fun x => (headerOf x.name, cleanLines x.body))
      ((ys.map fun y => (y.name, y.body)).map fun b => (headerOf b.1, cleanLines b.2)) := by
    rw [List.map_map]; exact h2
  obtain ⟨e, hz⟩ := (sameSections_zip xs (ys.map fun y => (y.name, y.body))).1 h2
  rw [List.map_map] at e
  have e : xs.map Sect.name = ys.map Sect.name := e
  have hz : ∀ p ∈ xs.zip ys, SameLines (cleanLines p.1.body) (cleanLines p.2.body) := by
    rintro ⟨x, y⟩ hp
    refine hz (x, (y.name, y.body)) ?_
    rw [List.zip_map_right]
    exact List.mem_map.2 ⟨_, hp, rfl⟩
  have crx := own_noCR hs hc
  have cry := own_noCR ht hc'
  have main : ∀ n : SName, (SectAbsent f n ∧ SectAbsent g n) ∨ ∃ x ∈ xs, ∃ y ∈ ys, x.name = n.text ∧ CrLf x.body ∧ CrLf y.body ∧
      SameLines (cleanLines x.body) (cleanLines y.body) ∧ SectReads f.version f x.body n ∧ SectReads f.version g y.body n := by
    intro n
    by_cases hn : n.text ∈ xs.map Sect.name
    · obtain ⟨x, hx, y, hy, e1, e2, e3⟩ := zip_same e hz n.text hn
      obtain ⟨-, m, em, hm⟩ := hrd x hx
      obtain ⟨-, m', em', hm'⟩ := hrd' y hy
      cases SName.text_inj (em.trans e1)
      cases SName.text_inj (em'.trans e2)
      exact .inr ⟨x, hx, y, hy, e1, crx x hx, cry y hy, e3, hm, hm'⟩
    · exact .inl ⟨habs n hn, habs' n (by rw [← e]; exact hn)⟩
  have ord : ∀ {n : SName} {x : Sect}, x ∈ xs → x.name = n.text → KeepsOrder xs n → ∃ l ∈ cleanLines x.body, ':' ∉ l := by
    rintro n x hx hn ⟨x', hx', hn', h⟩
    cases nodup_map_eq hnd hx hx' (hn.trans hn'.symm)
    exact h
  refine ⟨hw.symm, ?_, ?_, ?_, ?_, ?_, ?_, ?_, ?_⟩
  · rcases main .general with ⟨a, b⟩ | ⟨x, -, y, -, -, c1, c2, h, ⟨a, h1, e1⟩, ⟨b, h2, e2⟩⟩
    · rw [show f.general = none from a, show g.general = none from b]; trivial
    · rw [e1, e2]; exact C83_general h1 h2 c1 c2 h
  · rcases main .editor with ⟨a, b⟩ | ⟨x, -, y, -, -, c1, c2, h, ⟨a, h1, e1⟩, ⟨b, h2, e2⟩⟩
    · rw [show f.editor = none from a, show g.editor = none from b]; trivial
    · rw [e1, e2]; exact C83_editor h1 h2 c1 c2 h
  · rcases main .metadata with ⟨a, b⟩ | ⟨x, -, y, -, -, c1, c2, h, ⟨a, h1, e1⟩, ⟨b, h2, e2⟩⟩
    · rw [show f.metadata = none from a, show g.metadata = none from b]; trivial
    · rw [e1, e2]; exact C83_metadata D h1 h2 c1 c2 h
  · rcases main .difficulty with ⟨a, b⟩ | ⟨x, -, y, -, -, c1, c2, h, ⟨a, h1, e1⟩, ⟨b, h2, e2⟩⟩
    · rw [show f.difficulty = none from a, show g.difficulty = none from b]; trivial
    · rw [e1, e2]; exact C83_difficulty h1 h2 c1 c2 h
  · rcases main .events with ⟨a, b⟩ | ⟨x, hx, y, -, hn, -, -, h, ⟨a, h1, e1⟩, ⟨b, h2, e2⟩⟩
    · rw [show f.events = none from a, show g.events = none from b]; trivial
    · rw [e1, e2]; exact ⟨(C83_events h1 h2 h).1, fun o => (C83_events h1 h2 h).2 (ord hx hn o)⟩
  · rcases main .timingPoints with ⟨a, b⟩ | ⟨x, hx, y, -, hn, -, -, h, ⟨a, h1, e1⟩, ⟨b, h2, e2⟩⟩
    · rw [show f.timingPoints = none from a, show g.timingPoints = none from b]; trivial
    · rw [e1, e2]; exact ⟨(C83_timing_points h1 h2 h).1, fun o => (C83_timing_points h1 h2 h).2 (ord hx hn o)⟩
  · rcases main .colours with ⟨a, b⟩ | ⟨x, -, y, -, -, -, -, h, ⟨a, h1, e1⟩, ⟨b, h2, e2⟩⟩
    · rw [show f.colours = none from a, show g.colours = none from b]; trivial
    · rw [e1, e2]; exact C83_colours h1 h2 h
  · rcases main .hitobjects with ⟨a, b⟩ | ⟨x, hx, y, -, hn, -, -, h, ⟨a, h1, e1⟩, ⟨b, h2, e2⟩⟩
    · rw [show f.hitobjects = none from a, show g.hitobjects = none from b]; trivial
    · rw [e1, e2]; exact ⟨(C83_hit_objects h1 h2 h).1, fun o => (C83_hit_objects h1 h2 h).2 (ord hx hn o)⟩

end

section
attribute [local instance] asciiUni

private def okView {α β : Type} {E : Type} (r : Res E α) (f : α → β) : Option β := match r with | .ok a => some (f a) | _ => none

/-- Texts that are not told apart can differ in what is loaded from them: blanks inside a title. -/
theorem C83_false_title : ∃ s t : Str, osuStrEq s t = true ∧ ∃ f g : OsuFile Dec96, OsuFile.parse s = .ok f ∧ OsuFile.parse t = .ok g ∧
    f.metadata.map (fun m => m .title) = some (some c!"a b") ∧ g.metadata.map (fun m => m .title) = some (some c!"ab") := by
  refine ⟨c!"osu file format v14\n[Metadata]\nTitle:a b", c!"osu file format v14\n[Metadata]\nTitle:ab", by decide, ?_⟩
  obtain ⟨f, hf⟩ := Res.of_isOk (r := (OsuFile.parse c!"osu file format v14\n[Metadata]\nTitle:a b" : Res _ (OsuFile Dec96))) (by decide)
  obtain ⟨g, hg⟩ := Res.of_isOk (r := (OsuFile.parse c!"osu file format v14\n[Metadata]\nTitle:ab" : Res _ (OsuFile Dec96))) (by decide)
  refine ⟨f, g, hf, hg, ?_, ?_⟩
  · have : okView (OsuFile.parse c!"osu file format v14\n[Metadata]\nTitle:a b" : Res _ (OsuFile Dec96)) (fun f => f.metadata.map fun m => m .title) =
        some (some (some c!"a b")) := by rfl
    rw [hf] at this; exact Option.some.inj this
  · have : okView (OsuFile.parse c!"osu file format v14\n[Metadata]\nTitle:ab" : Res _ (OsuFile Dec96)) (fun f => f.metadata.map fun m => m .title) =
        some (some (some c!"ab")) := by rfl
    rw [hg] at this; exact Option.some.inj this

/-- The order of hit objects, when each of them has a hit sample. -/
theorem C83_false_order : ∃ s t : Str, osuStrEq s t = true ∧ ∃ f g : OsuFile Dec96, OsuFile.parse s = .ok f ∧ OsuFile.parse t = .ok g ∧
    f.hitobjects.map (fun l => l.map HitObject.newCombo) = some [true, false] ∧
    g.hitobjects.map (fun l => l.map HitObject.newCombo) = some [false, true] := by
  refine ⟨c!"osu file format v14\n[HitObjects]\n1,2,10,5,0,0:0:0:0:\n3,4,20,1,0,0:0:0:0:",
    c!"osu file format v14\n[HitObjects]\n3,4,20,1,0,0:0:0:0:\n1,2,10,5,0,0:0:0:0:", by decide, ?_⟩
  obtain ⟨f, hf⟩ := Res.of_isOk (r := (OsuFile.parse c!"osu file format v14\n[HitObjects]\n1,2,10,5,0,0:0:0:0:\n3,4,20,1,0,0:0:0:0:" :
    Res _ (OsuFile Dec96))) (by decide)
  obtain ⟨g, hg⟩ := Res.of_isOk (r := (OsuFile.parse c!"osu file format v14\n[HitObjects]\n3,4,20,1,0,0:0:0:0:\n1,2,10,5,0,0:0:0:0:" :
    Res _ (OsuFile Dec96))) (by decide)
  refine ⟨f, g, hf, hg, ?_, ?_⟩
  · have : okView (OsuFile.parse c!"osu file format v14\n[HitObjects]\n1,2,10,5,0,0:0:0:0:\n3,4,20,1,0,0:0:0:0:" : Res _ (OsuFile Dec96))
        (fun f => f.hitobjects.map fun l => l.map HitObject.newCombo) = some (some [true, false]) := by rfl
    rw [hf] at this; exact Option.some.inj this
  · have : okView (OsuFile.parse c!"osu file format v14\n[HitObjects]\n3,4,20,1,0,0:0:0:0:\n1,2,10,5,0,0:0:0:0:" : Res _ (OsuFile Dec96))
        (fun f => f.hitobjects.map fun l => l.map HitObject.newCombo) = some (some [false, true]) := by rfl
    rw [hg] at this; exact Option.some.inj this

/-- Whether a command is inside a loop. -/
theorem C83_false_nesting : ∃ s t : Str, osuStrEq s t = true ∧ ∃ f g : OsuFile Dec96, OsuFile.parse s = .ok f ∧ OsuFile.parse t = .ok g ∧
    f.events.map (fun l => l.map fun e => (cmdsOf e).length) = some [1] ∧
    g.events.map (fun l => l.map fun e => (cmdsOf e).length) = some [2] := by
  refine ⟨c!"osu file format v14\n[Events]\nSprite,Pass,Centre,a.png,1,2\n L,0,3\n  F,0,1,2,0.5",
    c!"osu file format v14\n[Events]\nSprite,Pass,Centre,a.png,1,2\n L,0,3\n F,0,1,2,0.5", by decide, ?_⟩
  obtain ⟨f, hf⟩ := Res.of_isOk (r := (OsuFile.parse c!"osu file format v14\n[Events]\nSprite,Pass,Centre,a.png,1,2\n L,0,3\n  F,0,1,2,0.5" :
    Res _ (OsuFile Dec96))) (by decide)
  obtain ⟨g, hg⟩ := Res.of_isOk (r := (OsuFile.parse c!"osu file format v14\n[Events]\nSprite,Pass,Centre,a.png,1,2\n L,0,3\n F,0,1,2,0.5" :
    Res _ (OsuFile Dec96))) (by decide)
  refine ⟨f, g, hf, hg, ?_, ?_⟩
  · have : okView (OsuFile.parse c!"osu file format v14\n[Events]\nSprite,Pass,Centre,a.png,1,2\n L,0,3\n  F,0,1,2,0.5" : Res _ (OsuFile Dec96))
        (fun f => f.events.map fun l => l.map fun e => (cmdsOf e).length) = some (some [1]) := by rfl
    rw [hf] at this; exact Option.some.inj this
  · have : okView (OsuFile.parse c!"osu file format v14\n[Events]\nSprite,Pass,Centre,a.png,1,2\n L,0,3\n F,0,1,2,0.5" : Res _ (OsuFile Dec96))
        (fun f => f.events.map fun l => l.map fun e => (cmdsOf e).length) = some (some [2]) := by rfl
    rw [hg] at this; exact Option.some.inj this

private def crlfOf (s : Str) (h : '\r' ∉ s) : CrLf s := fun a b e => absurd (show '\r' ∈ s by rw [e]; simp) h

/-- Fields in another order, with other blanks. -/
example : ∃ x y, (General Dec96).fromStr 14 c!"Mode: 1\nAudioFilename: a b.mp3" = .ok x ∧ (General Dec96).fromStr 14 c!"AudioFilename:a  b.mp3\n\nMode:1" = .ok y ∧
    ViewSame (generalView x) (generalView y) ∧ y .audioFilename ≠ x .audioFilename := by
  obtain ⟨x, hx⟩ := Res.of_isOk (r := (General Dec96).fromStr 14 c!"Mode: 1\nAudioFilename: a b.mp3") (by decide)
  obtain ⟨y, hy⟩ := Res.of_isOk (r := (General Dec96).fromStr 14 c!"AudioFilename:a  b.mp3\n\nMode:1") (by decide)
  refine ⟨x, y, hx, hy, C83_general hx hy (crlfOf _ (by decide)) (crlfOf _ (by decide)) (.inr ⟨by decide, by decide⟩), ?_⟩
  have e1 : okView ((General Dec96).fromStr 14 c!"Mode: 1\nAudioFilename: a b.mp3") (fun x => x .audioFilename) = some (some c!"a b.mp3") := by rfl
  have e2 : okView ((General Dec96).fromStr 14 c!"AudioFilename:a  b.mp3\n\nMode:1") (fun x => x .audioFilename) = some (some c!"a  b.mp3") := by rfl
  rw [hx] at e1; rw [hy] at e2
  have e1 : x .audioFilename = some c!"a b.mp3" := Option.some.inj e1
  have e2 : y .audioFilename = some c!"a  b.mp3" := Option.some.inj e2
  rw [e1, e2]
  exact fun h => absurd (show some c!"a  b.mp3" = some c!"a b.mp3" from h) (by decide)

example : ∃ x y, (Editor Dec96).fromStr 14 c!"GridSize: 4\nBookmarks: 1,2" = .ok x ∧ (Editor Dec96).fromStr 14 c!"Bookmarks:1,2\nGridSize:  4" = .ok y ∧
    ViewSame (editorView x) (editorView y) := by
  obtain ⟨x, hx⟩ := Res.of_isOk (r := (Editor Dec96).fromStr 14 c!"GridSize: 4\nBookmarks: 1,2") (by decide)
  obtain ⟨y, hy⟩ := Res.of_isOk (r := (Editor Dec96).fromStr 14 c!"Bookmarks:1,2\nGridSize:  4") (by decide)
  exact ⟨x, y, hx, hy, C83_editor hx hy (crlfOf _ (by decide)) (crlfOf _ (by decide)) (.inr ⟨by decide, by decide⟩)⟩

example : ∃ x y, Metadata.fromStr 14 c!"Tags:ab c\nBeatmapID:7" = .ok x ∧ Metadata.fromStr 14 c!"BeatmapID:7\nTags: a bc" = .ok y ∧
    ViewSame (metadataView Dec96 x) (metadataView Dec96 y) := by
  obtain ⟨x, hx⟩ := Res.of_isOk (r := Metadata.fromStr 14 c!"Tags:ab c\nBeatmapID:7") (by decide)
  obtain ⟨y, hy⟩ := Res.of_isOk (r := Metadata.fromStr 14 c!"BeatmapID:7\nTags: a bc") (by decide)
  exact ⟨x, y, hx, hy, C83_metadata Dec96 hx hy (crlfOf _ (by decide)) (crlfOf _ (by decide)) (.inr ⟨by decide, by decide⟩)⟩

example : ∃ x y, (Difficulty Dec96).fromStr 14 c!"HPDrainRate:5\nCircleSize:x y" = .ok x ∧ (Difficulty Dec96).fromStr 14 c!"CircleSize:xy\nHPDrainRate:5" = .ok y ∧
    ViewSame (difficultyView x) (difficultyView y) := by
  obtain ⟨x, hx⟩ := Res.of_isOk (r := (Difficulty Dec96).fromStr 14 c!"HPDrainRate:5\nCircleSize:x y") (by decide)
  obtain ⟨y, hy⟩ := Res.of_isOk (r := (Difficulty Dec96).fromStr 14 c!"CircleSize:xy\nHPDrainRate:5") (by decide)
  exact ⟨x, y, hx, hy, C83_difficulty hx hy (crlfOf _ (by decide)) (crlfOf _ (by decide)) (.inr ⟨by decide, by decide⟩)⟩

example : ∃ x y, TimingPoints.parse 14 c!"10,300,4,2,1,60,1,0\n20,-50,4,2,1,60,0,0" = .ok (x : List (TimingPoint Dec96)) ∧
    TimingPoints.parse 14 c!"  10,300,4,2,1,60,1,0\n\n20,-50,4,2,1,60,0,0\n" = .ok y ∧ x.length = 2 ∧ Each (PointSame 14) x y := by
  obtain ⟨x, hx⟩ := Res.of_isOk (r := (TimingPoints.parse 14 c!"10,300,4,2,1,60,1,0\n20,-50,4,2,1,60,0,0" : Res _ (List (TimingPoint Dec96)))) (by decide)
  obtain ⟨y, hy⟩ := Res.of_isOk (r := (TimingPoints.parse 14 c!"  10,300,4,2,1,60,1,0\n\n20,-50,4,2,1,60,0,0\n" : Res _ (List (TimingPoint Dec96)))) (by decide)
  refine ⟨x, y, hx, hy, ?_, (C83_timing_points hx hy (.inl (by decide))).2 ⟨c!"10,300,4,2,1,60,1,0", by decide, by decide⟩⟩
  have : okView (TimingPoints.parse 14 c!"10,300,4,2,1,60,1,0\n20,-50,4,2,1,60,0,0" : Res _ (List (TimingPoint Dec96))) List.length = some 2 := by rfl
  rw [hx] at this; exact Option.some.inj this

example : ∃ x y, HitObjects.parse 14 c!"1,2,10,5,0,0:0:0:0:\n3,4,20,1,0,1:0:0:0:a b" = .ok (x : List (HitObject Dec96)) ∧
    HitObjects.parse 14 c!"3,4,20,1,0,1:0:0:0:ab\n1,2,10,5,0,0:0:0:0:" = .ok y ∧ x.length = 2 ∧ EachPerm (ObjectSame 14) x y := by
  obtain ⟨x, hx⟩ := Res.of_isOk (r := (HitObjects.parse 14 c!"1,2,10,5,0,0:0:0:0:\n3,4,20,1,0,1:0:0:0:a b" : Res _ (List (HitObject Dec96)))) (by decide)
  obtain ⟨y, hy⟩ := Res.of_isOk (r := (HitObjects.parse 14 c!"3,4,20,1,0,1:0:0:0:ab\n1,2,10,5,0,0:0:0:0:" : Res _ (List (HitObject Dec96)))) (by decide)
  refine ⟨x, y, hx, hy, ?_, (C83_hit_objects hx hy (.inr ⟨by decide, by decide⟩)).1⟩
  have : okView (HitObjects.parse 14 c!"1,2,10,5,0,0:0:0:0:\n3,4,20,1,0,1:0:0:0:a b" : Res _ (List (HitObject Dec96))) List.length = some 2 := by rfl
  rw [hx] at this; exact Option.some.inj this

example : ([Colour.combo 2 ⟨4, 5, 6⟩, .combo 1 ⟨1, 2, 3⟩] : List Colour).Perm [.combo 1 ⟨1, 2, 3⟩, .combo 2 ⟨4, 5, 6⟩] :=
  C83_colours (v := 14) (s := c!"Combo2 : 4,5,6\nCombo1:1,2,3") (t := c!"Combo1 : 1, 2,3\nCombo2: 4,5,6") (x := some _) (y := some _)
    (by decide) (by decide) (.inr ⟨by decide, by decide⟩)

example : ∃ x y, Events.parse 14 c!"//a b\nSprite,Pass,Centre,a.png,1,2\n L,0,3\n  F,0,1,2,0.5" = .ok (x : List (Event Dec96)) ∧
    Events.parse 14 c!"//a b\nSprite,Pass,Centre,a.png,1,2\n\n L,0,3\n F,0,1,2,0.5" = .ok y ∧ x.length = 2 ∧ Each EventSame x y := by
  obtain ⟨x, hx⟩ := Res.of_isOk (r := (Events.parse 14 c!"//a b\nSprite,Pass,Centre,a.png,1,2\n L,0,3\n  F,0,1,2,0.5" : Res _ (List (Event Dec96)))) (by decide)
  obtain ⟨y, hy⟩ := Res.of_isOk (r := (Events.parse 14 c!"//a b\nSprite,Pass,Centre,a.png,1,2\n\n L,0,3\n F,0,1,2,0.5" : Res _ (List (Event Dec96)))) (by decide)
  refine ⟨x, y, hx, hy, ?_, (C83_events hx hy (.inl (by decide))).2 ⟨c!"//a b", by decide, by decide⟩⟩
  have : okView (Events.parse 14 c!"//a b\nSprite,Pass,Centre,a.png,1,2\n L,0,3\n  F,0,1,2,0.5" : Res _ (List (Event Dec96))) List.length = some 2 := by rfl
  rw [hx] at this; exact Option.some.inj this

/-- Another text for the file of `rsText`. -/
def rsOther : Str := c!"osu file format v14\n[Metadata]\nTitle:ab\nBeatmapID:7\n[Colours]\nCombo1 : 1,2,3"

def rsOtherSects : List Sect := [⟨[], c!"Metadata", c!"\n", c!"Title:ab\nBeatmapID:7"⟩, ⟨c!"\n", c!"Colours", c!"\n", c!"Combo1 : 1,2,3"⟩]

theorem rsOther_own : OwnLines rsOther c!"14" rsOtherSects := by
  refine ⟨⟨[], c!"\n[Metadata]\nTitle:ab\nBeatmapID:7\n[Colours]\nCombo1 : 1,2,3", [[]],
    ⟨⟨[], .inl rfl, rfl⟩, nofun, by decide, by decide, .inr ⟨_, .inr rfl⟩⟩, .inr ⟨_, .inl rfl⟩, layout_iff.2 ⟨by decide, ?_⟩⟩, by decide, by decide⟩
  exact sections_iff.1 (by decide)

example : ∃ f g : OsuFile Dec96, OsuFile.parse rsText = .ok f ∧ OsuFile.parse rsOther = .ok g ∧ FileSame (KeepsOrder rsSects) f g ∧
    f.metadata.isSome = true := by
  obtain ⟨f, hf⟩ := Res.of_isOk (r := (OsuFile.parse rsText : Res _ (OsuFile Dec96))) (by decide)
  obtain ⟨g, hg⟩ := Res.of_isOk (r := (OsuFile.parse rsOther : Res _ (OsuFile Dec96))) (by decide)
  refine ⟨f, g, hf, hg, C83_file rsText_own rsOther_own hf hg (bomOK_none (by decide)) (bomOK_none (by decide)) (crlfB_iff (by decide))
    (crlfB_iff (by decide)) (by decide), ?_⟩
  have : okView (OsuFile.parse rsText : Res _ (OsuFile Dec96)) (fun f => f.metadata.isSome) = some true := by rfl
  rw [hf] at this; exact Option.some.inj this

end

end Osu
