/-
C96: files and storyboards that are cut short at the end of a line.
-/
import Verif.Proof.Cut
import Verif.Props.Counts

namespace Osu
open SB Ev Parser

section
variable {D : Type} [DecLib D]

/-- C96: the beginning of a text, up to the end of a line, gives the first timing points, hit objects or colours of the text. -/
theorem C96_lines (v : Nat) (y z : Str) (hy : NoEndCR y) :
    (∀ l : List (TimingPoint D), TimingPoints.parse v (y ++ '\n' :: z) = .ok l → ∃ l1, TimingPoints.parse v y = .ok l1 ∧ l1 <+: l) ∧
    (∀ l : List (HitObject D), HitObjects.parse v (y ++ '\n' :: z) = .ok l → ∃ l1, HitObjects.parse v y = .ok l1 ∧ l1 <+: l) ∧
    (∀ l, Colours.parse v (y ++ '\n' :: z) = .ok (some l) → ∃ l1, Colours.parse v y = .ok (some l1) ∧ l1 <+: l) := by
  refine ⟨fun l h => parseLines_cut hy h, fun l h => parseLines_cut hy h, fun l h => ?_⟩
  unfold Colours.parse at h ⊢
  split at h
  · cases h
  · rename_i hv
    cases hp : parseLines Colour.parse (y ++ '\n' :: z) with
    | ok l' =>
      rw [hp] at h
      cases h
      obtain ⟨l1, h1, h2⟩ := parseLines_cut hy hp
      exact ⟨l1, by rw [if_neg hv, h1]; rfl, h2⟩
    | err e => rw [hp] at h; cases h
    | panic => rw [hp] at h; cases h

/-- C96: the beginning of a text of key and value lines gives some of the fields of the text, with the same values. -/
theorem C96_fields (v : Nat) (y z : Str) :
    (∀ f, (General D).fromStr v (y ++ '\n' :: z) = .ok f → ∃ g, (General D).fromStr v y = .ok g ∧ FieldsPart g f) ∧
    (∀ f, (Editor D).fromStr v (y ++ '\n' :: z) = .ok f → ∃ g, (Editor D).fromStr v y = .ok g ∧ FieldsPart g f) ∧
    (∀ f, Metadata.fromStr v (y ++ '\n' :: z) = .ok f → ∃ g, Metadata.fromStr v y = .ok g ∧ FieldsPart g f) ∧
    (∀ f, (Difficulty D).fromStr v (y ++ '\n' :: z) = .ok f → ∃ g, (Difficulty D).fromStr v y = .ok g ∧ FieldsPart g f) :=
  ⟨fun _ h => schema_cut (General_lawful D) h, fun _ h => schema_cut (Editor_lawful D) h, fun _ h => schema_cut Metadata_lawful h,
    fun _ h => schema_cut (Difficulty_lawful D) h⟩

variable [UniLib]

/-- C96: the beginning of a text of events gives the first events, the last of them perhaps with its first commands only. -/
theorem C96_events (v : Nat) (vars : List Variable) (y z : Str) (hy : NoEndCR y) (es : List (Event D))
    (h : Events.parseVars v vars (y ++ '\n' :: z) = .ok es) : ∃ es1, Events.parseVars v vars y = .ok es1 ∧ EventsPart es1 es :=
  events_cut hy h

/-- C96: a file that is cut at the end of a line is rejected if only blanks are left, reading it panics if the last line left that is not
blank ends with the header of a section, and else it is read: the version is kept, of at most one section there is a part, the others are
whole or missing, and only sections with their header in the lines that were cut off are missing. -/
theorem C96_file (a b : Str) (f : OsuFile D) (hs : PlainBreaks (a ++ '\n' :: b)) (h : OsuFile.parse (a ++ '\n' :: b) = .ok f) :
    (AllC isMultispace a ∧ (OsuFile.parse (a ++ ['\n']) : Res _ (OsuFile D)) = .err ⟨0, .fileVersionDefinedWrong⟩) ∨
    (EndsInHeader (a ++ ['\n']) ∧ (OsuFile.parse (a ++ ['\n']) : Res _ (OsuFile D)) = .panic) ∨
    ∃ g : OsuFile D, OsuFile.parse (a ++ ['\n']) = .ok g ∧ CutFile b g f := by
  obtain ⟨ws, num, r, pre, xs, rest, hv, hk, hl, hp, hr⟩ := (C53_exact _ f).1 h
  obtain ⟨⟨bom, hbom, e⟩, hws, hn1, hn2, hr0⟩ := hv
  have e' : ws ++ ((bom ++ c!"osu file format v" ++ num) ++ r) = a ++ '\n' :: b := by rw [e]; simp
  rcases cut_at e' with ⟨u, h1, -⟩ | ⟨u, h1, h2⟩
  · -- the cut is before the version
    left
    have ha : AllC isMultispace a := fun c hc => hws c (by rw [h1]; exact List.mem_append_left _ hc)
    refine ⟨ha, parse_unversioned ?_⟩
    rintro ⟨ws', num', r', ⟨bom', -, e1⟩, -⟩
    have ho : 'o' ∈ a ++ ['\n'] := by rw [e1]; simp
    rcases List.mem_append.1 ho with ho | ho
    · exact absurd (ha _ ho) (by decide)
    · exact absurd ho (by decide)
  · right
    rcases cut_at h2 with ⟨w, h3, -⟩ | ⟨r1, rfl, h4⟩
    · exfalso
      refine noLF_cut ?_ h3
      intro hm
      rcases List.mem_append.1 hm with hm | hm
      · rcases List.mem_append.1 hm with hm | hm
        · rcases hbom with rfl | rfl
          · cases hm
          · exact absurd hm (by decide)
        · exact absurd hm (by decide)
      · exact hn2 hm
    · have hv1 : Versioned (a ++ ['\n']) ws num (r1 ++ ['\n']) := by
        refine ⟨⟨bom, hbom, by rw [h1]; simp⟩, hws, hn1, hn2, .inr ?_⟩
        cases r1 with
        | nil => exact ⟨[], .inr rfl⟩
        | cons c r1 =>
          rcases hr0 with h0 | ⟨r', h0 | h0⟩
          · rw [h4] at h0; cases h0
          · rw [h4, List.cons_append] at h0
            injection h0 with h0 _
            exact ⟨r1 ++ ['\n'], .inl (by rw [h0]; rfl)⟩
          · rw [h4, List.cons_append] at h0
            injection h0 with h0 _
            exact ⟨r1 ++ ['\n'], .inr (by rw [h0]; rfl)⟩
      have hcr : ∀ l ∈ lines r, NoEndCR l := plain_lines fun c d e1 => by
        refine hs (ws ++ bom ++ c!"osu file format v" ++ num ++ c) d ?_
        rw [e, e1]; simp
      rcases layout_cut hl h4 hcr with ⟨pre1, p, q, r2, rfl, l1, l2, l3⟩ | ⟨p, x, q, w, c, rfl, l1, l2, l3, l4⟩
      · obtain ⟨g, g1, g2⟩ := cut_whole hr l3
        refine .inr ⟨g, (C53_exact _ g).2 ⟨ws, num, _, pre1, p, r2, hv1, ?_, l1, fun l hl => hp l (l2.subset hl), ?_⟩, g2⟩
        · rw [g2.1]; exact hk
        · rw [g2.1]; exact g1
      · by_cases hc : c = []
        · subst hc
          left
          obtain ⟨hb, n, hn, hrx⟩ := hr.2.2.2.1 x (by simp)
          have hnd := hr.2.2.1
          rw [List.map_append, List.map_cons] at hnd
          constructor
          · obtain ⟨ls, k1, -, -, k4⟩ := l1
            obtain ⟨⟨d, hd⟩, hw⟩ := sections_final k4 rfl
            rw [← hn, List.append_nil, List.append_nil] at hd
            have hnl : '\n' ∉ sectHeader n.text := by cases n <;> decide
            obtain ⟨p', d', w', q', m1, m2, m3⟩ := join_tail hnl (by simp [sectHeader]) hw hd
            have ea : a ++ ['\n'] = (ws ++ bom ++ c!"osu file format v" ++ num) ++ (r1 ++ ['\n']) := by rw [h1]; simp
            rw [m1, ← List.append_assoc] at k1
            unfold EndsInHeader
            rw [ea]
            cases hpp : pre ++ p' with
            | nil =>
              rw [hpp, List.nil_append] at k1
              obtain ⟨P, d2, hP⟩ := lines_longer (ws ++ bom ++ c!"osu file format v" ++ num) k1
              exact ⟨n, P, d2 ++ d', w', q', by rw [hP]; simp, m2, m3⟩
            | cons l0 ls0 =>
              rw [hpp, List.cons_append] at k1
              obtain ⟨P, d2, hP⟩ := lines_longer (ws ++ bom ++ c!"osu file format v" ++ num) k1
              exact ⟨n, P ++ (d2 ++ l0) :: ls0, d', w', q', by rw [hP]; simp, m2, m3⟩
          · refine (C47_exact _).2 ⟨ws, num, _, f.version, pre, p, _, [], [], hv1, hk, l1, hp, ?_, ?_, n, hn, .inr ⟨rfl, outcome_empty _ _⟩⟩
            · refine ⟨(List.nodup_append.1 hnd).1, fun y hy => ?_⟩
              obtain ⟨y1, m, y2, y3⟩ := hr.2.2.2.1 y (List.mem_append_left _ hy)
              exact ⟨y1, m, y2, sectReads_outcome.1 ⟨f, y3⟩⟩
            · intro hm
              exact (List.nodup_append.1 hnd).2.2 _ hm _ (.head _) rfl
        · right
          obtain ⟨z, hz⟩ := l3.resolve_left hc
          obtain ⟨g, g1, g2⟩ := cut_part (w := w) hr l4 l2 hc hz
          refine ⟨g, (C53_exact _ g).2 ⟨ws, num, _, pre, _, [], hv1, ?_, l1, hp, ?_⟩, g2⟩
          · rw [g2.1]; exact hk
          · rw [g2.1]; exact g1

/-- C96: a storyboard that is cut at the end of a line is always read, to a part of one list and the other one whole or missing; only lists
with their header in the lines that were cut off are missing. -/
theorem C96_storyboard (v : Nat) (a b : Str) (o : Osb D) (hs : PlainBreaks (a ++ '\n' :: b)) (h : Osb.parse v (a ++ '\n' :: b) = .ok (some o)) :
    ∃ g : Osb D, Osb.parse v (a ++ ['\n']) = .ok (some g) ∧ CutOsb b g o := by
  obtain ⟨hv, pre, xs, rest, hl, hp, hr⟩ := (C55_exact v _ o).1 h
  rcases layout_cut hl rfl (plain_lines hs) with ⟨pre1, p, q, r2, e, l1, l2, l3⟩ | ⟨p, x, q, w, c, e, l1, l2, l3, l4⟩
  · obtain ⟨g, g1, g2⟩ := osb_whole hr e l3
    exact ⟨g, (C55_exact v _ g).2 ⟨hv, pre1, p, r2, l1, fun l hl => hp l (l2.subset hl), g1⟩, g2⟩
  · obtain ⟨g, g1, g2⟩ := osb_part (w := w) hr e l4 l2 l3
    exact ⟨g, (C55_exact v _ g).2 ⟨hv, pre, _, [], l1, hp, g1⟩, g2⟩

end

/-! ### Cases -/

section
attribute [local instance] asciiUni

example : ∃ l : List (TimingPoint Dec96), TimingPoints.parse 14 (c!"1,2,4,1,0,100,1,0" ++ '\n' :: c!"3,-100,4,1,0,100,0,0\n") = .ok l ∧ l.length = 2 ∧
    ∃ l1, TimingPoints.parse 14 c!"1,2,4,1,0,100,1,0" = .ok l1 ∧ l1 <+: l :=
  ⟨_, by rfl, by decide, (C96_lines (D := Dec96) 14 c!"1,2,4,1,0,100,1,0" c!"3,-100,4,1,0,100,0,0\n" (by decide)).1 _ (by rfl)⟩

example : ∃ f : (General Dec96).Section, (General Dec96).fromStr 14 (c!"Mode: 1" ++ '\n' :: c!"Countdown:0") = .ok f ∧
    ∃ g, (General Dec96).fromStr 14 c!"Mode: 1" = .ok g ∧ FieldsPart g f :=
  ⟨_, by rfl, (C96_fields (D := Dec96) 14 c!"Mode: 1" c!"Countdown:0").1 _ (by rfl)⟩

example : ∃ es : List (Event Dec96), Events.parseVars 14 [] (c!"0,0,a.png\n L,1,2" ++ '\n' :: c!"__S,0,3,,1") = .ok es ∧
    ∃ es1, Events.parseVars 14 [] c!"0,0,a.png\n L,1,2" = .ok es1 ∧ EventsPart es1 es :=
  ⟨_, by rfl, C96_events 14 [] c!"0,0,a.png\n L,1,2" c!"__S,0,3,,1" (by decide) _ (by rfl)⟩

theorem plain_of_free {s : Str} (h : '\r' ∉ s) : PlainBreaks s := fun a b e => absurd (by rw [e]; simp) h

/-- A file of three sections. -/
def wholeFile : Str := c!"osu file format v14\n[General]\nMode: 1\n[Events]\n0,0,a.png\n L,1,2\n__S,0,3,,1\n[HitObjects]\n1,2,3,1,0"

example : ∃ f : OsuFile Dec96, OsuFile.parse wholeFile = .ok f ∧ f.hitobjects ≠ none ∧ f.events.map eventEntries = some 3 ∧ ∃ g : OsuFile Dec96,
    OsuFile.parse c!"osu file format v14\n[General]\nMode: 1\n[Events]\n0,0,a.png\n L,1,2\n" = .ok g ∧ g.events.map eventEntries = some 2 ∧ g.hitobjects = none ∧
      CutFile c!"__S,0,3,,1\n[HitObjects]\n1,2,3,1,0" g f := by
  refine ⟨_, by rfl, by simp, by rfl, ?_⟩
  rcases C96_file (D := Dec96) c!"osu file format v14\n[General]\nMode: 1\n[Events]\n0,0,a.png\n L,1,2" c!"__S,0,3,,1\n[HitObjects]\n1,2,3,1,0" _
    (plain_of_free (by decide)) (by rfl) with ⟨-, h⟩ | ⟨-, h⟩ | ⟨g, h, hc⟩
  · cases h
  · cases h
  · exact ⟨_, by rfl, by rfl, rfl, by cases h; exact hc⟩

example : ∃ o : Osb Dec96, Osb.parse 14 (c!"[Variables]\n$a=b" ++ '\n' :: c!"[Events]\nSprite,Pass,Centre,a.png,1,2\n S,0,3,,1") = .ok (some o) ∧
    ∃ g : Osb Dec96, Osb.parse 14 (c!"[Variables]\n$a=b" ++ ['\n']) = .ok (some g) ∧
      CutOsb c!"[Events]\nSprite,Pass,Centre,a.png,1,2\n S,0,3,,1" g o :=
  ⟨_, by rfl, C96_storyboard 14 c!"[Variables]\n$a=b" c!"[Events]\nSprite,Pass,Centre,a.png,1,2\n S,0,3,,1" _ (plain_of_free (by decide)) (by rfl)⟩

/-- C96: it is false that a file that is read is read after being cut at the end of a line: cut after the header of a section, reading it
panics. -/
theorem C96_false_read : ∃ (a b : Str) (f : OsuFile Dec96), OsuFile.parse (a ++ '\n' :: b) = .ok f ∧
    (OsuFile.parse (a ++ ['\n']) : Res _ (OsuFile Dec96)) = .panic :=
  ⟨c!"osu file format v14\n[General]", c!"Mode: 1", _, by rfl, by rfl⟩

/-- C96: and in the middle of a line a file can be cut to one that is read with another value. -/
theorem C96_false_middle : ∃ (a b : Str) (f g : OsuFile Dec96), OsuFile.parse (a ++ b) = .ok f ∧ OsuFile.parse a = .ok g ∧ ¬CutFile b g f := by
  refine ⟨c!"osu file format v14\n[General]\nPreviewTime: 1", c!"2", _, _, by rfl, by rfl, ?_⟩
  rintro ⟨-, -, ⟨n, h1, h2⟩, -⟩
  by_cases hn : n = .general
  · subst hn
    obtain ⟨x, e, h⟩ := h1 _ rfl
    cases e
    have h' : some (12 : Int32) = some 1 := h .previewTime _ rfl
    exact absurd h' (by decide)
  · rcases h2 .general (Ne.symm hn) with h | h
    · have h' : some (1 : Int32) = some 12 := congrFun (Option.some.inj h) GKey.previewTime
      exact absurd h' (by decide)
    · cases h

end
end Osu
