/-
C11 and C12 colours, C13 first offending line, C14 blank lines, and the Colours part of C07 (version
gates), C42 (stability) and C50 (panic freedom).
-/
import Verif.Proof.Colours
import Verif.Proof.Dec96
import Verif.Model.TimingPoints
import Verif.Model.HitObjects

namespace Osu

/-! ## C11: one colour -/

/-- The combo index of an entry, if it has one, is not negative. -/
def ColourWritable : Colour → Prop
  | .combo n _ => 0 ≤ n.toInt
  | _ => True

/-- A colour reads back exactly when its combo index is not negative. -/
theorem C11_colour_round_trip (c : Colour) : Colour.parse c.shw = .ok c ↔ ColourWritable c := by
  cases c with
  | combo n r =>
    constructor
    · intro h; exact Colour.parse_nonneg h
    · intro h; exact Colour.parse_shw fun n' r' e => by cases e; exact h
  | sliderTrackOverride r => simp only [ColourWritable, iff_true]; exact Colour.parse_shw (fun _ _ e => by cases e)
  | sliderBorder r => simp only [ColourWritable, iff_true]; exact Colour.parse_shw (fun _ _ e => by cases e)

example : ColourWritable (.combo 3 ⟨255, 0, 17⟩) ∧
    Colour.parse (Colour.combo 3 ⟨255, 0, 17⟩).shw = .ok (.combo 3 ⟨255, 0, 17⟩) :=
  ⟨show (0 : Int) ≤ (3 : Int32).toInt by decide, by decide⟩

/-- A negative combo index cannot be read back: the line is rejected as an invalid combo count. -/
theorem C11_false (n : Int32) (c : Rgb) (h : n.toInt < 0) :
    Colour.parse (Colour.combo n c).shw = .err .invalidComboCount := Colour.parse_shw_neg c h

example : Colour.parse (Colour.combo (-1) ⟨1, 2, 3⟩).shw = .err .invalidComboCount := C11_false _ _ (by decide)

/-- Whatever is read can be written. -/
theorem C11_read_is_writable {s : Str} {c : Colour} (h : Colour.parse s = .ok c) : ColourWritable c := by
  cases c with
  | combo n r => exact Colour.parse_nonneg h
  | _ => trivial

example : Colour.parse c!"Combo1 : 255 , 0,7" = .ok (.combo 1 ⟨255, 0, 7⟩) := by decide

/-- Two colours with the same text are the same colour (so nothing is lost in the text). -/
theorem C11_injective {a b : Colour} (ha : ColourWritable a) (h : a.shw = b.shw) (hb : ColourWritable b) : a = b := by
  have h1 := (C11_colour_round_trip a).2 ha
  rw [h, (C11_colour_round_trip b).2 hb] at h1
  cases h1; rfl

example : (Colour.sliderBorder ⟨1, 2, 3⟩).shw ≠ (Colour.sliderTrackOverride ⟨1, 2, 3⟩).shw := by decide

/-! ## C12: the section -/

/-- Version 5 and up (and the versions below 3, which the file parser never passes on). -/
theorem C12_colours_round_trip {v : Nat} (hv : ¬ (3 ≤ v ∧ v ≤ 4)) {l : List Colour}
    (h : ∀ c ∈ l, ColourWritable c) :
    ∃ s, Colours.shw v l = some s ∧ Colours.parse v s = .ok (some l) := by
  have := parseLines_printed (f := Colour.parse) (shw := fun c => some (Colour.shw c)) (g := id) (l := l) (by
    intro c hc
    exact ⟨c.shw, rfl, c.shw_lineOK, (C11_colour_round_trip c).2 (h c hc)⟩)
  rw [printLinesP_some] at this
  obtain ⟨s, h1, h2⟩ := this
  cases h1
  refine ⟨_, by rw [Colours.shw, if_neg hv], ?_⟩
  rw [Colours.parse, if_neg hv, h2, List.map_id]; rfl

example : Colours.parse 14 c!"Combo1 : 1,2,3\nSliderBorder : 4,5,6" =
    .ok (some [.combo 1 ⟨1, 2, 3⟩, .sliderBorder ⟨4, 5, 6⟩]) := by decide

/-- In versions 3 and 4 the section is dropped when read, whatever the text is, and not written. -/
theorem C12_old_versions {v : Nat} (hv : 3 ≤ v ∧ v ≤ 4) (s : Str) (l : List Colour) :
    Colours.parse v s = .ok none ∧ Colours.shw v l = none := by
  rw [Colours.parse, Colours.shw, if_pos hv, if_pos hv]; exact ⟨rfl, rfl⟩

example : Colours.parse 4 c!"nonsense" = .ok none := by decide

/-- Conversely a section that is read is present in every other version. -/
theorem C07_colours_gate {v : Nat} {s : Str} {x : Option (List Colour)} (h : Colours.parse v s = .ok x) :
    x = none ↔ (3 ≤ v ∧ v ≤ 4) := by
  unfold Colours.parse at h
  split at h
  · rename_i hv; cases h; simp [hv]
  · rename_i hv
    cases hp : parseLines Colour.parse s with
    | ok l => rw [hp] at h; cases h; simp [hv]
    | err e => rw [hp] at h; cases h
    | panic => rw [hp] at h; cases h

example : Colours.parse 5 c!"" = .ok (some []) := by decide

/-- Reading, writing and reading again gives the same colours. -/
theorem C42_colours_stable {v : Nat} {s : Str} {l : List Colour} (h : Colours.parse v s = .ok (some l)) :
    ∃ t, Colours.shw v l = some t ∧ Colours.parse v t = .ok (some l) := by
  have hv : ¬ (3 ≤ v ∧ v ≤ 4) := fun hv => by
    have := (C07_colours_gate h).2 hv; cases this
  refine C12_colours_round_trip hv fun c hc => ?_
  rw [Colours.parse, if_neg hv] at h
  obtain ⟨l', h1, h2⟩ := Res.bind_eq_ok'.1 h
  cases h2
  obtain ⟨t, _, _, h3⟩ := parseLines_mem h1 c hc
  exact C11_read_is_writable h3

example : Colours.parse 14 c!"Combo1:1 , 2 , 3\n\n  Sliderborder : 4,5,6" =
    .ok (some [.combo 1 ⟨1, 2, 3⟩, .sliderBorder ⟨4, 5, 6⟩]) := by decide

/-- Reading colours never panics, in particular the second parse for the error value always fails as the
code expects. -/
theorem C50_colours_no_panic (v : Nat) (s : Str) : Colours.parse v s ≠ .panic := by
  unfold Colours.parse
  split
  · exact nofun
  · have := parseLines_no_panic Colour.parse_no_panic s
    cases hp : parseLines Colour.parse s with
    | ok l => exact nofun
    | err e => exact nofun
    | panic => exact absurd hp this

example : Colours.parse 14 c!"Combo1 : 1,2,\u0000" = .err ⟨0, .rgb .invalidBlue⟩ := by decide

/-! ## C13: the first offending line -/

/-- Colours: an error at line `k` means exactly that line `k` is the first line that is neither blank nor
accepted. -/
theorem C13_colours {v : Nat} (hv : ¬ (3 ≤ v ∧ v ≤ 4)) {s : Str} {k : Nat} {e : ColourErr} :
    Colours.parse v s = .err ⟨k, e⟩ ↔ FirstBad Colour.parse s k e := by
  rw [Colours.parse, if_neg hv, ← parseLines_firstBad]
  cases parseLines Colour.parse s with
  | err e => exact ⟨fun h => by cases h; rfl, fun h => by cases h; rfl⟩
  | ok l => exact ⟨nofun, nofun⟩
  | panic => exact ⟨nofun, nofun⟩

example : Colours.parse 14 c!"\nCombo1 : 1,2,3\n\nCombo2 : 1,2\nCombox" = .err ⟨3, .rgb .missingBlue⟩ := by decide

section
variable {D : Type} [DecLib D]

/-- Timing points. -/
theorem C13_timing_points {v : Nat} {s : Str} {k : Nat} {e : TPErr} :
    (TimingPoints.parse v s : Res _ (List (TimingPoint D))) = .err ⟨k, e⟩ ↔
      FirstBad (TimingPoint.parse v : Str → Res TPErr (TimingPoint D)) s k e := parseLines_firstBad

example : ((TimingPoints.parse 14 c!"1,2,4,1,0,100,1,0\n \n1,2,4,1,0" :
    Res _ (List (TimingPoint Dec96)))) = .err ⟨2, .missingVolume⟩ := by decide

/-- Hit objects. -/
theorem C13_hit_objects {v : Nat} {s : Str} {k : Nat} {e : HOErr} :
    (HitObjects.parse v s : Res _ (List (HitObject D))) = .err ⟨k, e⟩ ↔
      FirstBad (HitObject.parse v : Str → Res HOErr (HitObject D)) s k e := parseLines_firstBad

example : ((HitObjects.parse 14 c!"1,2,3,1,0,0:0:0:0:\n\n\n1,2,3,0,0" :
    Res _ (List (HitObject Dec96)))) = .err ⟨3, .unknownObjType⟩ := by decide

end

/-- The index of an error is the index of a line of the text, for each of the three sections. -/
theorem C13_index_in_range {E α : Type} {f : Str → Res E α} {s : Str} {k : Nat} {e : E} (h : FirstBad f s k e) :
    k < (lines s).length := by
  obtain ⟨⟨l, hl, _⟩, _⟩ := h
  exact (List.getElem?_eq_some_iff.1 hl).1

example : FirstBad Colour.parse c!"\nx" 1 .unknownColourType :=
  (C13_colours (v := 14) (by decide)).1 (by decide)

/-! ## C14: blank lines -/

/-- Colours: inserting or removing blank lines changes neither the value nor the kind of the error. -/
theorem C14_colours {v : Nat} {s t : Str} (h : BlankEq s t) :
    (Colours.parse v t).mapErr LErr.error = (Colours.parse v s).mapErr LErr.error := by
  unfold Colours.parse
  split
  · rfl
  · have := parseLines_congr Colour.parse h.filter
    cases h1 : parseLines Colour.parse t <;> cases h2 : parseLines Colour.parse s <;> rw [h1, h2] at this <;>
      simp_all [Res.mapErr]

example : (Colours.parse 14 c!"\t\nCombo1 : 1,2,3\n \n\nCombo2 : 4,5,6\n").mapErr LErr.error =
    (Colours.parse 14 c!"Combo1 : 1,2,3\nCombo2 : 4,5,6").mapErr LErr.error :=
  C14_colours (.ins (.ins (.ins (.refl _) (.mid c!"Combo1 : 1,2,3" c!"Combo2 : 4,5,6" c!" \n" (by decide))) (.first _ c!"\t" (by decide)))
    (.last _ c!"" (by decide) (by decide)))

section
variable {D : Type} [DecLib D]

/-- Timing points. -/
theorem C14_timing_points {v : Nat} {s t : Str} (h : BlankEq s t) :
    (TimingPoints.parse v t : Res _ (List (TimingPoint D))).mapErr LErr.error =
      (TimingPoints.parse v s).mapErr LErr.error := parseLines_congr _ h.filter

example : (TimingPoints.parse 14 c!"\n0,1,4,1,1,100,1,0\n" : Res _ (List (TimingPoint Dec96))).mapErr LErr.error =
    (TimingPoints.parse 14 c!"0,1,4,1,1,100,1,0\n \n").mapErr LErr.error :=
  C14_timing_points (.ins (.ins (.del (.refl _) (.last c!"0,1,4,1,1,100,1,0" c!" \n" (by decide) (by decide))) (.first _ c!"" (by decide)))
    (.last _ c!"" (by decide) (by decide)))

/-- Hit objects. -/
theorem C14_hit_objects {v : Nat} {s t : Str} (h : BlankEq s t) :
    (HitObjects.parse v t : Res _ (List (HitObject D))).mapErr LErr.error =
      (HitObjects.parse v s).mapErr LErr.error := parseLines_congr _ h.filter

example : (HitObjects.parse 14 c!"\n1,2,3,1,0\n1,2" : Res _ (List (HitObject Dec96))).mapErr LErr.error =
    (HitObjects.parse 14 c!"1,2,3,1,0\n\n1,2").mapErr LErr.error :=
  C14_hit_objects (.ins (.del (.refl _) (.mid c!"1,2,3,1,0" c!"1,2" c!"" (by decide))) (.first _ c!"" (by decide)))

end

example : BlankEq c!"a\nb" c!"\t\na\n \n\nb\n" :=
  .ins (.ins (.ins (.refl _) (.mid c!"a" c!"b" c!" \n" (by decide)))
    (.first _ c!"\t" (by decide))) (.last _ c!"" (by decide) (by decide))

example : Colours.parse 14 c!"\t\nCombo1 : 1,2,3\n \n\nCombo2 : 1,2,3\n" =
    Colours.parse 14 c!"Combo1 : 1,2,3\nCombo2 : 1,2,3" := by decide

end Osu
