/-
C72: different values have different texts.
-/
import Verif.Props.FileText
import Verif.Props.Osb
import Verif.Props.Frames

namespace Osu
open Parser Ev SB

theorem printLinesP_congr {α : Type} {shw : α → Option Str} {g : α → α} {l l' : List α} (h : ∀ x ∈ l ++ l', shw (g x) = shw x)
    (e : l.map g = l'.map g) : printLinesP shw l = printLinesP shw l' := by
  have key : ∀ l : List α, (∀ x ∈ l, shw (g x) = shw x) → (l.map g).mapM shw = l.mapM shw := by
    intro l
    induction l with
    | nil => intro _; rfl
    | cons a l ih => intro h; rw [List.map_cons, List.mapM_cons, List.mapM_cons, h a (by simp), ih fun x hx => h x (List.mem_cons_of_mem _ hx)]
  unfold printLinesP
  rw [← key l fun x hx => h x (List.mem_append_left _ hx), ← key l' fun x hx => h x (List.mem_append_right _ hx), e]

section
variable {D : Type} [DecLib D]

/-! ## Sections -/

/-- Timing points have the same text exactly if they agree in all that is written in this version. -/
theorem C72_timing_points {v : Nat} {l l' : List (TimingPoint D)} (h : ∀ t ∈ l, TPWritable v t) (h' : ∀ t ∈ l', TPWritable v t) :
    TimingPoints.shw v l = TimingPoints.shw v l' ↔ l.map (tpDefaults v) = l'.map (tpDefaults v) := by
  refine ⟨fun e => ?_, fun e => printLinesP_congr (fun t _ => tpDefaults_shw v t) e⟩
  obtain ⟨s, h1, h2⟩ := C16_lossy h
  obtain ⟨s', h3, h4⟩ := C16_lossy h'
  rw [h1, h3] at e
  cases e
  rw [h2] at h4
  exact Res.ok.inj h4

/-- From version 5 on that is everything. -/
theorem C72_timing_points_new {v : Nat} {l l' : List (TimingPoint D)} (h : ∀ t ∈ l, TPExpressible v t) (h' : ∀ t ∈ l', TPExpressible v t)
    (e : TimingPoints.shw v l = TimingPoints.shw v l') : l = l' := by
  obtain ⟨s, h1, h2⟩ := C16_round_trip h
  obtain ⟨s', h3, h4⟩ := C16_round_trip h'
  rw [h1, h3] at e
  cases e
  rw [h2] at h4
  exact Res.ok.inj h4

/-- Hit objects with the same text agree in all that is read back in this version; and conversely, unless a mania hold has
no hit sample. -/
theorem C72_hit_objects {v : Nat} {l l' : List (HitObject D)} (h : ∀ o ∈ l, HOWritable v o) (h' : ∀ o ∈ l', HOWritable v o) :
    (HitObjects.shw v l = HitObjects.shw v l' → l.map (hoBack v) = l'.map (hoBack v)) ∧
    ((∀ o ∈ l ++ l', ∀ e, o.params = .hold e → NoSample v ∨ o.hitsample.isSome) →
      l.map (hoBack v) = l'.map (hoBack v) → HitObjects.shw v l = HitObjects.shw v l') := by
  refine ⟨fun e => ?_, fun hh e => printLinesP_congr (fun o ho => C20_text_stable (hh o ho)) e⟩
  obtain ⟨s, h1, h2⟩ := C21_lossy h
  obtain ⟨s', h3, h4⟩ := C21_lossy h'
  rw [h1, h3] at e
  cases e
  rw [h2] at h4
  exact Res.ok.inj h4

/-- Hit objects that can be expressed in this version are the same if their texts are. -/
theorem C72_hit_objects_exact {v : Nat} {l l' : List (HitObject D)} (h : ∀ o ∈ l, HOExpressible v o) (h' : ∀ o ∈ l', HOExpressible v o)
    (e : HitObjects.shw v l = HitObjects.shw v l') : l = l' := by
  obtain ⟨s, h1, h2⟩ := C21_round_trip h
  obtain ⟨s', h3, h4⟩ := C21_round_trip h'
  rw [h1, h3] at e
  cases e
  rw [h2] at h4
  exact Res.ok.inj h4

/-- Events have the same text exactly if they differ only in quotes that paths get anyway. -/
theorem C72_events [UniLib] {v : Nat} {l l' : List (Event D)} (h : ∀ e ∈ l, EvWritable v e) (h' : ∀ e ∈ l', EvWritable v e) :
    Events.shw v l = Events.shw v l' ↔ l.map quoted = l'.map quoted := by
  constructor
  · intro e
    obtain ⟨s, h1, h2⟩ := C35_round_trip h
    obtain ⟨s', h3, h4⟩ := C35_round_trip h'
    rw [h1, h3] at e
    cases e
    rw [h2] at h4
    exact Res.ok.inj h4
  · intro e
    unfold Events.shw
    rw [← shwVars_quoted v [] l, ← shwVars_quoted v [] l', e]

/-- Colours, in the versions that have them. -/
theorem C72_colours {v : Nat} (hv : 5 ≤ v) {l l' : List Colour} (h : ∀ c ∈ l, ColourWritable c) (h' : ∀ c ∈ l', ColourWritable c)
    (e : Colours.shw v l = Colours.shw v l') : l = l' := by
  obtain ⟨s, h1, h2⟩ := C12_colours_round_trip (v := v) (by omega) h
  obtain ⟨s', h3, h4⟩ := C12_colours_round_trip (v := v) (by omega) h'
  rw [h1, h3] at e
  cases e
  rw [h2] at h4
  cases h4
  rfl

/-- Sections of fields with the same text agree in all fields that exist in this version. -/
theorem C72_fields (v : Nat) :
    (∀ f g : (General D).Section, (∀ k x, f k = some x → GKey.OK k x) → (∀ k x, g k = some x → GKey.OK k x) →
      (General D).toStr v f = (General D).toStr v g → ∀ k, (f k).filter (GKey.existsIn v k) = (g k).filter (GKey.existsIn v k)) ∧
    (∀ f g : (Editor D).Section, (∀ k x, f k = some x → EKey.OK k x) → (∀ k x, g k = some x → EKey.OK k x) →
      (Editor D).toStr v f = (Editor D).toStr v g → ∀ k, (f k).filter (EKey.existsIn v k) = (g k).filter (EKey.existsIn v k)) ∧
    (∀ f g : Metadata.Section, (∀ k x, f k = some x → MKey.OK k x) → (∀ k x, g k = some x → MKey.OK k x) →
      Metadata.toStr v f = Metadata.toStr v g → f = g) ∧
    (∀ f g : (Difficulty D).Section, (∀ k x, f k = some x → DecOK x) → (∀ k x, g k = some x → DecOK x) →
      (Difficulty D).toStr v f = (Difficulty D).toStr v g → f = g) := by
  refine ⟨fun f g hf hg e k => ?_, fun f g hf hg e k => ?_, fun f g hf hg e => ?_, fun f g hf hg e => ?_⟩
  · have h1 := C04_general v f hf
    rw [e, C04_general v g hg] at h1
    exact (congrFun (Res.ok.inj h1) k).symm
  · have h1 := C04_editor v f hf
    rw [e, C04_editor v g hg] at h1
    exact (congrFun (Res.ok.inj h1) k).symm
  · have h1 := C04_metadata v f hf
    rw [e, C04_metadata v g hg] at h1
    exact (Res.ok.inj h1).symm
  · have h1 := C04_difficulty v f hf
    rw [e, C04_difficulty v g hg] at h1
    exact (Res.ok.inj h1).symm

example (f : Metadata.Section) (hf : ∀ k x, f k = some x → MKey.OK k x)
    (h : Metadata.toStr 14 f = c!"Title:Re: start\nTags:a  b\nBeatmapID:-1") : f = exampleMetadata :=
  (C72_fields (D := Dec96) 14).2.2.1 f exampleMetadata hf exampleMetadata_ok (h.trans (by decide))

/-! ## Files -/

variable [UniLib]

/-- File values that can be written in full are the same if their texts are. -/
theorem C72_file {f g : OsuFile D} (hf : FileWritable f) (hg : FileWritable g) (h : f.shw = g.shw) : f = g := by
  obtain ⟨s, h1, h2⟩ := C41_round_trip hf
  obtain ⟨s', h3, h4⟩ := C41_round_trip hg
  rw [h1, h3] at h
  cases h
  rw [h2] at h4
  exact Res.ok.inj h4

/-- The version of any file value is told by its text. -/
theorem C72_version {f g : OsuFile D} {s : Str} (hf : f.shw = some s) (hg : g.shw = some s) : f.version = g.version := by
  obtain ⟨bs, e, -⟩ := C43_written f s hf
  obtain ⟨bs', e', -⟩ := C43_written g s hg
  rw [e] at e'
  unfold fileText at e'
  simp only [List.append_assoc] at e'
  have e' := List.append_cancel_left e'
  have key : ∀ (a b : Str), '\n' ∉ a → (a ++ '\n' :: b).takeWhile (· != '\n') = a := by
    intro a b ha
    induction a with
    | nil => simp
    | cons c a ih =>
      have hc : c ≠ '\n' := fun e => ha (by simp [e])
      simp [hc, ih fun hm => ha (List.mem_cons_of_mem _ hm)]
  have hn : ∀ n, '\n' ∉ natToStr n := fun n hm => by
    have := natToStr_digits n _ hm
    exact absurd this (by decide)
  have := congrArg (List.takeWhile (· != '\n')) e'
  rw [show ∀ x : Str, c!"\n\n" ++ x = '\n' :: ('\n' :: x) from fun _ => rfl,
    show ∀ x : Str, c!"\n\n" ++ x = '\n' :: ('\n' :: x) from fun _ => rfl, key _ _ (hn _), key _ _ (hn _)] at this
  exact natToStr_inj this

/-- Storyboards have the same text exactly if they differ only in quotes that paths get anyway. -/
theorem C72_osb {v : Nat} (hv : 14 ≤ v) {o p : Osb D} (ho : OsbWritable v o) (hp : OsbWritable v p) :
    Osb.shw v o = Osb.shw v p ↔
      o.variables = p.variables ∧ o.events.map (List.map quoted) = p.events.map (List.map quoted) := by
  constructor
  · intro h
    obtain ⟨s, h1, h2⟩ := C39_round_trip hv ho
    obtain ⟨s', h3, h4⟩ := C39_round_trip hv hp
    rw [h1, h3] at h
    cases h
    rw [h2] at h4
    have := Option.some.inj (Res.ok.inj h4)
    exact ⟨(Osb.mk.injEq .. ▸ this).1, (Osb.mk.injEq .. ▸ this).2⟩
  · rintro ⟨h1, h2⟩
    have key : ∀ o : Osb D, Osb.shw v o = Osb.shw v { o with events := o.events.map (List.map quoted) } := by
      rintro ⟨vs, es⟩
      unfold Osb.shw
      cases es with
      | none => rfl
      | some es => simp only [Option.map_some, shwVars_quoted]
    rw [key o, key p, h1, h2]

end

/-! ## Examples -/

/-- A number and the same digits as a text have the same text. -/
theorem C72_false_text : ∃ t u : TimingPoint Dec96, t ≠ u ∧ t.shw 14 = u.shw 14 :=
  ⟨{ tpExample with beatLength := .left ⟨false, 7, 0⟩ }, { tpExample with beatLength := .right c!"7" }, by decide, by decide⟩

/-- In version 4 timing points that differ in the volume have the same text. -/
theorem C72_false_old : ∃ t u : TimingPoint Dec96, t ≠ u ∧ t.shw 4 = u.shw 4 :=
  ⟨{ tpExample with volume := ⟨5⟩ }, { tpExample with volume := ⟨6⟩ }, by decide, by decide⟩

/-- Two hit objects with different texts. -/
example : HitObjects.shw 14 [hoSlider, hoSlider] ≠ HitObjects.shw 14 [hoSlider] := fun e => by
  have := C72_hit_objects_exact (l := [hoSlider, hoSlider]) (l' := [hoSlider]) (by
    intro o ho
    simp at ho
    subst ho
    exact hoSlider_ok) (by
    intro o ho
    simp at ho
    subst ho
    exact hoSlider_ok) e
  cases this

section
attribute [local instance] asciiUni

/-- Two files. -/
example : FileWritable exampleFile ∧ ∀ g, FileWritable g → exampleFile.shw = g.shw → exampleFile = g :=
  ⟨exampleFile_ok, fun _ hg h => C72_file exampleFile_ok hg h⟩

end

section
attribute [local instance] asciiUni

/-! The hypotheses of the theorems above. -/

private theorem tps_ok : ∀ t ∈ [tpExample, tpExample], TPExpressible 14 t := fun t ht => by
  have : t = tpExample := by simpa using ht
  subst this
  exact tpExample_ok

private theorem tp_ok : ∀ t ∈ [tpExample], TPExpressible 14 t := fun t ht => tps_ok t (List.mem_cons_of_mem _ ht)

example : TimingPoints.shw 14 [tpExample, tpExample] ≠ TimingPoints.shw 14 [tpExample] := fun e => by
  cases C72_timing_points_new tps_ok tp_ok e
example : TimingPoints.shw 14 [tpExample, tpExample] = TimingPoints.shw 14 [tpExample] ↔
    [tpExample, tpExample].map (tpDefaults 14) = [tpExample].map (tpDefaults 14) :=
  C72_timing_points (fun t ht => (tps_ok t ht).toTPWritable) (fun t ht => (tp_ok t ht).toTPWritable)

private theorem ho_ok : ∀ o ∈ [hoSlider, hoHold], HOWritable 14 o := fun o ho => by
  have : o = hoSlider ∨ o = hoHold := by simpa using ho
  rcases this with rfl | rfl
  · exact hoSlider_ok.toHOWritable
  · exact hoHold_ok.toHOWritable

example (h : [hoSlider, hoHold].map (hoBack 14) ≠ [hoSlider].map (hoBack 14)) :
    HitObjects.shw 14 [hoSlider, hoHold] ≠ HitObjects.shw 14 [hoSlider] := fun e =>
  h ((C72_hit_objects ho_ok (fun o ho => ho_ok o (List.mem_of_mem_take (i := 1) ho))).1 e)

example (l : List (Event Dec96)) (hl : ∀ e ∈ l, EvWritable 14 e) :
    Events.shw 14 evExample = Events.shw 14 l ↔ evExample.map quoted = l.map quoted := C72_events evExample_ok hl

example : Colours.shw 5 [.combo 1 ⟨1, 2, 3⟩, .sliderBorder ⟨0, 0, 0⟩] ≠ Colours.shw 5 [.sliderBorder ⟨0, 0, 0⟩, .combo 1 ⟨1, 2, 3⟩] := fun e => by
  have h : ∀ c : Colour, c = .combo 1 ⟨1, 2, 3⟩ ∨ c = .sliderBorder ⟨0, 0, 0⟩ → ColourWritable c := by
    rintro c (rfl | rfl)
    · exact (by decide : (0 : Int) ≤ 1)
    · trivial
  cases C72_colours (by decide) (fun c hc => h c (by simpa using hc)) (fun c hc => h c (Or.symm (by simpa using hc))) e

example {g : OsuFile Dec96} {s : Str} (h : exampleFile.shw = some s) (hg : g.shw = some s) : g.version = 14 := C72_version hg h
example : exampleFile.shw.isSome = true := by decide

example (p : Osb Dec96) (hp : OsbWritable 14 p) : Osb.shw 14 osbExample = Osb.shw 14 p ↔
    osbExample.variables = p.variables ∧ osbExample.events.map (List.map quoted) = p.events.map (List.map quoted) :=
  C72_osb (by decide) osbExample_ok hp

end

end Osu
