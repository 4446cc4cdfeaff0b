/-
Default values (`VersionedDefault`, `Default`) and the remaining constructors of hit objects.
-/
import Verif.Model.OsuFile
import Verif.Model.Metadata
import Verif.Model.TimingPointApi

namespace Osu

/-- `default` of each field type of `General` (src/osu_file/general/mod.rs:24-41, src/osu_file/general/types.rs:60-67,
121-128, 180-184, 230-237). The outer `none`: the type has no `default` (src/osu_file/general/mod.rs:42-93 give none);
the inner one is the result `None`. `d07` is the constant `dec!(0.7)`. -/
def GKey.default {D : Type} (d07 : D) : (k : GKey) → Nat → Option (Option (k.Val D))
  | audioFilename, _ => some (some [])
  | audioLeadIn, _ => some (some (0 : Int32))
  | audioHash, v => some (if v > 13 then none else some [])
  | previewTime, _ => some (some (-1 : Int32))
  | countdown, v => some (if 3 ≤ v ∧ v ≤ 4 then none else some .normal)
  | sampleSet, v => some (if v = 3 then none else some .normal)
  | stackLeniency, _ => some (some (.left d07))
  | mode, _ => some (some .osu)
  | letterboxInBreaks, _ => some (some false)
  | storyFireInFront, _ => some (some true)
  | useSkinSprites, _ => some (some false)
  | alwaysShowPlayfield, _ => some (some false)
  | overlayPosition, v => some (if 3 ≤ v ∧ v ≤ 13 then none else some .noChange)
  | skinPreference, _ => some (some [])
  | epilepsyWarning, _ => some (some false)
  | countdownOffset, _ => some (some (0 : Int32))
  | specialStyle, _ => some (some false)
  | widescreenStoryboard, _ => some (some false)
  | samplesMatchPlaybackRate, _ => some (some false)
  | editorBookmarks, _ => none
  | editorDistanceSpacing, _ => none

/-- The default of `Tags` (src/osu_file/metadata/mod.rs:21-33), the only field of `Metadata` that has one. -/
def tagsDefault : List Str := []

/-- `default` of `Colours` (src/osu_file/colours/mod.rs:66-73). -/
def Colours.default (v : Nat) : Option (List Colour) := if 3 ≤ v ∧ v ≤ 4 then none else some []

/-- `default` of `Events` (src/osu_file/events/mod.rs:323-327). -/
def Ev.Events.default {D : Type} (_v : Nat) : Option (List (Ev.Event D)) := some []

/-- `default` of `TimingPoints` (src/osu_file/timingpoints/mod.rs:73-77). -/
def TimingPoints.default {D : Type} (_v : Nat) : Option (List (TimingPoint D)) := some []

/-- `default` of `HitObjects` (src/osu_file/hitobjects/mod.rs:66-70). -/
def HitObjects.default {D : Type} (_v : Nat) : Option (List (HitObject D)) := some []

section
variable {D : Type} [DecLib D] [DecArith D]
open DecArith

/-- `Default for Decimal` (src/osu_file/types.rs:346-350) and `dec!(0)`. -/
def Decimal.zero : Decimal D := .left (ofI32 0)

/-- `Default for Position` (src/osu_file/types.rs:28-35). -/
def Position.default : Position D := ⟨.left (ofI32 256), .left (ofI32 192)⟩

namespace HitObject

/-- `HitObject::hitcircle_default` (src/osu_file/hitobjects/mod.rs:120-130). -/
def circleDefault : HitObject D :=
  ⟨Position.default, .zero, .hitCircle, false, ⟨0⟩, ⟨false, false, false, false⟩, none⟩

/-- `HitObject::spinner_default` (src/osu_file/hitobjects/mod.rs:132-144). -/
def spinnerDefault : HitObject D :=
  ⟨Position.default, .zero, .spinner .zero, false, ⟨0⟩, ⟨false, false, false, false⟩, none⟩

/-- `HitObject::osu_mania_hold_default` (src/osu_file/hitobjects/mod.rs:146-161). -/
def holdDefault : HitObject D :=
  ⟨⟨.zero, (Position.default : Position D).y⟩, .zero, .hold .zero, false, ⟨0⟩, ⟨false, false, false, false⟩, none⟩

end HitObject
end

/-- `SlideParams::new` (src/osu_file/hitobjects/mod.rs:595-615): both flags say that the list was left out. -/
def SlideParams.new {D : Type} (ct : HO.CurveType) (ps : List (HO.CurvePoint D)) (slides : Int32) (length : Decimal D)
    (sounds : List HO.HitSound) (sets : List HO.EdgeSet) : SlideParams D :=
  ⟨ct, ps, slides, length, sounds, true, sets, true⟩

end Osu
