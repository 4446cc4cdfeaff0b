/-
`==` of the values of the library. All of them have derived `PartialEq`: variants and fields are compared one by one
(`#[derive(PartialEq)]` at the places cited). At the leaves `==` is equality, except for numbers (`rust_decimal`, which
compares values: `1.0 == 1.00`) and paths (`PathBuf`, which compares components, `pathEq`).
-/
import Verif.Model.Paths
import Verif.Model.OsuFile

namespace Osu
open SB Ev

/-- `==` of `rust_decimal::Decimal`, and `Decimal::normalize`. -/
class DecSame (D : Type) where
  eq : D → D → Bool
  norm : D → D
  eq_iff : ∀ a b, eq a b = true ↔ norm a = norm b
  norm_norm : ∀ a, norm (norm a) = norm a

variable {D : Type} [DecSame D]

/-- `==` of `Option`. -/
def sameOpt {α : Type} (eq : α → α → Bool) : Option α → Option α → Bool
  | none, none => true
  | some a, some b => eq a b
  | _, _ => false

/-- `==` of `Vec`. -/
def sameList {α : Type} (eq : α → α → Bool) : List α → List α → Bool
  | [], [] => true
  | a :: l, b :: m => eq a b && sameList eq l m
  | _, _ => false

/-- `Decimal` (src/osu_file/types.rs:275-278); `Either` compares the variants first. -/
def Decimal.same : Decimal D → Decimal D → Bool
  | .left a, .left b => DecSame.eq a b
  | .right s, .right t => decide (s = t)
  | _, _ => false

/-- `Position` (src/osu_file/types.rs:19-26). -/
def Position.same (p q : Position D) : Bool := p.x.same q.x && p.y.same q.y

/-- `TimingPoint` (src/osu_file/timingpoints/mod.rs:82-93). -/
def TimingPoint.same (t u : TimingPoint D) : Bool :=
  t.time.same u.time && t.beatLength.same u.beatLength && decide (t.meter = u.meter) && decide (t.sampleSet = u.sampleSet) &&
    decide (t.sampleIndex = u.sampleIndex) && decide (t.volume = u.volume) && decide (t.uninherited = u.uninherited) &&
    decide (t.effects = u.effects)

/-- `CurvePoint` (src/osu_file/hitobjects/types.rs:106-108). -/
def HO.CurvePoint.same (p q : HO.CurvePoint D) : Bool := p.pos.same q.pos

/-- `SlideParams` (src/osu_file/hitobjects/mod.rs:583-593), with its private flags. -/
def SlideParams.same (p q : SlideParams D) : Bool :=
  decide (p.curveType = q.curveType) && sameList HO.CurvePoint.same p.curvePoints q.curvePoints && decide (p.slides = q.slides) &&
    p.length.same q.length && decide (p.edgeSounds = q.edgeSounds) && decide (p.edgeSoundsShort = q.edgeSoundsShort) &&
    decide (p.edgeSets = q.edgeSets) && decide (p.edgeSetsShort = q.edgeSetsShort)

/-- `HitObjectParams` (src/osu_file/hitobjects/mod.rs:574-581). -/
def HOParams.same : HOParams D → HOParams D → Bool
  | .hitCircle, .hitCircle => true
  | .slider p, .slider q => p.same q
  | .spinner d, .spinner e => d.same e
  | .hold d, .hold e => d.same e
  | _, _ => false

/-- `HitObject` (src/osu_file/hitobjects/mod.rs:78-97). -/
def HitObject.same (o p : HitObject D) : Bool :=
  o.position.same p.position && o.time.same p.time && o.params.same p.params && decide (o.newCombo = p.newCombo) &&
    decide (o.comboSkip = p.comboSkip) && decide (o.hitsound = p.hitsound) && decide (o.hitsample = p.hitsample)

/-- `ContinuingFields` (src/osu_file/events/storyboard/cmds/types.rs:3-7). -/
def SB.ContinuingFields.same {α : Type} (eq : α → α → Bool) (c d : ContinuingFields α) : Bool :=
  eq c.start.1 d.start.1 && eq c.start.2 d.start.2 &&
    sameList (fun a b => eq a.1 b.1 && sameOpt eq a.2 b.2) c.continuing d.continuing

mutual
/-- `Command` (src/osu_file/events/storyboard/cmds/mod.rs:24-28). -/
def SB.Command.same : Command D → Command D → Bool
  | .mk t p, .mk u q => decide (t = u) && propsSame p q
/-- `CommandProperties` (src/osu_file/events/storyboard/cmds/mod.rs:285-349). -/
def SB.propsSame : CmdProps D (Command D) → CmdProps D (Command D) → Bool
  | .fade e t s c, .fade e' t' s' c' => decide (e = e') && decide (t = t') && s.same s' && sameList Decimal.same c c'
  | .move e t c, .move e' t' c' => decide (e = e') && decide (t = t') && c.same Decimal.same c'
  | .moveX e t s c, .moveX e' t' s' c' => decide (e = e') && decide (t = t') && s.same s' && sameList Decimal.same c c'
  | .moveY e t s c, .moveY e' t' s' c' => decide (e = e') && decide (t = t') && s.same s' && sameList Decimal.same c c'
  | .scale e t s c, .scale e' t' s' c' => decide (e = e') && decide (t = t') && s.same s' && sameList Decimal.same c c'
  | .vectorScale e t c, .vectorScale e' t' c' => decide (e = e') && decide (t = t') && c.same Decimal.same c'
  | .rotate e t s c, .rotate e' t' s' c' => decide (e = e') && decide (t = t') && s.same s' && sameList Decimal.same c c'
  | .colour e t c, .colour e' t' c' => decide (e = e') && decide (t = t') && decide (c = c')
  | .parameter e t p c, .parameter e' t' p' c' => decide (e = e') && decide (t = t') && decide (p = p') && decide (c = c')
  | .loop n c, .loop n' c' => decide (n = n') && cmdsSame c c'
  | .trigger k t g c, .trigger k' t' g' c' => decide (k = k') && decide (t = t') && decide (g = g') && cmdsSame c c'
  | _, _ => false
/-- `==` of `Vec<Command>`. -/
def SB.cmdsSame : List (Command D) → List (Command D) → Bool
  | [], [] => true
  | c :: cs, d :: ds => c.same d && cmdsSame cs ds
  | _, _ => false
end

/-- `Object` (src/osu_file/events/storyboard/sprites.rs:63-70). -/
def SB.Object.same (o p : Object D) : Bool :=
  decide (o.layer = p.layer) && decide (o.origin = p.origin) && o.position.same p.position &&
    o.objectType.same DecSame.eq p.objectType && cmdsSame o.commands p.commands

/-- `Background` (src/osu_file/events/normal_event/mod.rs:47-53). -/
def Ev.Background.same (b c : Background D) : Bool :=
  decide (b.startTime = c.startTime) && pathEq b.fileName c.fileName && sameOpt Position.same b.position c.position &&
    cmdsSame b.commands c.commands

/-- `Video` (src/osu_file/events/normal_event/mod.rs:120-127). -/
def Ev.Video.same (b c : Video D) : Bool :=
  decide (b.startTime = c.startTime) && pathEq b.fileName c.fileName && sameOpt Position.same b.position c.position &&
    cmdsSame b.commands c.commands && decide (b.shortHand = c.shortHand)

/-- `SpriteLegacy` and `AnimationLegacy` (src/osu_file/events/normal_event/mod.rs:355-363, 439-446). -/
def Ev.SpriteLegacy.same (b c : SpriteLegacy D) : Bool :=
  decide (b.layer = c.layer) && decide (b.origin = c.origin) && pathEq b.fileName c.fileName &&
    sameOpt Position.same b.position c.position && cmdsSame b.commands c.commands

/-- `SampleLegacy` (src/osu_file/events/normal_event/mod.rs:519-526). -/
def Ev.SampleLegacy.same (b c : SampleLegacy D) : Bool :=
  b.time.same c.time && decide (b.layer = c.layer) && pathEq b.fileName c.fileName && decide (b.volume = c.volume) &&
    cmdsSame b.commands c.commands

/-- `AudioSample` (src/osu_file/events/audio_sample/mod.rs:21-27). -/
def Ev.AudioSample.same (b c : AudioSample) : Bool :=
  decide (b.time = c.time) && decide (b.layer = c.layer) && pathEq b.filepath c.filepath && decide (b.volume = c.volume)

/-- `Event` (src/osu_file/events/mod.rs:329-343). -/
def Ev.Event.same : Event D → Event D → Bool
  | .comment s, .comment t => decide (s = t)
  | .background b, .background c => b.same c
  | .video b, .video c => b.same c
  | .break_ b, .break_ c => decide (b = c)
  | .colourTransformation b, .colourTransformation c => decide (b = c)
  | .spriteLegacy b, .spriteLegacy c => b.same c
  | .animationLegacy b, .animationLegacy c => b.same c
  | .sampleLegacy b, .sampleLegacy c => b.same c
  | .object b, .object c => b.same c
  | .audioSample b, .audioSample c => b.same c
  | _, _ => false

/-- `Osb` (src/osu_file/osb/mod.rs:13-17) and `Variable` (src/osu_file/osb/types.rs:11-15). -/
def Osb.same (o p : Osb D) : Bool := decide (o.variables = p.variables) && sameOpt (sameList Event.same) o.events p.events

/-- The fields of `General` (src/osu_file/general/mod.rs:24-158, the structs made by `versioned_field!`,
src/helper/macros.rs:3). -/
def GKey.same : (k : GKey) → k.Val D → k.Val D → Bool
  | .audioFilename, p, q => pathEq p q
  | .stackLeniency, d, e => Decimal.same d e
  | .editorDistanceSpacing, d, e => Decimal.same d e
  | .editorBookmarks, l, m => decide ((l : List Int32) = m)
  | .audioLeadIn, a, b | .previewTime, a, b | .countdownOffset, a, b => decide ((a : Int32) = b)
  | .audioHash, a, b | .skinPreference, a, b => decide ((a : Str) = b)
  | .countdown, a, b => decide ((a : Countdown) = b)
  | .sampleSet, a, b => decide ((a : GSampleSet) = b)
  | .mode, a, b => decide ((a : Mode) = b)
  | .overlayPosition, a, b => decide ((a : OverlayPosition) = b)
  | .letterboxInBreaks, a, b | .storyFireInFront, a, b | .useSkinSprites, a, b | .alwaysShowPlayfield, a, b
  | .epilepsyWarning, a, b | .specialStyle, a, b | .widescreenStoryboard, a, b | .samplesMatchPlaybackRate, a, b =>
    decide ((a : Bool) = b)

/-- The fields of `Editor` (src/osu_file/editor/mod.rs:15-63). -/
def EKey.same : (k : EKey) → k.Val D → k.Val D → Bool
  | .bookmarks, a, b => decide ((a : List Int32) = b)
  | .distanceSpacing, d, e | .beatDivisor, d, e | .timelineZoom, d, e => Decimal.same d e
  | .gridSize, a, b | .currentTime, a, b => decide ((a : Int32) = b)

/-- The fields of `Metadata` (src/osu_file/metadata/mod.rs:14-62). -/
def MKey.same : (k : MKey) → k.Val → k.Val → Bool
  | .title, a, b | .titleUnicode, a, b | .artist, a, b | .artistUnicode, a, b | .creator, a, b | .version, a, b
  | .source, a, b => decide ((a : Str) = b)
  | .tags, a, b => decide ((a : List Str) = b)
  | .beatmapID, a, b | .beatmapSetID, a, b => decide ((a : Int32) = b)

/-- The structs of the key/value sections (src/helper/macros.rs:105-112): field by field. -/
def Schema.same (S : Schema) (eq : (k : S.Key) → S.Val k → S.Val k → Bool) (f g : S.Section) : Bool :=
  S.keys.all fun k => sameOpt (eq k) (f k) (g k)

variable [DecLib D]

/-- `OsuFile` (src/osu_file/mod.rs:39-70); `Colour` and `Rgb` (src/osu_file/colours/mod.rs:76-85,
src/osu_file/colours/types.rs:10-19) contain integers only. -/
def OsuFile.same (f g : OsuFile D) : Bool :=
  decide (f.version = g.version) && sameOpt ((General D).same GKey.same) f.general g.general &&
    sameOpt ((Editor D).same EKey.same) f.editor g.editor && sameOpt Osb.same f.osb g.osb &&
    sameOpt (Metadata.same MKey.same) f.metadata g.metadata &&
    sameOpt ((Difficulty D).same fun _ => Decimal.same) f.difficulty g.difficulty &&
    sameOpt (sameList Event.same) f.events g.events && sameOpt (sameList TimingPoint.same) f.timingPoints g.timingPoints &&
    decide (f.colours = g.colours) && sameOpt (sameList HitObject.same) f.hitobjects g.hitobjects

end Osu
