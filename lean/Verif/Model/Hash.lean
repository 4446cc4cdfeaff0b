/-
`Hash` of the values of the library: the calls made on the `Hasher`. All types have derived `Hash` (the attributes cited in
`Model/Equality.lean`): the position of the variant, then the fields in the order of the declaration. The leaves are hashed by
std and rust_decimal (assumed).
-/
import Verif.Model.Equality

namespace Osu
open SB Ev

/-- A call on the `Hasher`. -/
inductive HCall (D : Type) where
  /-- `write_isize` of the position of a variant, by `mem::discriminant(self).hash`. -/
  | variant (n : Nat)
  /-- `write_length_prefix` before the items of a `Vec`. -/
  | length (n : Nat)
  /-- `write_u8`, `write_u32`, `write_i32` and `write_usize`, with the number of bits. -/
  | int (bits : Nat) (n : Int)
  /-- `write` of the numbers of a `Vec<i32>` at once. -/
  | ints (l : List Int32)
  /-- `write_str`. -/
  | text (s : Str)
  /-- `write` of a part of a path. -/
  | bytes (s : Str)
  /-- The four calls `write_u32` for the parts of a normalized number (rust_decimal). -/
  | number (d : D)
  deriving DecidableEq, Repr

section
variable {D : Type}

/-- `Hash` of the integer types and of `bool` (hashed as a `u8`). -/
def i32Feed (n : Int32) : List (HCall D) := [.int 32 n.toInt]
def u8Feed (n : UInt8) : List (HCall D) := [.int 8 n.toNat]
def u32Feed (n : UInt32) : List (HCall D) := [.int 32 n.toNat]
def usizeFeed (n : UInt64) : List (HCall D) := [.int 64 n.toNat]
def boolFeed (b : Bool) : List (HCall D) := [.int 8 b.toNat]

/-- `Hash` of `String`. -/
def textFeed (s : Str) : List (HCall D) := [.text s]

/-- `Hash` of `Option`. -/
def optFeed {α : Type} (f : α → List (HCall D)) : Option α → List (HCall D)
  | none => [.variant 0]
  | some a => .variant 1 :: f a

/-- `Hash` of `Vec`, of types other than the integers. -/
def listFeed {α : Type} (f : α → List (HCall D)) (l : List α) : List (HCall D) := .length l.length :: l.flatMap f

/-- `Hash` of `Vec<i32>`. -/
def i32sFeed (l : List Int32) : List (HCall D) := [.length l.length, .ints l]

/-- After a separator `Hash` of `Path` leaves out a `.` that is a whole part. -/
def skipHere : Str → Str
  | ['.'] => []
  | '.' :: '/' :: r => '/' :: r
  | s => s

theorem skipHere_le (s : Str) : (skipHere s).length ≤ s.length := by
  unfold skipHere
  split <;> simp

/-- The loop of `Hash` of `Path` (std, Unix), over the text that is left; `cur` is the text since `component_start`. -/
def pathChunks (cur : Str) : Str → List Str
  | [] => if cur = [] then [] else [cur]
  | c :: r =>
    if c = '/' then (if cur = [] then [] else [cur]) ++ pathChunks [] (skipHere r)
    else pathChunks (cur ++ [c]) r
termination_by s => s.length
decreasing_by
  · have := skipHere_le r; simp; omega
  · simp

/-- `chunk_bits` of `Hash` of `Path`: the lengths of the parts are added, with a rotation after each. -/
def chunkBits (l : List Str) : BitVec 64 :=
  l.foldl (fun n s => (n + BitVec.ofNat 64 (byteLen s)).rotateRight 2) 0

/-- `Hash` of `PathBuf`. -/
def pathFeed (p : Str) : List (HCall D) :=
  (pathChunks [] p).map .bytes ++ [.int 64 (chunkBits (pathChunks [] p)).toNat]

end

section
variable {D : Type}

/-- Types of the timing points (src/osu_file/timingpoints/types.rs:7-20, 75-76, 148-155, 204-205). -/
def TP.SampleSet.feed : TP.SampleSet → List (HCall D)
  | .beatmapDefault => [.variant 0] | .normal => [.variant 1] | .soft => [.variant 2] | .drum => [.variant 3]
  | .other n => .variant 4 :: i32Feed n
def TP.SampleIndex.feed : TP.SampleIndex → List (HCall D)
  | .osuDefaultHitsounds => [.variant 0]
  | .index n => .variant 1 :: u32Feed n
def TP.Volume.feed (v : TP.Volume) : List (HCall D) := i32Feed v.val
def TP.Effects.feed (e : TP.Effects) : List (HCall D) := u32Feed e.bits

/-- Types of the hit objects (src/osu_file/hitobjects/types.rs:22-23, 60-67, 140-154, 200-202, 280-291, 387-399, 428-433,
481-490). -/
def HO.ComboSkipCount.feed (c : HO.ComboSkipCount) : List (HCall D) := u8Feed c.val
def HO.SampleSet.feed : HO.SampleSet → List (HCall D)
  | .noCustom => [.variant 0] | .normal => [.variant 1] | .soft => [.variant 2] | .drum => [.variant 3]
  | .other n => .variant 4 :: usizeFeed n
def HO.EdgeSet.feed (e : HO.EdgeSet) : List (HCall D) := e.normalSet.feed ++ e.additionSet.feed
def HO.Volume.feed (v : HO.Volume) : List (HCall D) := optFeed u8Feed v.val
def HO.HitSound.feed (h : HO.HitSound) : List (HCall D) :=
  boolFeed h.normal ++ boolFeed h.whistle ++ boolFeed h.finish ++ boolFeed h.clap
def HO.CurveType.feed (c : HO.CurveType) : List (HCall D) := [.variant c.ctorIdx]
def HO.SampleIndex.feed : HO.SampleIndex → List (HCall D)
  | .timingPoint => [.variant 0]
  | .index n => .variant 1 :: usizeFeed n
def HO.HitSample.feed (h : HO.HitSample) : List (HCall D) :=
  h.normalSet.feed ++ h.additionSet.feed ++ h.index.feed ++ h.volume.feed ++ textFeed h.filename

/-- `Rgb` and `Colour` (src/osu_file/colours/types.rs:10-19, src/osu_file/colours/mod.rs:76-85). -/
def Rgb.feed (c : Rgb) : List (HCall D) := u8Feed c.red ++ u8Feed c.green ++ u8Feed c.blue
def Colour.feed : Colour → List (HCall D)
  | .combo n c => .variant 0 :: (i32Feed n ++ c.feed)
  | .sliderTrackOverride c => .variant 1 :: c.feed
  | .sliderBorder c => .variant 2 :: c.feed

/-- Types of the storyboard (src/osu_file/events/storyboard/types.rs:8-19, 135-142, 171-177, 204-243, 337-343,
src/osu_file/events/storyboard/cmds/types.rs:99-103, src/osu_file/events/storyboard/sprites.rs:24-32, 291-313, 458-463). -/
def SB.SampleSet.feed (s : SB.SampleSet) : List (HCall D) := [.variant s.ctorIdx]
def SB.Addition.feed (a : SB.Addition) : List (HCall D) := [.variant a.ctorIdx]
def SB.TriggerType.feed : SB.TriggerType → List (HCall D)
  | .hitSound h => .variant 0 :: (optFeed SB.SampleSet.feed h.sampleSet ++ optFeed SB.SampleSet.feed h.additionsSampleSet ++
      optFeed SB.Addition.feed h.addition ++ optFeed usizeFeed h.customSampleSet)
  | .passing => [.variant 1]
  | .failing => [.variant 2]
def SB.Easing.feed : SB.Easing → List (HCall D)
  | .other n => .variant 35 :: i32Feed n
  | e => [.variant e.ctorIdx]
def SB.Parameter.feed (p : SB.Parameter) : List (HCall D) := [.variant p.ctorIdx]
def SB.Colours.feed (c : SB.Colours) : List (HCall D) :=
  u8Feed c.start.1 ++ u8Feed c.start.2.1 ++ u8Feed c.start.2.2 ++
    listFeed (fun x => u8Feed x.1 ++ optFeed u8Feed x.2.1 ++ optFeed u8Feed x.2.2) c.continuing
def SB.Layer.feed (l : SB.Layer) : List (HCall D) := [.variant l.ctorIdx]
def SB.OriginType.feed (o : SB.OriginType) : List (HCall D) := [.variant o.ctorIdx]
def SB.Origin.feed (o : SB.Origin) : List (HCall D) :=
  (match o.type with
    | .inl t => .variant 0 :: t.feed
    | .inr n => .variant 1 :: i32Feed n) ++ boolFeed o.shorthand
def SB.LoopType.feed (l : SB.LoopType) : List (HCall D) := [.variant l.ctorIdx]

/-- Types of the other events (src/osu_file/events/normal_event/types.rs:7-20, 77-86, src/osu_file/events/normal_event/mod.rs:211-216,
276-283, src/osu_file/events/audio_sample/mod.rs:107-108, 166-173). -/
def Ev.LayerLegacy.feed (l : Ev.LayerLegacy) : List (HCall D) := [.variant l.ctorIdx]
def Ev.OriginLegacy.feed (o : Ev.OriginLegacy) : List (HCall D) := [.variant o.ctorIdx]
def Ev.AudioLayer.feed (l : Ev.AudioLayer) : List (HCall D) := [.variant l.ctorIdx]
def Ev.Volume.feed (v : Ev.Volume) : List (HCall D) := u8Feed v.val
def Ev.Break.feed (b : Ev.Break) : List (HCall D) := i32Feed b.startTime ++ i32Feed b.endTime ++ boolFeed b.shortHand
def Ev.ColourTransformation.feed (c : Ev.ColourTransformation) : List (HCall D) :=
  i32Feed c.startTime ++ u8Feed c.red ++ u8Feed c.green ++ u8Feed c.blue

/-- `Variable` (src/osu_file/osb/types.rs:11-15). -/
def Variable.feed (v : Variable) : List (HCall D) := textFeed v.name ++ textFeed v.value

/-- Types of the general section (src/osu_file/general/types.rs:9-20, 70-82, 131-142, 187-196). -/
def Countdown.feed (c : Countdown) : List (HCall D) := [.variant c.ctorIdx]
def GSampleSet.feed (c : GSampleSet) : List (HCall D) := [.variant c.ctorIdx]
def Mode.feed (c : Mode) : List (HCall D) := [.variant c.ctorIdx]
def OverlayPosition.feed (c : OverlayPosition) : List (HCall D) := [.variant c.ctorIdx]

end

section
variable {D : Type} [DecSame D]

/-- `Hash` of `rust_decimal::Decimal`, which normalizes first. -/
def numberFeed (d : D) : List (HCall D) := [.number (DecSame.norm d)]

/-- `Decimal` (src/osu_file/types.rs:275-278). -/
def Decimal.feed : Decimal D → List (HCall D)
  | .left d => .variant 0 :: numberFeed d
  | .right s => .variant 1 :: textFeed s

/-- `Position` (src/osu_file/types.rs:19-26). -/
def Position.feed (p : Position D) : List (HCall D) := p.x.feed ++ p.y.feed

/-- `TimingPoint` (src/osu_file/timingpoints/mod.rs:82-93). -/
def TimingPoint.feed (t : TimingPoint D) : List (HCall D) :=
  t.time.feed ++ t.beatLength.feed ++ i32Feed t.meter ++ t.sampleSet.feed ++ t.sampleIndex.feed ++ t.volume.feed ++
    optFeed boolFeed t.uninherited ++ optFeed TP.Effects.feed t.effects

/-- `CurvePoint` (src/osu_file/hitobjects/types.rs:106-108). -/
def HO.CurvePoint.feed (c : HO.CurvePoint D) : List (HCall D) := c.pos.feed

/-- `SlideParams` (src/osu_file/hitobjects/mod.rs:583-593). -/
def SlideParams.feed (s : SlideParams D) : List (HCall D) :=
  s.curveType.feed ++ listFeed HO.CurvePoint.feed s.curvePoints ++ i32Feed s.slides ++ s.length.feed ++
    listFeed HO.HitSound.feed s.edgeSounds ++ boolFeed s.edgeSoundsShort ++ listFeed HO.EdgeSet.feed s.edgeSets ++
    boolFeed s.edgeSetsShort

/-- `HitObjectParams` (src/osu_file/hitobjects/mod.rs:574-581). -/
def HOParams.feed : HOParams D → List (HCall D)
  | .hitCircle => [.variant 0]
  | .slider s => .variant 1 :: s.feed
  | .spinner e => .variant 2 :: e.feed
  | .hold e => .variant 3 :: e.feed

/-- `HitObject` (src/osu_file/hitobjects/mod.rs:78-97). -/
def HitObject.feed (o : HitObject D) : List (HCall D) :=
  o.position.feed ++ o.time.feed ++ o.params.feed ++ boolFeed o.newCombo ++ o.comboSkip.feed ++ o.hitsound.feed ++
    optFeed HO.HitSample.feed o.hitsample

/-- `ContinuingFields<Decimal>` (src/osu_file/events/storyboard/cmds/types.rs:3-7). -/
def pairsFeed (c : ContinuingFields (Decimal D)) : List (HCall D) :=
  c.start.1.feed ++ c.start.2.feed ++ listFeed (fun a => a.1.feed ++ optFeed Decimal.feed a.2) c.continuing

mutual
/-- `Command` (src/osu_file/events/storyboard/cmds/mod.rs:24-28). -/
def SB.Command.feed : Command D → List (HCall D)
  | .mk t p => optFeed i32Feed t ++ propsFeed p
/-- `CommandProperties` (src/osu_file/events/storyboard/cmds/mod.rs:285-349). -/
def SB.propsFeed : CmdProps D (Command D) → List (HCall D)
  | .fade e t s c => .variant 0 :: (e.feed ++ optFeed i32Feed t ++ s.feed ++ listFeed Decimal.feed c)
  | .move e t c => .variant 1 :: (e.feed ++ optFeed i32Feed t ++ pairsFeed c)
  | .moveX e t s c => .variant 2 :: (e.feed ++ optFeed i32Feed t ++ s.feed ++ listFeed Decimal.feed c)
  | .moveY e t s c => .variant 3 :: (e.feed ++ optFeed i32Feed t ++ s.feed ++ listFeed Decimal.feed c)
  | .scale e t s c => .variant 4 :: (e.feed ++ optFeed i32Feed t ++ s.feed ++ listFeed Decimal.feed c)
  | .vectorScale e t c => .variant 5 :: (e.feed ++ optFeed i32Feed t ++ pairsFeed c)
  | .rotate e t s c => .variant 6 :: (e.feed ++ optFeed i32Feed t ++ s.feed ++ listFeed Decimal.feed c)
  | .colour e t c => .variant 7 :: (e.feed ++ optFeed i32Feed t ++ c.feed)
  | .parameter e t p c => .variant 8 :: (e.feed ++ optFeed i32Feed t ++ p.feed ++ listFeed SB.Parameter.feed c)
  | .loop n c => .variant 9 :: (u32Feed n ++ .length c.length :: cmdsFeed c)
  | .trigger k t g c => .variant 10 :: (k.feed ++ optFeed i32Feed t ++ optFeed i32Feed g ++ .length c.length :: cmdsFeed c)
/-- The items of `Vec<Command>`. -/
def SB.cmdsFeed : List (Command D) → List (HCall D)
  | [] => []
  | c :: cs => c.feed ++ cmdsFeed cs
end

/-- `ObjectType`, `Sprite` and `Animation` (src/osu_file/events/storyboard/sprites.rs:236-242, 267-270, 284-289). -/
def SB.ObjectType.feed : ObjectType D → List (HCall D)
  | .sprite p => .variant 0 :: pathFeed p
  | .animation n d l p => .variant 1 :: (u32Feed n ++ numberFeed d ++ l.feed ++ pathFeed p)

/-- `Object` (src/osu_file/events/storyboard/sprites.rs:63-70). -/
def SB.Object.feed (o : Object D) : List (HCall D) :=
  o.layer.feed ++ o.origin.feed ++ o.position.feed ++ o.objectType.feed ++ .length o.commands.length :: cmdsFeed o.commands

/-- `Background` (src/osu_file/events/normal_event/mod.rs:47-53). -/
def Ev.Background.feed (b : Background D) : List (HCall D) :=
  i32Feed b.startTime ++ pathFeed b.fileName ++ optFeed Position.feed b.position ++
    .length b.commands.length :: cmdsFeed b.commands

/-- `Video` (src/osu_file/events/normal_event/mod.rs:120-127). -/
def Ev.Video.feed (b : Video D) : List (HCall D) :=
  i32Feed b.startTime ++ pathFeed b.fileName ++ optFeed Position.feed b.position ++
    .length b.commands.length :: (cmdsFeed b.commands ++ boolFeed b.shortHand)

/-- `SpriteLegacy` and `AnimationLegacy` (src/osu_file/events/normal_event/mod.rs:355-363, 439-446). -/
def Ev.SpriteLegacy.feed (b : SpriteLegacy D) : List (HCall D) :=
  b.layer.feed ++ b.origin.feed ++ pathFeed b.fileName ++ optFeed Position.feed b.position ++
    .length b.commands.length :: cmdsFeed b.commands

/-- `SampleLegacy` (src/osu_file/events/normal_event/mod.rs:519-526). -/
def Ev.SampleLegacy.feed (b : SampleLegacy D) : List (HCall D) :=
  b.time.feed ++ b.layer.feed ++ pathFeed b.fileName ++ optFeed Ev.Volume.feed b.volume ++
    .length b.commands.length :: cmdsFeed b.commands

/-- `AudioSample` (src/osu_file/events/audio_sample/mod.rs:21-27). -/
def Ev.AudioSample.feed (a : AudioSample) : List (HCall D) :=
  i32Feed a.time ++ a.layer.feed ++ pathFeed a.filepath ++ a.volume.feed

/-- `Event` (src/osu_file/events/mod.rs:329-343). -/
def Ev.Event.feed : Event D → List (HCall D)
  | .comment s => .variant 0 :: textFeed s
  | .background b => .variant 1 :: b.feed
  | .video b => .variant 2 :: b.feed
  | .break_ b => .variant 3 :: b.feed
  | .colourTransformation b => .variant 4 :: b.feed
  | .spriteLegacy b => .variant 5 :: b.feed
  | .animationLegacy b => .variant 6 :: b.feed
  | .sampleLegacy b => .variant 7 :: b.feed
  | .object o => .variant 8 :: o.feed
  | .audioSample a => .variant 9 :: a.feed

/-- `Osb` (src/osu_file/osb/mod.rs:13-17). -/
def Osb.feed (o : Osb D) : List (HCall D) :=
  optFeed (listFeed Variable.feed) o.variables ++ optFeed (listFeed Event.feed) o.events

/-- The fields of `General` (src/osu_file/general/mod.rs:24-158, the structs made by `versioned_field!`,
src/helper/macros.rs:3). -/
def GKey.feed : (k : GKey) → k.Val D → List (HCall D)
  | .audioFilename, p => pathFeed p
  | .stackLeniency, d => Decimal.feed d
  | .editorDistanceSpacing, d => Decimal.feed d
  | .editorBookmarks, l => i32sFeed l
  | .audioLeadIn, a | .previewTime, a | .countdownOffset, a => i32Feed a
  | .audioHash, a | .skinPreference, a => textFeed a
  | .countdown, a => Countdown.feed a
  | .sampleSet, a => GSampleSet.feed a
  | .mode, a => Mode.feed a
  | .overlayPosition, a => OverlayPosition.feed a
  | .letterboxInBreaks, a | .storyFireInFront, a | .useSkinSprites, a | .alwaysShowPlayfield, a
  | .epilepsyWarning, a | .specialStyle, a | .widescreenStoryboard, a | .samplesMatchPlaybackRate, a => boolFeed a

/-- The fields of `Editor` (src/osu_file/editor/mod.rs:15-63). -/
def EKey.feed : (k : EKey) → k.Val D → List (HCall D)
  | .bookmarks, a => i32sFeed a
  | .distanceSpacing, d | .beatDivisor, d | .timelineZoom, d => Decimal.feed d
  | .gridSize, a | .currentTime, a => i32Feed a

/-- The fields of `Metadata` (src/osu_file/metadata/mod.rs:14-62). -/
def MKey.feed : (k : MKey) → k.Val → List (HCall D)
  | .title, a | .titleUnicode, a | .artist, a | .artistUnicode, a | .creator, a | .version, a | .source, a => textFeed a
  | .tags, a => listFeed textFeed a
  | .beatmapID, a | .beatmapSetID, a => i32Feed a

/-- The structs of the key/value sections (src/helper/macros.rs:105-112): field by field. -/
def Schema.feed (S : Schema) (f : (k : S.Key) → S.Val k → List (HCall D)) (s : S.Section) : List (HCall D) :=
  S.keys.flatMap fun k => optFeed (f k) (s k)

variable [DecLib D]

/-- `OsuFile` (src/osu_file/mod.rs:39-70); `Version` is `u8` (src/osu_file/types.rs:17). -/
def OsuFile.feed (f : OsuFile D) : List (HCall D) :=
  .int 8 f.version :: (optFeed ((General D).feed GKey.feed) f.general ++ optFeed ((Editor D).feed EKey.feed) f.editor ++
    optFeed Osb.feed f.osb ++ optFeed (Metadata.feed MKey.feed) f.metadata ++
    optFeed ((Difficulty D).feed fun _ => Decimal.feed) f.difficulty ++ optFeed (listFeed Event.feed) f.events ++
    optFeed (listFeed TimingPoint.feed) f.timingPoints ++ optFeed (listFeed Colour.feed) f.colours ++
    optFeed (listFeed HitObject.feed) f.hitobjects)

end

end Osu
