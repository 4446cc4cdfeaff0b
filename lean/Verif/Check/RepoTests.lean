/-
The tests of the repository (src/tests), run on the model. They are no proofs; they check that the model computes what
the code is known to compute. The tests over whole files (src/tests/osu_files) are run by tools/replay.py.
-/
import Verif.Proof.Dec96
import Verif.Model.OsuFile
import Verif.Model.Messages
import Verif.Model.Constructors
import Verif.Model.TimingPointApi
import Verif.Model.Trimmer
import Verif.Proof.DecArith96

namespace Osu.RepoTests
open SB Ev

attribute [local instance] asciiUni
set_option maxRecDepth 20000

/-- A number of the tests. -/
def n (s : Str) : Decimal Dec96 := Decimal.ofStr s

/-- The error of a result. -/
def errOf {ε α : Type} : Res ε α → Option ε
  | .err e => some e
  | _ => none

/-- The text of the error of a result. -/
def msgOf {ε α : Type} (f : ε → Str) (r : Res ε α) : Option Str := (errOf r).map f

/-- The value of a result. -/
def okOf {ε α : Type} : Res ε α → Option α
  | .ok a => some a
  | _ => none

/-! ## src/tests/mod.rs -/

def generalText : Str := c!"AudioFilename: test.mp3\nAudioLeadIn: 555\nPreviewTime: 5\nCountdown: 3\nSampleSet: Soft\nStackLeniency: 0.9\nMode: 1\nLetterboxInBreaks: 1\nStoryFireInFront: 0\nUseSkinSprites: 1\nAlwaysShowPlayfield: 0\nOverlayPosition: Above\nSkinPreference: myskin\nEpilepsyWarning: 1\nCountdownOffset: 120\nSpecialStyle: 1\nWidescreenStoryboard: 1\nSamplesMatchPlaybackRate: 1"

/-- `general_parse_v14` (src/tests/mod.rs:26-73). -/
example : (okOf ((General Dec96).fromStr 14 generalText)).map (fun g => (General Dec96).toStr 14 g) = some generalText ∧
    ∃ g, (General Dec96).fromStr 14 generalText = .ok g ∧
      g GKey.audioFilename = some c!"test.mp3" ∧ g GKey.audioLeadIn = some (555 : Int32) ∧ g GKey.audioHash = none ∧
      g GKey.previewTime = some (5 : Int32) ∧ g GKey.countdown = some Countdown.double ∧
      g GKey.sampleSet = some GSampleSet.soft ∧ g GKey.stackLeniency = some (.left (⟨false, 9, 1⟩ : Dec96)) ∧
      g GKey.mode = some Mode.taiko ∧ g GKey.letterboxInBreaks = some true ∧ g GKey.storyFireInFront = some false ∧
      g GKey.useSkinSprites = some true ∧ g GKey.alwaysShowPlayfield = some false ∧
      g GKey.overlayPosition = some OverlayPosition.above ∧ g GKey.skinPreference = some c!"myskin" ∧
      g GKey.epilepsyWarning = some true ∧ g GKey.countdownOffset = some (120 : Int32) ∧
      g GKey.specialStyle = some true ∧ g GKey.widescreenStoryboard = some true ∧
      g GKey.samplesMatchPlaybackRate = some true ∧ g GKey.editorBookmarks = none ∧
      g GKey.editorDistanceSpacing = none :=
  ⟨by rfl, _, rfl, by rfl, by rfl, by rfl, by rfl, by rfl, by rfl, by rfl, by rfl, by rfl,
    by rfl, by rfl, by rfl, by rfl, by rfl, by rfl, by rfl, by rfl, by rfl, by rfl,
    by rfl, by rfl⟩

def editorText : Str := c!"Bookmarks: 11018,21683,32349,37683,48349,59016,69683,80349,91016\nDistanceSpacing: 0.8\nBeatDivisor: 12\nGridSize: 8\nTimelineZoom: 2"

/-- `editor_parse_v14` (src/tests/mod.rs:75-100). -/
example : ∃ g, (Editor Dec96).fromStr 14 editorText = .ok g ∧ (Editor Dec96).toStr 14 g = editorText ∧
    g EKey.bookmarks = some ([11018, 21683, 32349, 37683, 48349, 59016, 69683, 80349, 91016] : List Int32) ∧
    g EKey.distanceSpacing = some (.left (⟨false, 8, 1⟩ : Dec96)) ∧ g EKey.beatDivisor = some (.left (⟨false, 12, 0⟩ : Dec96)) ∧
    g EKey.gridSize = some (8 : Int32) ∧ g EKey.timelineZoom = some (.left (⟨false, 2, 0⟩ : Dec96)) ∧
    g EKey.currentTime = none :=
  ⟨_, rfl, by rfl, by rfl, by rfl, by rfl, by rfl, by rfl, by rfl⟩

def metadataText : Str := c!"Title:LOVE IS ORANGE\nTitleUnicode:LOVE IS ORANGE\nArtist:Orange Lounge\nArtistUnicode:Orange Lounge\nCreator:Xnery\nVersion:Bittersweet Love\nSource:beatmania IIDX 8th style\nTags:famoss 舟木智介 tomosuke funaki 徳井志津江 videogame ハードシャンソン Tart&Toffee\nBeatmapID:3072232\nBeatmapSetID:1499093"

/-- `metadata_parse_v14` (src/tests/mod.rs:102-143). -/
example : ∃ g, Metadata.fromStr 14 metadataText = .ok g ∧ Metadata.toStr 14 g = metadataText ∧
    g MKey.title = some c!"LOVE IS ORANGE" ∧ g MKey.titleUnicode = some c!"LOVE IS ORANGE" ∧
    g MKey.artist = some c!"Orange Lounge" ∧ g MKey.artistUnicode = some c!"Orange Lounge" ∧
    g MKey.creator = some c!"Xnery" ∧ g MKey.version = some c!"Bittersweet Love" ∧
    g MKey.source = some c!"beatmania IIDX 8th style" ∧
    g MKey.tags = some [c!"famoss", c!"舟木智介", c!"tomosuke", c!"funaki", c!"徳井志津江", c!"videogame", c!"ハードシャンソン",
      c!"Tart&Toffee"] ∧
    g MKey.beatmapID = some (3072232 : Int32) ∧ g MKey.beatmapSetID = some (1499093 : Int32) :=
  ⟨_, rfl, by rfl, by rfl, by rfl, by rfl, by rfl, by rfl, by rfl, by rfl, by rfl, by rfl,
    by rfl⟩

def difficultyText : Str := c!"HPDrainRate:8\nCircleSize:5\nOverallDifficulty:8\nApproachRate:5\nSliderMultiplier:1.4\nSliderTickRate:1"

/-- `difficulty_parse_v14` (src/tests/mod.rs:145-166). -/
example : ∃ g, (Difficulty Dec96).fromStr 14 difficultyText = .ok g ∧ (Difficulty Dec96).toStr 14 g = difficultyText ∧
    g DKey.hpDrainRate = some (.left ⟨false, 8, 0⟩) ∧ g DKey.circleSize = some (.left ⟨false, 5, 0⟩) ∧
    g DKey.overallDifficulty = some (.left ⟨false, 8, 0⟩) ∧ g DKey.approachRate = some (.left ⟨false, 5, 0⟩) ∧
    g DKey.sliderMultiplier = some (.left ⟨false, 14, 1⟩) ∧ g DKey.sliderTickRate = some (.left ⟨false, 1, 0⟩) :=
  ⟨_, rfl, by rfl, by rfl, by rfl, by rfl, by rfl, by rfl, by rfl⟩

/-- `colours_parse_v14` (src/tests/mod.rs:168-198). -/
example : Colours.parse 14 c!"Combo1 : 255,128,255\nSliderTrackOverride : 100,99,70\nSliderBorder : 120,130,140" =
      .ok (some [.combo 1 ⟨255, 128, 255⟩, .sliderTrackOverride ⟨100, 99, 70⟩, .sliderBorder ⟨120, 130, 140⟩]) ∧
    Colours.shw 14 [.combo 1 ⟨255, 128, 255⟩, .sliderTrackOverride ⟨100, 99, 70⟩, .sliderBorder ⟨120, 130, 140⟩] =
      some c!"Combo1 : 255,128,255\nSliderTrackOverride : 100,99,70\nSliderBorder : 120,130,140" := ⟨rfl, by rfl⟩

/-- `timing_points_parse_v14` (src/tests/mod.rs:200-229). -/
example : ∃ p q : TimingPoint Dec96,
    TimingPoints.parse 14 c!"10000,333.33,4,0,0,100,1,1\n12000,-25,4,3,0,100,0,1" = .ok [p, q] ∧
    TimingPoints.shw 14 [p, q] = some c!"10000,333.33,4,0,0,100,1,1\n12000,-25,4,3,0,100,0,1" ∧
    p = .newUninherited 10000 (n c!"333.33") 4 .beatmapDefault .osuDefaultHitsounds ⟨100⟩ (.new true false) ∧
    TimingPoint.newInherited 12000 ⟨false, 4, 0⟩ 4 .drum .osuDefaultHitsounds ⟨100⟩ (.new true false) = some q :=
  ⟨_, _, rfl, by decide, by decide, by with_unfolding_all decide⟩

def eventsText : Str := c!"0,0,\"bg2.jpg\",0,0\n0,0,bg2.jpg,0,1\n//Break Periods\n2,100,163"

def eventsValue : List (Event Dec96) :=
  [.background ⟨0, c!"\"bg2.jpg\"", some ⟨n c!"0", n c!"0"⟩, []⟩, .background ⟨0, c!"bg2.jpg", some ⟨n c!"0", n c!"1"⟩, []⟩,
   .comment c!"Break Periods", .break_ (.new 100 163)]

/-- `events_parse_v14` (src/tests/mod.rs:231-264). -/
example : Events.parse 14 eventsText = .ok eventsValue ∧ Events.shw 14 eventsValue = some eventsText := ⟨rfl, by decide⟩

/-- `colour_parse_error`, `editor_bookmarks_error` (src/tests/mod.rs:266-290). -/
example : msgOf ColourErr.msg (Colour.parse c!"Combo1: foo") = some c!"Invalid red value" ∧
    msgOf FieldErr.msg (parseBookmarks c!"0,foo") = some c!"invalid digit found in string" ∧
    msgOf FieldErr.msg (parseBookmarks c!"0-") = some c!"invalid digit found in string" ∧
    msgOf FieldErr.msg (parseBookmarks c!"0,,") = some c!"Invalid comma list, expected format of `key: value, value, value, ...`" := by
  decide

/-! ## src/tests/parsers.rs -/

/-- `colon_field_value` (src/tests/parsers.rs:9-15). -/
example : getColonFieldValueLines c!"source:\ntags:\n" = .ok [] [⟨c!"source", [], [], c!"\n"⟩, ⟨c!"tags", [], [], c!"\n"⟩] := rfl

/-- `take_till_new_line` (src/tests/parsers.rs:17-26). -/
example : (Parser.takeTill (fun c => c == '\n' || c == '\r') : Parser Unit Str) c!"abc\r\ndef" = .ok c!"\r\ndef" c!"abc" ∧
    (Parser.takeTill (fun c => c == '\n' || c == '\r') : Parser Unit Str) c!"\r\ntest" = .ok c!"\r\ntest" c!"" := ⟨rfl, rfl⟩

/-- `pipe_vec_parse` (src/tests/parsers.rs:28-39). -/
example : (Parser.sepList0 (Parser.tag c!"|")
      (Parser.takeWhile fun c => !(c == '|' || c == ',' || c == '\r' || c == '\n')) : Parser Unit (List Str)) c!"1|2|3,foo" =
    .ok c!",foo" [c!"1", c!"2", c!"3"] := rfl

/-! ## src/tests/error_line_index.rs -/

/-- The line of the error of a file. -/
def lineOf (s : Str) : Option Nat := (errOf (OsuFile.parse s : Res (LErr FileErr) (OsuFile Dec96))).map LErr.line

/-- `general`, `colours`, `difficulty`, `editor` (src/tests/error_line_index.rs:5-47). -/
example : (errOf ((General Dec96).fromStr 14 c!"AudioFilename: audio.mp3\nfoo: bar")).map LErr.line = some 1 ∧
    lineOf c!"osu file format v14\n\n\n\n[General]\nAudioFilename: audio.mp3\nfoo: bar" = some 6 ∧
    (errOf (Colours.parse 14 c!"Combo1 : 255,128,255\nfoobar")).map LErr.line = some 1 ∧
    lineOf c!"osu file format v14\n\n\n\n[Colours]\nCombo1 : 255,128,255\nfoobar" = some 6 ∧
    (errOf ((Difficulty Dec96).fromStr 14 c!"HPDrainRate:8\nfoobar")).map LErr.line = some 1 ∧
    lineOf c!"osu file format v14\n\n\n\n[Difficulty]\nHPDrainRate:8\nfoobar" = some 6 ∧
    (errOf ((Editor Dec96).fromStr 14 c!"DistanceSpacing: 0.8\nfoobar")).map LErr.line = some 1 ∧
    lineOf c!"osu file format v14\n\n\n\n[Editor]\nDistanceSpacing: 0.8\nfoobar" = some 6 := by decide

/-- `events`, `hitobjects`, `metadata`, `timingpoints` (src/tests/error_line_index.rs:49-91). -/
example : (errOf (Events.parse 14 c!"0,0,\"bg.jpg\",0,0\nfoobar" : Res _ (List (Event Dec96)))).map LErr.line = some 1 ∧
    lineOf c!"osu file format v14\n\n\n\n[Events]\n0,0,\"bg.jpg\",0,0\nfoobar" = some 6 ∧
    (errOf (HitObjects.parse 14 c!"51,192,350,128,2,849:0:0:0:0:\nfoobar" : Res _ (List (HitObject Dec96)))).map LErr.line = some 1 ∧
    lineOf c!"osu file format v14\n\n\n\n[HitObjects]\n51,192,350,128,2,849:0:0:0:0:\nfoobar" = some 6 ∧
    (errOf (Metadata.fromStr 14 c!"Title:foo\nfoobar")).map LErr.line = some 1 ∧
    lineOf c!"osu file format v14\n\n\n\n[Metadata]\nTitle:foo\nfoobar" = some 6 ∧
    (errOf (TimingPoints.parse 14 c!"350,333.333333333333,4,2,1,60,1,0\nfoobar" : Res _ (List (TimingPoint Dec96)))).map LErr.line = some 1 ∧
    lineOf c!"osu file format v14\n\n\n\n[TimingPoints]\n350,333.333333333333,4,2,1,60,1,0\nfoobar" = some 6 := by decide

/-- `double_sections` (src/tests/error_line_index.rs:93-99). The line with `foobar` is the one with index 8: the test
states the number that is one too small (C46). -/
example : lineOf c!"osu file format v14\n[General]\n\nAudioFilename: audio.mp3\n\n\n[TimingPoints]\n350,333.333333333333,4,2,1,60,1,0\nfoobar" = some 7 := by
  decide

/-! ## src/tests/hitobjects -/

/-- The text of a hit object after reading it. -/
def again (s : Str) : Option Str := (okOf (HitObject.parse 14 s : Res HOErr (HitObject Dec96))).bind (HitObject.shw 14)

/-- `hitobjects_parse`, `short_hand` (src/tests/hitobjects/parse.rs:4-34). -/
example : ∀ s ∈ [c!"221,350,9780,1,0,0:0:0:0:", c!"31,85,3049,2,0,B|129:55|123:136|228:86,1,172.51,2|0,3:2|0:2,0:2:0:0:",
    c!"256,192,33598,12,0,431279,0:0:0:0:", c!"51,192,350,128,2,849:0:0:0:0:", c!"221,350,9780,1,0",
    c!"31,85,3049,2,0,B|129:55|123:136|228:86,1,172.51"], again s = some s := by decide

/-- `missing_field_y`, `unknown_object`, `missing_obj_params` (src/tests/hitobjects/error.rs:3-25). -/
example : msgOf HOErr.msg (HitObject.parse 14 c!"1" : Res _ (HitObject Dec96)) = some c!"Missing `y` field" ∧
    msgOf HOErr.msg (HitObject.parse 14 c!"0,0,0,0,0,0:0:0:0:" : Res _ (HitObject Dec96)) = some c!"Unknown object type" ∧
    msgOf HOErr.msg (HitObject.parse 14 c!"0,0,0,2,0" : Res _ (HitObject Dec96)) = some c!"Missing `curve_type` field" := by decide

/-! ## src/tests/storyboard -/

def spritesText : Str := c!"Sprite,Pass,Centre,\"Text\\Play2-HaveFunH.png\",320,240\n F,0,-28,,1\n M,3,100,120,140,180.123123,200,200\n MX,3,100,120,140,180.123123\n MY,3,100,120,140,180.123123\n S,0,-28,,0.4\n V,8,5000,5500,0.5,2,2,0.5\n R,7,5000,5500,-0.785,0.785\n C,6,50000,50001,0,0,0,255,255,255\n P,5,300,350,H\n P,5,300,350,V\n P,5,300,350,A\n L,500,10\n  L,10,10\n   M,3,100,120,140,180.123123,200,200\n   S,0,-28,,0.4\n T,HitSound,0,10\n  L,10,10\n   M,3,100,120,140,180.123123,200,200\nAnimation,Fail,BottomCentre,\"Other\\Play3\\explosion.png\",418,108,12,31,LoopForever\n T,HitSoundClap,0,10\n T,HitSoundFinish,0,10\n T,HitSoundWhistle,0,10\n T,HitSoundDrumWhistle,0,10\n T,HitSoundSoft,0,10\n T,HitSoundAllSoft,0,10\n T,HitSoundDrumClap0,0,10\n T,HitSound6,0,10\n T,Passing,0,10\n T,Failing,0,10"

def moveCmd : Command Dec96 :=
  .mk (some 100) (.move .quadIn (some 120) ⟨(n c!"140", n c!"180.123123"), [(n c!"200", some (n c!"200"))]⟩)

def scaleCmd : Command Dec96 := .mk (some (-28)) (.scale .linear none (n c!"0.4") [])

def hitSoundCmd (h : HitSound) : Command Dec96 := .mk (some 0) (.trigger (.hitSound h) (some 10) none [])

def spritesValue : List (Event Dec96) :=
  [.object ⟨.pass, ⟨.inl .centre, false⟩, ⟨n c!"320", n c!"240"⟩, .sprite c!"\"Text\\Play2-HaveFunH.png\"",
    [.mk (some (-28)) (.fade .linear none (n c!"1") []),
     moveCmd,
     .mk (some 100) (.moveX .quadIn (some 120) (n c!"140") [n c!"180.123123"]),
     .mk (some 100) (.moveY .quadIn (some 120) (n c!"140") [n c!"180.123123"]),
     scaleCmd,
     .mk (some 5000) (.vectorScale .cubicInOut (some 5500) ⟨(n c!"0.5", n c!"2"), [(n c!"2", some (n c!"0.5"))]⟩),
     .mk (some 5000) (.rotate .cubicOut (some 5500) (n c!"-0.785") [n c!"0.785"]),
     .mk (some 50000) (.colour .cubicIn (some 50001) ⟨(0, 0, 0), [(255, some 255, some 255)]⟩),
     .mk (some 300) (.parameter .quadInOut (some 350) .imageFlipHorizontal []),
     .mk (some 300) (.parameter .quadInOut (some 350) .imageFlipVertical []),
     .mk (some 300) (.parameter .quadInOut (some 350) .useAdditiveColourBlending []),
     .mk (some 500) (.loop 10 [.mk (some 10) (.loop 10 [moveCmd, scaleCmd])]),
     .mk (some 0) (.trigger (.hitSound {}) (some 10) none [.mk (some 10) (.loop 10 [moveCmd])])]⟩,
   .object ⟨.fail, ⟨.inl .bottomCentre, false⟩, ⟨n c!"418", n c!"108"⟩,
    .animation 12 ⟨false, 31, 0⟩ .loopForever c!"\"Other\\Play3\\explosion.png\"",
    [hitSoundCmd { addition := some .clap }, hitSoundCmd { addition := some .finish }, hitSoundCmd { addition := some .whistle },
     hitSoundCmd { sampleSet := some .drum, addition := some .whistle }, hitSoundCmd { sampleSet := some .soft },
     hitSoundCmd { sampleSet := some .all, additionsSampleSet := some .soft },
     hitSoundCmd { sampleSet := some .drum, addition := some .clap, customSampleSet := some 0 },
     hitSoundCmd { customSampleSet := some 6 },
     .mk (some 0) (.trigger .passing (some 10) none []), .mk (some 0) (.trigger .failing (some 10) none [])]⟩]

/-- `storyboard_sprites_cmd_parse` (src/tests/storyboard/cmds/mod.rs:20-398); the easings have the numbers of the test. -/
example : Events.parse 14 spritesText = .ok spritesValue ∧ Events.shw 14 spritesValue = some spritesText ∧
    [0, 3, 5, 6, 7, 8].map Easing.ofInt = [.linear, .quadIn, .quadInOut, .cubicIn, .cubicOut, .cubicInOut] := ⟨rfl, by decide, by decide⟩

/-- `colours`, `parameters`, `trigger_group_number`, `move_command`, `fade_chain`
(src/tests/storyboard/cmds/mod.rs:400-439, 463-529). -/
example : Command.parse c!"C,0,0,0,255,255,255,255,255,255,0" =
      .ok (.mk (D := Dec96) (some 0) (.colour .linear (some 0) ⟨(255, 255, 255), [(255, some 255, some 255), (0, none, none)]⟩)) ∧
    Command.parse c!"P,0,0,,H,V,A" =
      .ok (.mk (D := Dec96) (some 0) (.parameter .linear none .imageFlipHorizontal [.imageFlipVertical, .useAdditiveColourBlending])) ∧
    Command.parse c!"T,HitSound,0,0,5" = .ok (.mk (D := Dec96) (some 0) (.trigger (.hitSound {}) (some 0) (some 5) [])) ∧
    Command.parse c!"M,0,0,0,-5,10,55" = .ok (.mk (some 0) (.move .linear (some 0) ⟨(n c!"-5", n c!"10"), [(n c!"55", none)]⟩)) ∧
    Command.parse c!"F,0,0,0,1,0,0.5,0,0.25,0" =
      .ok (.mk (some 0) (.fade .linear (some 0) (n c!"1") [n c!"0", n c!"0.5", n c!"0", n c!"0.25", n c!"0"])) :=
  ⟨rfl, rfl, rfl, rfl, rfl⟩

/-- `trigger` (src/tests/storyboard/cmds/mod.rs:441-461). -/
example : ∀ s ∈ [c!"T,HitSound,0,1,2", c!"T,HitSound,0,,1", c!"T,HitSound,0,1", c!"T,HitSound,0"],
    (okOf (Command.parse s : Res CmdErr (Command Dec96))).map Command.shw = some s := by decide

/-- The text of the error of a command. -/
def cmdMsg (s : Str) : Option Str := msgOf CmdErr.msg (Command.parse s : Res CmdErr (Command Dec96))

/-- `storyboard_cmd_errors`, `continuing_error` (src/tests/storyboard/cmds/error.rs:3-102). -/
example : cmdMsg c!"foo,0,0,0,0,0,0" = some c!"Unknown command type" ∧ cmdMsg c!"F" = some c!"Missing `easing` field" ∧
    cmdMsg c!"F,this is wrong!,123" = some c!"Invalid `easing` value" ∧ cmdMsg c!"F,0" = some c!"Missing `start_time` field" ∧
    cmdMsg c!"F,0,foo" = some c!"Invalid `start_time` value" ∧ cmdMsg c!"F,0,0" = some c!"Missing `end_time` field" ∧
    cmdMsg c!"F,0,0,foo" = some c!"Invalid `end_time` value" ∧ cmdMsg c!"F,0,0,0" = some c!"Missing `start_opacity` field" ∧
    cmdMsg c!"L,0" = some c!"Missing `loop_count` field" ∧
    cmdMsg c!"C,0,0,0,255,255,255,foo" = some c!"Invalid continuing colour value" ∧
    cmdMsg c!"C,0,0,1,foo" = some c!"Invalid `red` value" ∧ cmdMsg c!"C,0,0,1,255" = some c!"Missing `green` field" ∧
    cmdMsg c!"V,0,0,0,0.5" = some c!"Missing `scale_y` field" := by decide

/-- `sprite_legacy_parse`, `animation_legacy` (src/tests/storyboard/mod.rs:12-60). -/
example : SpriteLegacy.parse c!"4" c!"4,0,1,\"Text\\Play2-HaveFunH.png\",320,240" =
      .ok ⟨.background, .centre, c!"\"Text\\Play2-HaveFunH.png\"", some ⟨n c!"320", n c!"240"⟩, []⟩ ∧
    SpriteLegacy.shwCmd c!"4" ⟨.background, .centre, c!"\"Text\\Play2-HaveFunH.png\"", some ⟨n c!"320", n c!"240"⟩, []⟩ =
      c!"4,0,1,\"Text\\Play2-HaveFunH.png\",320,240" ∧
    SpriteLegacy.parse c!"5" c!"5,0,1,\"Other\\Play3\\explosion.png\",418,108" =
      .ok ⟨.background, .centre, c!"\"Other\\Play3\\explosion.png\"", some ⟨n c!"418", n c!"108"⟩, []⟩ ∧
    SpriteLegacy.shwCmd c!"5" ⟨.background, .centre, c!"\"Other\\Play3\\explosion.png\"", some ⟨n c!"418", n c!"108"⟩, []⟩ =
      c!"5,0,1,\"Other\\Play3\\explosion.png\",418,108" := ⟨rfl, by decide, rfl, by decide⟩

/-- `sample_legacy` (src/tests/storyboard/mod.rs:62-100). -/
example : SampleLegacy.parse c!"6,55,0,\"Text\\Play2-HaveFunH.png\",60" =
      .ok ⟨n c!"55", .background, c!"\"Text\\Play2-HaveFunH.png\"", Volume.new 60, []⟩ ∧
    SampleLegacy.shwCmd ⟨n c!"55", .background, c!"\"Text\\Play2-HaveFunH.png\"", Volume.new 60, []⟩ =
      c!"6,55,0,\"Text\\Play2-HaveFunH.png\",60" ∧
    SampleLegacy.parse c!"6,55,0,\"Text\\Play2-HaveFunH.png\"" =
      .ok ⟨n c!"55", .background, c!"\"Text\\Play2-HaveFunH.png\"", none, []⟩ ∧
    SampleLegacy.shwCmd ⟨n c!"55", .background, c!"\"Text\\Play2-HaveFunH.png\"", none, []⟩ =
      c!"6,55,0,\"Text\\Play2-HaveFunH.png\"" := ⟨rfl, by decide, rfl, by decide⟩

/-- `frame_file_names` (src/tests/storyboard/sprites.rs:57-93). -/
example : frameFileNames c!"testfile.png" 4 = some [c!"testfile0.png", c!"testfile1.png", c!"testfile2.png", c!"testfile3.png"] := by
  decide

/-! ## The error tests of src/tests/osu_files/mod.rs

These compare the texts with `assert_eq_osu_str`, which ignores all text before the first section. -/

/-- `error_line_index_with_leading_ws` (src/tests/osu_files/mod.rs:226-234): here the text is what the test says. -/
example : (errOf (OsuFile.parse c!"\n\nosu file format v14\n\n[General]\nAudioFilename: audio.mp3\nlmao" : Res _ (OsuFile Dec96))).map
    (LErr.shw FileErr.msg) = some c!"Line 7, Invalid colon set, expected format of `key: value`" := by decide

/-- The texts of any two errors of files are equal for `assert_eq_osu_str`, so that the tests
`error_line_index_osb` (line 21, the code says 20) and `error_line_index_sb_in_osu` (line 46, the code says 42)
(src/tests/osu_files/mod.rs:256-284) pass although the number is wrong. -/
example : Trimmer.osuStrEq c!"Line 21, Unknown command type" c!"Line 20, Unknown command type" = true ∧
    Trimmer.osuStrEq c!"Line 46, Unknown command type" c!"Line 42, Unknown command type" = true := by decide

end Osu.RepoTests
