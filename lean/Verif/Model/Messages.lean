/-
`Display` of the error types: the `#[error("…")]` attributes (the `thiserror` derive) of the error enums of /repo.
`#[error(transparent)]` shows the inner error.
-/
import Verif.Model.Error
import Verif.Model.OsuFile
import Verif.Model.Osb

namespace Osu
open SB Ev

/-- `Display for ParseIntError` of the standard library (assumed texts). -/
def IntErr.msg : IntErr → Str
  | empty => c!"cannot parse integer from empty string"
  | invalidDigit => c!"invalid digit found in string"
  | posOverflow => c!"number too large to fit in target type"
  | negOverflow => c!"number too small to fit in target type"

/-- `ParseZeroOneBoolError` (src/helper/mod.rs:34-40). -/
def ZeroOneErr.msg : ZeroOneErr → Str
  | parseInt e => e.msg
  | invalidValue => c!"Error parsing value as `true` or `false`, expected value of 0 or 1"

/-- The errors of single fields: `general::ParseError` and the enums it contains (src/osu_file/general/error.rs:10-82),
also `ParseIntError` and `InvalidCommaList` of src/osu_file/editor/error.rs:11-22 and `ParseIntError` of
src/osu_file/metadata/error.rs:15-16. -/
def FieldErr.msg : FieldErr → Str
  | parseInt e => e.msg
  | zeroOne e => e.msg
  | countdownUnknown => c!"Unknown `CountdownSpeed` variant"
  | countdownInt _ => c!"There was a problem parsing the `str` as an `Integer`"
  | modeUnknown => c!"Unknown `GameMode` variant"
  | modeInt e => e.msg
  | sampleSetUnknown => c!"Unknown `SampleSet` variant"
  | overlayUnknown => c!"Unknown `OverlayPosition` variant"
  | invalidCommaList => c!"Invalid comma list, expected format of `key: value, value, value, ...`"

/-- `general::ParseError` (src/osu_file/general/error.rs:7-42). -/
def generalMsg : KVErr FieldErr → Str
  | .invalidColonSet => c!"Invalid colon set, expected format of `key: value`"
  | .duplicateField => c!"Duplicate field were found in `General`"
  | .invalidKey => c!"The key doesn't exist in `General`"
  | .field e => e.msg

/-- `editor::ParseError` (src/osu_file/editor/error.rs:7-26). -/
def editorMsg : KVErr FieldErr → Str
  | .invalidColonSet => c!"Invalid colon set, expected format of `key: value`"
  | .duplicateField => c!"Duplicate field in `Editor`"
  | .invalidKey => c!"The key doesn't exist in `Editor`"
  | .field e => e.msg

/-- `metadata::ParseError` (src/osu_file/metadata/error.rs:7-23). -/
def metadataMsg : KVErr FieldErr → Str
  | .invalidColonSet => c!"Invalid colon set, expected format of `key: value`"
  | .duplicateField => c!"There is a duplicate field in the `Metadata` section"
  | .invalidKey => c!"The key doesn't exist in `General`"
  | .field e => e.msg

/-- `difficulty::ParseError` (src/osu_file/difficulty/error.rs:5-18); there are no errors of single fields. -/
def difficultyMsg : KVErr FieldErr → Str
  | .invalidColonSet => c!"Invalid colon set, expected format of `key: value`"
  | .duplicateField => c!"Duplicate field in `Difficulty`"
  | .invalidKey => c!"The key doesn't exist in `Difficulty`"
  | .field e => e.msg

/-- `ParseTimingPointError` (src/osu_file/timingpoints/error.rs:13-58). -/
def TPErr.msg : TPErr → Str
  | invalidTime => c!"Invalid `time` value"
  | missingBeatLength => c!"Missing `beat_length` field"
  | missingMeter => c!"Missing `meter` field"
  | invalidMeter => c!"Invalid `meter` value"
  | missingSampleSet => c!"Missing `sample_set` field"
  | invalidSampleSet => c!"Invalid `sample_set` value"
  | missingSampleIndex => c!"Missing `sample_index` field"
  | invalidSampleIndex => c!"Invalid `sample_index` value"
  | missingVolume => c!"Missing `volume` field"
  | invalidVolume => c!"Invalid `volume` value"
  | missingEffects => c!"Missing `effects` field"
  | invalidEffects => c!"Invalid `effects` value"
  | missingUninherited => c!"Missing `uninherited` field"
  | invalidUninherited => c!"Invalid `uninherited` value"

/-- `ParseRgbError` (src/osu_file/colours/error.rs:30-48). -/
def RgbErr.msg : RgbErr → Str
  | invalidRed => c!"Invalid red value"
  | invalidGreen => c!"Invalid green value"
  | invalidBlue => c!"Invalid blue value"
  | missingGreen => c!"Missing green value"
  | missingBlue => c!"Missing blue value"

/-- `ParseColourError` (src/osu_file/colours/error.rs:11-26). -/
def ColourErr.msg : ColourErr → Str
  | invalidComboCount => c!"Invalid additive combo count"
  | invalidColonSeparator => c!"Invalid colon separator"
  | rgb e => e.msg
  | unknownColourType => c!"Unknown colour type"

/-- `ParseHitObjectError` (src/osu_file/hitobjects/error.rs:34-119). -/
def HOErr.msg : HOErr → Str
  | invalidHitSound => c!"Invalid `hit_sound` value"
  | missingHitSound => c!"Missing `hit_sound` field"
  | missingHitSample => c!"Missing `hit_sample` field"
  | invalidHitSample => c!"Invalid `hit_sample` value"
  | invalidX => c!"Invalid `x` value"
  | missingX => c!"Missing `x` field"
  | invalidY => c!"Invalid `y` value"
  | missingY => c!"Missing `y` field"
  | missingObjType => c!"Missing `obj_type` field"
  | invalidObjType => c!"Invalid `obj_type` value"
  | missingTime => c!"Missing `time` field"
  | invalidTime => c!"Invalid `time` value"
  | invalidCurveType => c!"Invalid `curve_type` value"
  | missingCurveType => c!"Missing `curve_type` field"
  | invalidCurvePoint => c!"Invalid `curve_point` value"
  | missingCurvePoint => c!"Missing `curve_point` field"
  | invalidEdgeSound => c!"Invalid `edge_sound` value"
  | missingEdgeSound => c!"Missing `edge_sound` field"
  | invalidEdgeSet => c!"Invalid `edge_set` value"
  | missingEdgeSet => c!"Missing `edge_set` field"
  | invalidSlidesCount => c!"Invalid `slides_count` value"
  | missingSlidesCount => c!"Missing `slides_count` field"
  | invalidLength => c!"Invalid `length` value"
  | missingLength => c!"Missing `length` field"
  | invalidEndTime => c!"Invalid `end_time` value"
  | missingEndTime => c!"Missing `end_time` field"
  | unknownObjType => c!"Unknown object type"

/-- `ParseCommandError` (src/osu_file/events/storyboard/error.rs:67-193). -/
def SB.CmdErr.msg : CmdErr → Str
  | unknownCommandType => c!"Unknown command type"
  | missingStartTime => c!"Missing `start_time` field"
  | invalidStartTime => c!"Invalid `start_time` value"
  | missingLoopCount => c!"Missing `loop_count` field"
  | invalidLoopCount => c!"Invalid `loop_count` value"
  | missingTriggerType => c!"Missing `trigger_type` field"
  | invalidTriggerType => c!"Invalid `trigger_type` value"
  | invalidGroupNumber => c!"Invalid `group_number` value"
  | missingEndTime => c!"Missing `end_time` field"
  | invalidEndTime => c!"Invalid `end_time` value"
  | missingEasing => c!"Missing `easing` field"
  | invalidEasing => c!"Invalid `easing` value"
  | missingRed => c!"Missing `red` field"
  | missingGreen => c!"Missing `green` field"
  | missingBlue => c!"Missing `blue` field"
  | invalidRed => c!"Invalid `red` value"
  | invalidGreen => c!"Invalid `green` value"
  | invalidBlue => c!"Invalid `blue` value"
  | invalidContinuingColours => c!"Invalid continuing colour value"
  | missingParameterType => c!"Missing `parameter_type` field"
  | invalidParameterType => c!"Invalid `parameter_type` value"
  | invalidContinuingParameters => c!"Invalid continuing parameter value"
  | missingMoveX => c!"Missing `move_x` field"
  | invalidMoveX => c!"Invalid `move_x` value"
  | missingMoveY => c!"Missing `move_y` field"
  | invalidMoveY => c!"Invalid `move_y` value"
  | invalidContinuingMove => c!"Invalid continuing move value"
  | missingScaleX => c!"Missing `scale_x` field"
  | invalidScaleX => c!"Invalid `scale_x` value"
  | missingScaleY => c!"Missing `scale_y` field"
  | invalidScaleY => c!"Invalid `scale_y` value"
  | invalidContinuingScales => c!"Invalid continuing scale value"
  | missingStartOpacity => c!"Missing `start_opacity` field"
  | invalidStartOpacity => c!"Invalid `start_opacity` value"
  | invalidContinuingOpacities => c!"Invalid continuing opacity value"
  | missingStartScale => c!"Missing `start_scale` field"
  | invalidStartScale => c!"Invalid `start_scale` value"
  | missingStartRotation => c!"Missing `start_rotation` field"
  | invalidStartRotation => c!"Invalid `start_rotation` value"
  | invalidContinuingRotation => c!"Invalid continuing rotation value"

/-- The error enums of src/osu_file/events/normal_event/error.rs:8-173, which agree on the texts of variants with the
same name. -/
def Ev.NEErr.msg : NEErr → Str
  | wrongEventType => c!"Wrong event type"
  | missingStartTime => c!"Missing `start_time` field"
  | invalidStartTime => c!"Invalid `start_time` value"
  | missingFileName => c!"Missing `file_name` field"
  | missingX => c!"Missing `x` field"
  | invalidX => c!"Invalid `x` value"
  | missingY => c!"Missing `y` field"
  | invalidY => c!"Invalid `y` value"
  | missingEndTime => c!"Missing `end_time` field"
  | invalidEndTime => c!"Invalid `end_time` value"
  | missingRed => c!"Missing `red` field"
  | invalidRed => c!"Invalid `red` value"
  | missingGreen => c!"Missing `green` field"
  | invalidGreen => c!"Invalid `green` value"
  | missingBlue => c!"Missing `blue` field"
  | invalidBlue => c!"Invalid `blue` value"
  | missingLayer => c!"Missing `layer` field"
  | invalidLayer => c!"Invalid `layer` value"
  | missingOrigin => c!"Missing `origin` field"
  | invalidOrigin => c!"Invalid `origin` value"
  | missingTime => c!"Missing `time` field"
  | invalidTime => c!"Invalid `time` value"
  | missingVolume => c!"Missing `volume` field"
  | invalidVolume => c!"Invalid `volume` value"

/-- `ParseAudioSampleError` (src/osu_file/events/audio_sample/error.rs:8-27): the texts are those of the other events
except for `MissingFilepath`. -/
def audioMsg : NEErr → Str
  | .missingFileName => c!"Missing `filepath` field"
  | e => e.msg

/-- `ParseObjectError` (src/osu_file/events/storyboard/error.rs:15-50). -/
def SB.ObjErr.msg : ObjErr → Str
  | unknownObjectType => c!"Unknown object type"
  | missingLayer => c!"Missing layer field"
  | invalidLayer => c!"Invalid layer value"
  | missingOrigin => c!"Missing origin field"
  | invalidOrigin => c!"Invalid origin value"
  | missingFilePath => c!"Missing file path field"
  | missingPositionX => c!"Missing position x field"
  | invalidPositionX => c!"Invalid position x value"
  | missingPositionY => c!"Missing position y field"
  | invalidPositionY => c!"Invalid position y value"
  | missingFrameCount => c!"Missing frame count field"
  | invalidFrameCount => c!"Invalid frame count value"
  | missingFrameDelay => c!"Missing frame delay field"
  | invalidFrameDelay => c!"Invalid frame delay value"
  | missingLoopType => c!"Missing loop type field"
  | invalidLoopType => c!"Invalid loop type value"

/-- `CommandPushError` (src/osu_file/events/storyboard/error.rs:8-13). -/
def Ev.PushErr.msg (e : PushErr) : Str :=
  c!"Invalid indentation, expected " ++ natToStr e.expected ++ c!", got " ++ natToStr e.got

/-- `events::ParseError` (src/osu_file/events/error.rs:5-47). -/
def Ev.EvErr.msg : EvErr → Str
  | storyboardCmdWithNoSprite => c!"A storyboard command was used without defined sprite or animation sprite"
  | background e | video e | break_ e | colourTransformation e | spriteLegacy e | animationLegacy e | sampleLegacy e => e.msg
  | push e => e.msg
  | command e => e.msg
  | object e => e.msg
  | audioSample e => audioMsg e
  | unknownEventType => c!"Unknown event type"

/-- `ParseError` (src/osu_file/mod.rs:322-398); the bounds are `MIN_VERSION` and `LATEST_VERSION`
(src/osu_file/types.rs:14-15). -/
def FileErr.msg : FileErr → Str
  | invalidFileVersion => c!"Invalid file version, expected versions from " ++ natToStr 3 ++ c!" ~ " ++ natToStr 14
  | fileVersionDefinedWrong => c!"File version defined wrong, expected `osu file format v..` at the start"
  | unexpectedLine => c!"Unexpected line before any section"
  | duplicateSections => c!"There are multiple sections defined as the same name"
  | unknownSection => c!"There is an unknown section"
  | general e => generalMsg e
  | editor e => editorMsg e
  | metadata e => metadataMsg e
  | difficulty e => difficultyMsg e
  | events e => e.msg
  | timingPoints e => e.msg
  | colours e => e.msg
  | hitobjects e => e.msg

/-- `ParseVariableError` (src/osu_file/osb/error.rs:28-35). -/
def VarErr.msg : VarErr → Str
  | missingHeader => c!"Missing the header `$`"
  | missingEquals => c!"Missing `=` for assignment"

/-- `osb::ParseError` (src/osu_file/osb/error.rs:6-24). -/
def OsbErr.msg : OsbErr → Str
  | unexpectedLine => c!"Unexpected line before any section"
  | duplicateSections => c!"There are multiple sections defined as the same name"
  | unknownSection => c!"There is an unknown section"
  | .variable e => e.msg
  | events e => e.msg

end Osu
