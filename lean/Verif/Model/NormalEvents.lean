/-
`src/osu_file/events/normal_event/` and `src/osu_file/events/audio_sample/`.
-/
import Verif.Model.Sprites

namespace Osu
namespace Ev
open SB (Command)

/-- `OLD_VERSION_TIME_OFFSET` added on reading (src/osu_file/events/mod.rs:31,
src/osu_file/events/normal_event/parsers.rs:42-72); `none` is the overflow panic of `i32` addition. -/
def shiftUp (version : Nat) (t : Int32) : Option Int32 :=
  if 3 ≤ version ∧ version ≤ 4 then
    if t.toInt + 24 ≤ 2147483647 then some (t + 24) else none
  else some t

/-- `time_to_string` (src/osu_file/events/normal_event/mod.rs:37-45); `none` is the overflow panic of `i32`
subtraction. -/
def timeToStr (version : Nat) (t : Int32) : Option Str :=
  if 3 ≤ version ∧ version ≤ 4 then
    if -2147483648 ≤ t.toInt - 24 then some (i32ToStr (t - 24)) else none
  else some (i32ToStr t)

/-- `OriginTypeLegacy` (src/osu_file/events/normal_event/types.rs:7-20). -/
inductive OriginLegacy where
  | topLeft | centre | centreLeft | topRight | bottomCentre | topCentre | custom | centreRight | bottomLeft
  | bottomRight
  deriving DecidableEq, Repr

/-- `VersionedFrom<OriginTypeLegacy> for usize` (src/osu_file/events/normal_event/types.rs:30-45). -/
def OriginLegacy.code : OriginLegacy → UInt64
  | topLeft => 0 | centre => 1 | centreLeft => 2 | topRight => 3 | bottomCentre => 4 | topCentre => 5
  | custom => 6 | centreRight => 7 | bottomLeft => 8 | bottomRight => 9

/-- `OriginTypeLegacy::from_repr` (src/osu_file/events/normal_event/types.rs:47-65). -/
def OriginLegacy.ofCode (n : UInt64) : Option OriginLegacy :=
  if n = 0 then some .topLeft else if n = 1 then some .centre else if n = 2 then some .centreLeft
  else if n = 3 then some .topRight else if n = 4 then some .bottomCentre else if n = 5 then some .topCentre
  else if n = 6 then some .custom else if n = 7 then some .centreRight else if n = 8 then some .bottomLeft
  else if n = 9 then some .bottomRight else none

/-- `InvalidRepr` or an integer error. -/
inductive ReprErr where
  | int (e : IntErr) | invalidRepr
  deriving DecidableEq, Repr

/-- `from_str` through `from_repr` (src/osu_file/events/normal_event/types.rs:67-75, 104-112). -/
def parseRepr {α : Type} (f : UInt64 → Option α) (s : Str) : Res ReprErr α :=
  match parseUsize s with
  | .ok n => match f n with
    | some a => .ok a
    | none => .err .invalidRepr
  | .err e => .err (.int e)
  | .panic => .panic

/-- `OriginTypeLegacy::from_str` (src/osu_file/events/normal_event/types.rs:67-75). -/
def OriginLegacy.parse (s : Str) : Res ReprErr OriginLegacy := parseRepr OriginLegacy.ofCode s

/-- `OriginTypeLegacy::to_string` (src/osu_file/events/normal_event/types.rs:22-28). -/
def OriginLegacy.shw (o : OriginLegacy) : Str := usizeToStr o.code

/-- `LayerLegacy` (src/osu_file/events/normal_event/types.rs:77-86). -/
inductive LayerLegacy where
  | background | fail | pass | foreground | overlay | video
  deriving DecidableEq, Repr

/-- `LayerLegacy::from_repr` (src/osu_file/events/normal_event/types.rs:88-102). -/
def LayerLegacy.ofCode (n : UInt64) : Option LayerLegacy :=
  if n = 0 then some .background else if n = 1 then some .fail else if n = 2 then some .pass
  else if n = 3 then some .foreground else if n = 4 then some .overlay else if n = 5 then some .video
  else none

/-- `VersionedFrom<LayerLegacy> for usize` (src/osu_file/events/normal_event/types.rs:114-125). -/
def LayerLegacy.code : LayerLegacy → UInt64
  | background => 0 | fail => 1 | pass => 2 | foreground => 3 | overlay => 4 | video => 5

/-- `LayerLegacy::from_str` (src/osu_file/events/normal_event/types.rs:104-112). -/
def LayerLegacy.parse (s : Str) : Res ReprErr LayerLegacy := parseRepr LayerLegacy.ofCode s

/-- `LayerLegacy::to_string` (src/osu_file/events/normal_event/types.rs:127-133). -/
def LayerLegacy.shw (o : LayerLegacy) : Str := usizeToStr o.code

/-- `Volume` of audio samples (src/osu_file/events/audio_sample/mod.rs:107-108). -/
structure Volume where
  val : UInt8
  deriving DecidableEq, Repr

/-- `VersionedTryFrom<u8> for Volume` and `Volume::new`
(src/osu_file/events/audio_sample/mod.rs:117-119, 133-143); `none` is `VolumeTooHigh`. -/
def Volume.new (n : UInt8) : Option Volume := if n > 100 then none else some ⟨n⟩

/-- `Volume::default` (src/osu_file/events/audio_sample/mod.rs:110-114). -/
def Volume.default : Volume := ⟨100⟩

/-- `Volume::set` (src/osu_file/events/audio_sample/mod.rs:125-130): new value and success. -/
def Volume.set (v : Volume) (n : UInt8) : Volume × Bool :=
  match Volume.new n with
  | some v' => (v', true)
  | none => (v, false)

/-- `Volume::from_str` (src/osu_file/events/audio_sample/mod.rs:151-158). -/
def Volume.parse (s : Str) : Res ReprErr Volume :=
  match parseU8 s with
  | .ok n => match Volume.new n with
    | some v => .ok v
    | none => .err .invalidRepr
  | .err e => .err (.int e)
  | .panic => .panic

/-- `Volume::to_string` (src/osu_file/events/audio_sample/mod.rs:160-164). -/
def Volume.shw (v : Volume) : Str := u8ToStr v.val

/-- `Layer` of audio samples (src/osu_file/events/audio_sample/mod.rs:166-173). -/
inductive AudioLayer where
  | background | fail | pass | foreground
  deriving DecidableEq, Repr

/-- `Layer::from_repr` (src/osu_file/events/audio_sample/mod.rs:175-185). -/
def AudioLayer.ofCode (n : UInt64) : Option AudioLayer :=
  if n = 0 then some .background else if n = 1 then some .fail else if n = 2 then some .pass
  else if n = 3 then some .foreground else none

/-- `self.layer as usize` (src/osu_file/events/audio_sample/mod.rs:100): the discriminant. -/
def AudioLayer.code : AudioLayer → UInt64
  | background => 0 | fail => 1 | pass => 2 | foreground => 3

/-- `Background` (src/osu_file/events/normal_event/mod.rs:47-53). -/
structure Background (D : Type) where
  startTime : Int32
  fileName : FilePath
  position : Option (Position D)
  commands : List (Command D)

/-- `Video` (src/osu_file/events/normal_event/mod.rs:120-127). -/
structure Video (D : Type) where
  startTime : Int32
  fileName : FilePath
  position : Option (Position D)
  commands : List (Command D)
  shortHand : Bool

/-- `Break` (src/osu_file/events/normal_event/mod.rs:211-216). -/
structure Break where
  startTime : Int32
  endTime : Int32
  shortHand : Bool
  deriving DecidableEq, Repr

/-- `ColourTransformation` (src/osu_file/events/normal_event/mod.rs:276-282). -/
structure ColourTransformation where
  startTime : Int32
  red : UInt8
  green : UInt8
  blue : UInt8
  deriving DecidableEq, Repr

/-- `SpriteLegacy` and `AnimationLegacy` (src/osu_file/events/normal_event/mod.rs:355-363, 439-446): the same
fields. -/
structure SpriteLegacy (D : Type) where
  layer : LayerLegacy
  origin : OriginLegacy
  fileName : FilePath
  position : Option (Position D)
  commands : List (Command D)

/-- `SampleLegacy` (src/osu_file/events/normal_event/mod.rs:519-526). -/
structure SampleLegacy (D : Type) where
  time : Decimal D
  layer : LayerLegacy
  fileName : FilePath
  volume : Option Volume
  commands : List (Command D)

/-- `AudioSample` (src/osu_file/events/audio_sample/mod.rs:21-27). -/
structure AudioSample where
  time : Int32
  layer : AudioLayer
  filepath : FilePath
  volume : Volume
  deriving DecidableEq, Repr

/-- The error enums of src/osu_file/events/normal_event/error.rs and audio_sample/error.rs, which share
these names. -/
inductive NEErr where
  | wrongEventType | missingStartTime | invalidStartTime | missingFileName | missingX | invalidX | missingY
  | invalidY | missingEndTime | invalidEndTime | missingRed | invalidRed | missingGreen | invalidGreen
  | missingBlue | invalidBlue | missingLayer | invalidLayer | missingOrigin | invalidOrigin | missingTime
  | invalidTime | missingVolume | invalidVolume
  deriving DecidableEq, Repr

section
open Parser
variable {D : Type} [DecLib D]

/-- `position_str` (src/osu_file/events/normal_event/mod.rs:30-35). -/
def positionStr : Option (Position D) → Str
  | some p => ',' :: (p.x.toStr ++ [','] ++ p.y.toStr)
  | none => []

/-- `file_name_and_position` (src/osu_file/events/normal_event/parsers.rs:14-40). -/
def fileNameAndPosition : Parser NEErr (FilePath × Option (Position D)) :=
  pair commaField ((alt [eof.map fun _ => none,
    (pair (preceded (context .missingX comma) (context .invalidX (commaFieldType Decimal.parse)))
      (preceded (context .missingY comma) (context .invalidY (restType Decimal.parse)))).map some]).map
    fun p => p.map fun (x, y) => ⟨x, y⟩)

omit [DecLib D]

/-- `start_time_offset` (src/osu_file/events/normal_event/parsers.rs:42-56). -/
def startTimeOffset (version : Nat) : Parser NEErr Int32 :=
  context .invalidStartTime ((commaFieldType parseI32).mapP (shiftUp version))

/-- `end_time` (src/osu_file/events/normal_event/parsers.rs:58-72). -/
def endTimeOffset (version : Nat) : Parser NEErr Int32 :=
  context .invalidEndTime ((restType parseI32).mapP (shiftUp version))

/-- The header of events with a short and a long name
(src/osu_file/events/normal_event/mod.rs:149-155, 236-242). -/
def headerP (short long : Str) : Parser NEErr Bool :=
  alt [(tag short).map fun _ => true, context .wrongEventType ((tag long).map fun _ => false)]

/-- `Break::from_str` (src/osu_file/events/normal_event/mod.rs:231-259). -/
def Break.parse (version : Nat) (s : Str) : Res NEErr Break :=
  ((headerP c!"2" c!"Break").bind (fun sh =>
    (preceded (context .missingStartTime comma) (startTimeOffset version)).bind fun st =>
    (preceded (context .missingEndTime comma) (endTimeOffset version)).bind fun et =>
    ret (⟨st, et, sh⟩ : Break)) s).toRes

/-- `Break::to_string` (src/osu_file/events/normal_event/mod.rs:261-274); `none` is a panic. -/
def Break.shw (version : Nat) (b : Break) : Option Str := do
  let st ← timeToStr version b.startTime
  let et ← timeToStr version b.endTime
  some ((if b.shortHand then c!"2" else c!"Break") ++ [','] ++ st ++ [','] ++ et)

/-- `ColourTransformation::from_str` (src/osu_file/events/normal_event/mod.rs:286-337). -/
def ColourTransformation.parse (version : Nat) (s : Str) : Res NEErr ColourTransformation :=
  ((preceded (pair (context .wrongEventType (tag c!"3")) (context .missingStartTime comma))
      (startTimeOffset version)).bind (fun st =>
    (preceded (context .missingRed comma) (context .invalidRed (commaFieldType parseU8))).bind fun r =>
    (preceded (context .missingGreen comma) (context .invalidGreen (commaFieldType parseU8))).bind fun g =>
    (preceded (context .missingBlue comma) (context .invalidBlue (restType parseU8))).bind fun b =>
    ret (⟨st, r, g, b⟩ : ColourTransformation)) s).toRes

/-- `ColourTransformation::to_string` (src/osu_file/events/normal_event/mod.rs:339-353): the outer `none` is
a panic, the inner one `None`. -/
def ColourTransformation.shw (version : Nat) (c : ColourTransformation) : Option (Option Str) :=
  if version < 14 then
    (timeToStr version c.startTime).map fun st =>
      some (c!"3," ++ st ++ [','] ++ u8ToStr c.red ++ [','] ++ u8ToStr c.green ++ [','] ++ u8ToStr c.blue)
  else some none

variable [DecLib D]

/-- `Background::from_str` (src/osu_file/events/normal_event/mod.rs:57-93). The time is not shifted. -/
def Background.parse (s : Str) : Res NEErr (Background D) :=
  ((preceded (pair (context .wrongEventType (tag c!"0")) (context .missingStartTime comma))
    ((context .invalidStartTime (commaFieldType parseI32)).bind fun st =>
      (preceded (context .missingFileName comma) fileNameAndPosition).bind fun (f, p) =>
      ret (⟨st, f, p, []⟩ : Background D))) s).toRes

/-- `Background::to_string_cmd` (src/osu_file/events/normal_event/mod.rs:110-117). -/
def Background.shwCmd (b : Background D) : Str :=
  c!"0," ++ i32ToStr b.startTime ++ [','] ++ FilePath.toStr b.fileName ++ positionStr b.position

/-- `Video::from_str` (src/osu_file/events/normal_event/mod.rs:144-179). -/
def Video.parse (version : Nat) (s : Str) : Res NEErr (Video D) :=
  ((headerP c!"1" c!"Video").bind (fun sh =>
    (preceded (context .missingStartTime comma) (startTimeOffset version)).bind fun st =>
    (preceded (context .missingFileName comma) fileNameAndPosition).bind fun (f, p) =>
    ret (⟨st, f, p, [], sh⟩ : Video D)) s).toRes

/-- `Video::to_string_cmd` (src/osu_file/events/normal_event/mod.rs:196-208); `none` is a panic. -/
def Video.shwCmd (version : Nat) (v : Video D) : Option Str :=
  (timeToStr version v.startTime).map fun st =>
    (if v.shortHand then c!"1" else c!"Video") ++ [','] ++ st ++ [','] ++ FilePath.toStr v.fileName ++
      positionStr v.position

/-- `SpriteLegacy::from_str` and `AnimationLegacy::from_str`, which differ in the header only
(src/osu_file/events/normal_event/mod.rs:367-411, 450-493). -/
def SpriteLegacy.parse (header : Str) (s : Str) : Res NEErr (SpriteLegacy D) :=
  ((preceded (pair (context .wrongEventType (tag header)) (context .missingLayer comma))
    ((context .invalidLayer (commaFieldType LayerLegacy.parse)).bind fun l =>
      (preceded (context .missingOrigin comma) (context .invalidOrigin (commaFieldType OriginLegacy.parse))).bind fun o =>
      (preceded (context .missingFileName comma) fileNameAndPosition).bind fun (f, p) =>
      ret (⟨l, o, f, p, []⟩ : SpriteLegacy D))) s).toRes

/-- `SpriteLegacy::to_string` and `AnimationLegacy::to_string`
(src/osu_file/events/normal_event/mod.rs:413-423, 495-505). -/
def SpriteLegacy.shwCmd (header : Str) (x : SpriteLegacy D) : Str :=
  header ++ [','] ++ x.layer.shw ++ [','] ++ x.origin.shw ++ [','] ++ FilePath.toStr x.fileName ++
    positionStr x.position

/-- `SampleLegacy::from_str` (src/osu_file/events/normal_event/mod.rs:530-579). -/
def SampleLegacy.parse (s : Str) : Res NEErr (SampleLegacy D) :=
  ((preceded (pair (context .wrongEventType (tag c!"6")) (context .missingTime comma))
    ((context .invalidTime (commaFieldType Decimal.parse)).bind fun t =>
      (preceded (context .missingLayer comma) (context .invalidLayer (commaFieldType LayerLegacy.parse))).bind fun l =>
      (preceded (context .missingFileName comma) commaField).bind fun f =>
      (alt [eof.map fun _ => none,
        (preceded (context .missingVolume comma) (context .invalidVolume (restType Volume.parse))).map some]).bind fun v =>
      ret (⟨t, l, f, v, []⟩ : SampleLegacy D))) s).toRes

/-- `SampleLegacy::to_string` (src/osu_file/events/normal_event/mod.rs:581-593). -/
def SampleLegacy.shwCmd (x : SampleLegacy D) : Str :=
  c!"6," ++ x.time.toStr ++ [','] ++ x.layer.shw ++ [','] ++ FilePath.toStr x.fileName ++
    (match x.volume with
      | some v => ',' :: v.shw
      | none => [])

omit [DecLib D]

/-- `AudioSample::from_str` (src/osu_file/events/audio_sample/mod.rs:29-93). `WrongEvent` is
`wrongEventType`, `MissingFilepath` is `missingFileName`. -/
def AudioSample.parse (s : Str) : Res NEErr AudioSample :=
  if s = [] then .err .wrongEventType
  else
    ((preceded (pair (context .wrongEventType (tag c!"Sample")) (context .missingTime comma))
        (context .invalidTime (commaFieldType parseI32))).bind (fun t =>
      (preceded (context .missingLayer comma) (context .invalidLayer
        (mapOpt (context .invalidLayer (commaFieldType parseUsize)) AudioLayer.ofCode))).bind fun l =>
      (preceded (context .missingFileName comma) commaField).bind fun f =>
      (alt [eof.map fun _ => Volume.default,
        preceded (context .missingVolume comma) (context .invalidVolume (commaFieldType Volume.parse))]).bind fun v =>
      ret (⟨t, l, f, v⟩ : AudioSample)) s).toRes

/-- `AudioSample::to_string` (src/osu_file/events/audio_sample/mod.rs:95-105). -/
def AudioSample.shw (a : AudioSample) : Str :=
  c!"Sample," ++ i32ToStr a.time ++ [','] ++ usizeToStr a.layer.code ++ [','] ++ FilePath.toStr a.filepath ++ [','] ++
    a.volume.shw

end

end Ev
end Osu
