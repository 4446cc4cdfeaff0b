/-
`Display` and `source` of the errors of single values and of setters, which reading a file never shows: the `#[error("…")]`
attributes (the `thiserror` derive). `#[error(transparent)]` shows the inner error and passes on its cause.
-/
import Verif.Model.Sources
import Verif.Model.Constructors

namespace Osu

namespace HO

/-- `ComboSkipCountTooHigh` (src/osu_file/hitobjects/error.rs:14-16). -/
def comboSkipMsg : Str := c!"Expected combo skip count to be 3 bits"

/-- The text of the error of `ComboSkipCount::new`, if it gives one (src/osu_file/hitobjects/types.rs:26-28, 41-52). -/
def ComboSkipCount.newMsg (n : UInt8) : Option Str :=
  match ComboSkipCount.new n with
  | some _ => none
  | none => some comboSkipMsg

/-- `ParseColonSetError` (src/osu_file/hitobjects/error.rs:18-30). -/
def ColonSetErr.msg : ColonSetErr → Str
  | invalidFirstItem => c!"Failed to parse the first item"
  | missingSeparator => c!"The colon separator is missing"
  | invalidSecondItem => c!"Failed to parse the second item"

/-- `ParseHitSampleError` (src/osu_file/hitobjects/error.rs:123-135). -/
def HitSampleErr.msg : HitSampleErr → Str
  | invalidSampleSet => c!"Invalid `sample_set` value"
  | invalidIndex => c!"Invalid `index` value"
  | invalidVolume => c!"Invalid `volume` value"
  | missingSeparator => c!"Missing field separator"

/-- `ParseSampleSetError` (src/osu_file/hitobjects/error.rs:139-146), which contains the integer error. -/
def SampleSet.errMsg (_ : IntErr) : Str := c!"There was a problem parsing the `str` into an integer first"

/-- `source` of `ParseSampleSetError` (src/osu_file/hitobjects/error.rs:145). -/
def SampleSet.errSource (e : IntErr) : Option IntErr := some e

/-- `VolumeSetError` and `ParseVolumeError` (src/osu_file/hitobjects/error.rs:148-169). -/
def VolumeErr.msg : VolumeErr → Str
  | tooHigh => c!"The volume was too high, expected to be in range 1 ~ 100"
  | tooLow => c!"The volume was attempted to set to 0, expected to be in range 1 ~ 100"
  | parseInt e => e.msg

/-- `source` of the same. -/
def VolumeErr.source : VolumeErr → Option IntErr
  | tooHigh | tooLow => none
  | parseInt e => e.source

/-- The error of `Volume::set_volume`, if it gives one (src/osu_file/hitobjects/types.rs:246-255). -/
def Volume.setVolumeErr (v : UInt8) : Option VolumeErr :=
  if v = 0 then some .tooLow else if v > 100 then some .tooHigh else none

/-- `ParseCurveTypeError` (src/osu_file/hitobjects/error.rs:171-176). -/
def CurveType.errMsg (_ : Unit) : Str := c!"Unknown `CurveType` variant"

end HO

namespace Ev

/-- `InvalidRepr` (src/osu_file/types.rs:249-253), `ParseOriginTypeLegacyError` and `ParseLayerLegacyError`
(src/osu_file/events/normal_event/error.rs:177-193). -/
def ReprErr.msg : ReprErr → Str
  | int e => e.msg
  | invalidRepr => c!"Invalid repr value"

/-- `source` of the same. -/
def ReprErr.source : ReprErr → Option IntErr
  | int e => e.source
  | invalidRepr => none

/-- `VolumeSetError` of audio samples (src/osu_file/events/audio_sample/error.rs:31-37). -/
def volumeSetMsg : Str := c!"The volume was too high, expected the range 1 ~ 100"

/-- `ParseVolumeError` of audio samples (src/osu_file/events/audio_sample/error.rs:39-46). -/
def Volume.errMsg : ReprErr → Str
  | .int e => e.msg
  | .invalidRepr => volumeSetMsg

/-- The text of the error of `Volume::new` and `Volume::set`, if they give one
(src/osu_file/events/audio_sample/mod.rs:116-143). -/
def Volume.newMsg (n : UInt8) : Option Str :=
  match Volume.new n with
  | some _ => none
  | none => some volumeSetMsg

end Ev

namespace SB

/-- `FilePathNotRelative` (src/osu_file/events/storyboard/error.rs:54-56). -/
def filePathMsg : Str :=
  c!"The filepath needs to be a path relative to where the .osu file is, not a full path such as `C:\\folder\\image.png`"

/-- The text of the error of `Sprite::new`, if it gives one (src/osu_file/events/storyboard/sprites.rs:272-282). -/
def Sprite.newMsg (p : FilePath) : Option Str :=
  match (Sprite.new p : Option (ObjectType Unit)) with
  | some _ => none
  | none => some filePathMsg

/-- `ParseTriggerTypeError` (src/osu_file/events/storyboard/error.rs:197-208). -/
def TriggerErr.msg : TriggerErr → Str
  | tooManyHitSoundFields => c!"There are too many `HitSound` fields"
  | unknownTriggerType => c!"Unknown trigger type"
  | unknownHitSoundType => c!"Unknown `HitSound` type"

/-- `ContinuingSetError` and `InvalidSecondFieldOption` (src/osu_file/events/storyboard/cmds/error.rs:3-17). -/
def ContErr.msg : ContErr → Str
  | indexOutOfBounds => c!"continuing fields index out of bounds"
  | invalidSecondFieldOption =>
    c!"continuing fields 2nd field is none without it being the last item in the continuing fields"

/-- `ContinuingRGBSetError` and `InvalidColourFieldOption` (src/osu_file/events/storyboard/error.rs:210-226). -/
def ColourErr.msg : ColourErr → Str
  | indexOutOfBounds => c!"continuing fields index out of bounds"
  | green => c!"continuing fields green field is none without it being the last item in the continuing fields"
  | blue => c!"continuing fields blue field is none without it being the last item in the continuing fields"

/-- `ParseParameterError` (src/osu_file/events/storyboard/error.rs:228-233). -/
def Parameter.errMsg (_ : Unit) : Str := c!"Unknown `Parameter` variant"

/-- `ParseAdditionError` (src/osu_file/events/storyboard/error.rs:235-240). -/
def Addition.errMsg : Str := c!"Unknown `Addition` variant"

/-- The text of the error of `Addition::from_str`, if it gives one (src/osu_file/events/storyboard/types.rs:179-190). -/
def Addition.parseMsg (s : Str) : Option Str :=
  match Addition.parse s with
  | some _ => none
  | none => some Addition.errMsg

/-- `ParseSampleSetError` of triggers (src/osu_file/events/storyboard/error.rs:242-247). -/
def SampleSet.errMsg : Str := c!"Unknown `SampleSet` variant"

/-- The text of the error of `SampleSet::from_str`, if it gives one (src/osu_file/events/storyboard/types.rs:144-156). -/
def SampleSet.parseMsg (s : Str) : Option Str :=
  match SampleSet.parse s with
  | some _ => none
  | none => some SampleSet.errMsg

/-- `OriginTryFromIntError` (src/osu_file/events/storyboard/error.rs:260-265). -/
def OriginType.errMsg : Str := c!"Unknown `Origin` variant"

/-- The text of the error of `OriginType::try_from`, if it gives one (src/osu_file/events/storyboard/sprites.rs:421-439). -/
def OriginType.ofIntMsg (n : Int32) : Option Str :=
  match OriginType.ofInt n with
  | some _ => none
  | none => some OriginType.errMsg

/-- `ParseLoopTypeError` (src/osu_file/events/storyboard/error.rs:267-272). -/
def LoopType.errMsg (_ : Unit) : Str := c!"Unknown `LoopType` variant"

/-- `ParseLayerError` (src/osu_file/events/storyboard/error.rs:274-279). -/
def Layer.errMsg (_ : Unit) : Str := c!"Unknown `Layer` variant"

end SB

end Osu
