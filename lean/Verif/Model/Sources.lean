/-
`std::error::Error::source` of the error types: `#[from]` under `#[error("…")]` gives the inner error as cause;
`#[error(transparent)]` passes on the cause of the inner error; variants without content have none (the `thiserror` derive).
The only inner errors that are given are integer errors, hence `Option IntErr`.
-/
import Verif.Model.Messages

namespace Osu
open SB Ev

/-- `Error::source for ParseIntError` of the standard library (the default of the trait). -/
def IntErr.source : IntErr → Option IntErr
  | _ => none

/-- `ParseZeroOneBoolError` (src/helper/mod.rs:34-40). -/
def ZeroOneErr.source : ZeroOneErr → Option IntErr
  | parseInt e => e.source
  | invalidValue => none

/-- The errors of single fields: `general::ParseError` and the enums it contains (src/osu_file/general/error.rs:10-82; the cause
is given at lines 66-67, passed on at lines 12-26 and 55-56), also those of src/osu_file/editor/error.rs:11-22 and
src/osu_file/metadata/error.rs:15-16. -/
def FieldErr.source : FieldErr → Option IntErr
  | parseInt e => e.source
  | zeroOne e => e.source
  | countdownUnknown => none
  | countdownInt e => some e
  | modeUnknown => none
  | modeInt e => e.source
  | sampleSetUnknown => none
  | overlayUnknown => none
  | invalidCommaList => none

/-- `ParseError` of the four key/value sections (src/osu_file/general/error.rs:7-42, src/osu_file/editor/error.rs:7-26,
src/osu_file/metadata/error.rs:7-23, src/osu_file/difficulty/error.rs:5-18). -/
def KVErr.source : KVErr FieldErr → Option IntErr
  | .invalidColonSet | .duplicateField | .invalidKey => none
  | .field e => e.source

/-- `ParseTimingPointError` (src/osu_file/timingpoints/error.rs:13-58): no variant has content. -/
def TPErr.source : TPErr → Option IntErr
  | _ => none

/-- `ParseRgbError` (src/osu_file/colours/error.rs:30-48). -/
def RgbErr.source : RgbErr → Option IntErr
  | _ => none

/-- `ParseColourError` (src/osu_file/colours/error.rs:11-26). -/
def ColourErr.source : ColourErr → Option IntErr
  | rgb e => e.source
  | _ => none

/-- `ParseHitObjectError` (src/osu_file/hitobjects/error.rs:34-119). -/
def HOErr.source : HOErr → Option IntErr
  | _ => none

/-- `ParseCommandError`, `ParseObjectError`, `CommandPushError` (src/osu_file/events/storyboard/error.rs:8-193) and the errors
of the other events (src/osu_file/events/normal_event/error.rs, src/osu_file/events/audio_sample/error.rs), passed on by
`events::ParseError` (src/osu_file/events/error.rs:5-47): none gives a cause. -/
def Ev.EvErr.source : EvErr → Option IntErr
  | _ => none

/-- `ParseError` (src/osu_file/mod.rs:322-398). -/
def FileErr.source : FileErr → Option IntErr
  | invalidFileVersion | fileVersionDefinedWrong | unexpectedLine | duplicateSections | unknownSection => none
  | general e | editor e | metadata e | difficulty e => e.source
  | events e => e.source
  | timingPoints e => e.source
  | colours e => e.source
  | hitobjects e => e.source

/-- `ParseVariableError` (src/osu_file/osb/error.rs:28-35). -/
def VarErr.source : VarErr → Option IntErr
  | _ => none

/-- `osb::ParseError` (src/osu_file/osb/error.rs:6-24). -/
def OsbErr.source : OsbErr → Option IntErr
  | unexpectedLine | duplicateSections | unknownSection => none
  | .variable e => e.source
  | events e => e.source

/-- `Error::source for Error<E>` (src/osu_file/types.rs:46-50); `src` is that of the inner error. -/
def LErr.source {E : Type} (src : E → Option IntErr) (e : LErr E) : Option IntErr := src e.error

end Osu
