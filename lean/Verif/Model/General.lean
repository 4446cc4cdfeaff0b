/-
`src/osu_file/general/mod.rs` and `src/osu_file/general/types.rs`.
-/
import Verif.Model.KV

namespace Osu

/-- `general::ParseError` without the variants of the section macro (src/osu_file/general/error.rs:7-42).
Also holds the editor's and metadata's field errors. -/
inductive FieldErr where
  | parseInt (e : IntErr)
  | zeroOne (e : ZeroOneErr)
  | countdownUnknown
  | countdownInt (e : IntErr)
  | modeUnknown
  | modeInt (e : IntErr)
  | sampleSetUnknown
  | overlayUnknown
  | invalidCommaList
  deriving DecidableEq, Repr

/-- `Countdown` (src/osu_file/general/types.rs:9-20). -/
inductive Countdown where
  | noCountdown | normal | half | double
  deriving DecidableEq, Repr

/-- `*self as usize` (src/osu_file/general/types.rs:55). -/
def Countdown.repr : Countdown → Nat
  | noCountdown => 0 | normal => 1 | half => 2 | double => 3

/-- `Countdown::from_repr` (src/osu_file/general/types.rs:22-35); `none` is `InvalidRepr`. -/
def Countdown.fromRepr (repr : UInt64) (version : Nat) : Option (Option Countdown) :=
  if 3 ≤ version ∧ version ≤ 4 then some none
  else if repr = 0 then some (some noCountdown)
  else if repr = 1 then some (some normal)
  else if repr = 2 then some (some half)
  else if repr = 3 then some (some double)
  else none

/-- `Countdown::from_str` (src/osu_file/general/types.rs:37-49). -/
def Countdown.parse (version : Nat) (s : Str) : Res FieldErr (Option Countdown) :=
  if 3 ≤ version ∧ version ≤ 4 then .ok none
  else
    match parseUsize s with
    | .err e => .err (.countdownInt e)
    | .panic => .panic
    | .ok n =>
      match Countdown.fromRepr n version with
      | none => .err .countdownUnknown
      | some none => .err .countdownUnknown
      | some (some c) => .ok (some c)

/-- `Countdown::to_string` (src/osu_file/general/types.rs:51-58). -/
def Countdown.shw (version : Nat) (c : Countdown) : Option Str :=
  if 3 ≤ version ∧ version ≤ 4 then none else some (natToStr c.repr)

/-- `SampleSet` (src/osu_file/general/types.rs:69-82). -/
inductive GSampleSet where
  | normal | soft | drum | none
  deriving DecidableEq, Repr

/-- Names of the sample sets (src/osu_file/general/types.rs:90-95, 106-112). -/
def GSampleSet.text : GSampleSet → Str
  | normal => c!"Normal" | soft => c!"Soft" | drum => c!"Drum" | none => c!"None"

/-- `SampleSet::from_str` (src/osu_file/general/types.rs:102-119). -/
def GSampleSet.parse (version : Nat) (s : Str) : Res FieldErr (Option GSampleSet) :=
  if version = 3 then .ok Option.none
  else if s = c!"Normal" then .ok (some normal)
  else if s = c!"Soft" then .ok (some soft)
  else if s = c!"Drum" then .ok (some drum)
  else if s = c!"None" then .ok (some none)
  else .err .sampleSetUnknown

/-- `SampleSet::to_string` (src/osu_file/general/types.rs:84-100). -/
def GSampleSet.shw (version : Nat) (x : GSampleSet) : Option Str :=
  if version = 3 then Option.none else some x.text

/-- `Mode` (src/osu_file/general/types.rs:130-142). -/
inductive Mode where
  | osu | taiko | catch | mania
  deriving DecidableEq, Repr

/-- `*self as usize` (src/osu_file/general/types.rs:176). -/
def Mode.repr : Mode → Nat
  | osu => 0 | taiko => 1 | «catch» => 2 | mania => 3

/-- `Mode::from_str` (src/osu_file/general/types.rs:144-172). -/
def Mode.parse (version : Nat) (s : Str) : Res FieldErr (Option Mode) :=
  match parseUsize s with
  | .err e => .err (.modeInt e)
  | .panic => .panic
  | .ok n =>
    let m : Option Mode :=
      if n = 0 then some osu else if n = 1 then some taiko
      else if n = 2 then some «catch» else if n = 3 then some mania else none
    match m with
    | none => .err .modeUnknown
    | some m =>
      if 3 ≤ version ∧ version ≤ 4 ∧ m ≠ osu then .ok none
      else if 5 ≤ version ∧ version ≤ 6 ∧ m ≠ osu ∧ m ≠ taiko then .ok none
      else if 7 ≤ version ∧ version ≤ 9 ∧ m = mania then .ok none
      else .ok (some m)

/-- `Mode::to_string` (src/osu_file/general/types.rs:174-178). -/
def Mode.shw (_version : Nat) (m : Mode) : Option Str := some (natToStr m.repr)

/-- `OverlayPosition` (src/osu_file/general/types.rs:187-196). -/
inductive OverlayPosition where
  | noChange | below | above
  deriving DecidableEq, Repr

/-- Names (src/osu_file/general/types.rs:203-207, 220-225). -/
def OverlayPosition.text : OverlayPosition → Str
  | noChange => c!"NoChange" | below => c!"Below" | above => c!"Above"

/-- `OverlayPosition::from_str` (src/osu_file/general/types.rs:214-228). -/
def OverlayPosition.parse (version : Nat) (s : Str) : Res FieldErr (Option OverlayPosition) :=
  if 3 ≤ version ∧ version ≤ 13 then .ok none
  else if s = c!"NoChange" then .ok (some noChange)
  else if s = c!"Below" then .ok (some below)
  else if s = c!"Above" then .ok (some above)
  else .err .overlayUnknown

/-- `OverlayPosition::to_string` (src/osu_file/general/types.rs:198-212). -/
def OverlayPosition.shw (version : Nat) (x : OverlayPosition) : Option Str :=
  if 3 ≤ version ∧ version ≤ 13 then none else some x.text

open Parser in
/-- The list parser of `Bookmarks`/`EditorBookmarks` (src/osu_file/editor/mod.rs:16-17,
src/osu_file/general/mod.rs:43-44). -/
def bookmarkList : Parser Unit (List Int32) :=
  sepList0 comma (mapRes (takeTill fun c => c == ',') parseI32)

/-- `Bookmarks::from_str` (src/osu_file/editor/mod.rs:15-49) and `EditorBookmarks::from_str`
(src/osu_file/general/mod.rs:42-76), the same code. `finish().unwrap()` and `unwrap_err()` are panics.
`s.len() < input_len` compares byte lengths; the remaining text is a suffix of the input, so character
counts compare the same. -/
def parseBookmarks (s : Str) : Res FieldErr (List Int32) :=
  match bookmarkList s with
  | .ok r bs =>
    if r = [] then .ok bs
    else
      let r' :=
        if r.length < s.length then
          match r with
          | ',' :: t => t
          | _ => r
        else r
      match parseI32 (r'.takeWhile (fun c => !(c == ','))) with
      | .ok _ => .panic
      | .panic => .panic
      | .err .empty => .err .invalidCommaList
      | .err e => .err (.parseInt e)
  | _ => .panic

/-- `v.iter().map(to_string).join(",")` (src/osu_file/editor/mod.rs:49-50,
src/osu_file/general/mod.rs:82). -/
def bookmarksToStr (v : List Int32) : Str := join [','] (v.map i32ToStr)

/-- The fields of `General` in declaration order (src/osu_file/general/mod.rs:95-158). -/
inductive GKey where
  | audioFilename | audioLeadIn | audioHash | previewTime | countdown | sampleSet | stackLeniency | mode
  | letterboxInBreaks | storyFireInFront | useSkinSprites | alwaysShowPlayfield | overlayPosition
  | skinPreference | epilepsyWarning | countdownOffset | specialStyle | widescreenStoryboard
  | samplesMatchPlaybackRate | editorBookmarks | editorDistanceSpacing
  deriving DecidableEq, Repr

/-- Field order of the struct (src/osu_file/general/mod.rs:95-158). -/
def GKey.all : List GKey :=
  [.audioFilename, .audioLeadIn, .audioHash, .previewTime, .countdown, .sampleSet, .stackLeniency, .mode,
   .letterboxInBreaks, .storyFireInFront, .useSkinSprites, .alwaysShowPlayfield, .overlayPosition,
   .skinPreference, .epilepsyWarning, .countdownOffset, .specialStyle, .widescreenStoryboard,
   .samplesMatchPlaybackRate, .editorBookmarks, .editorDistanceSpacing]

/-- Field type names (src/osu_file/general/mod.rs:95-158). -/
def GKey.name : GKey → Str
  | audioFilename => c!"AudioFilename"
  | audioLeadIn => c!"AudioLeadIn"
  | audioHash => c!"AudioHash"
  | previewTime => c!"PreviewTime"
  | countdown => c!"Countdown"
  | sampleSet => c!"SampleSet"
  | stackLeniency => c!"StackLeniency"
  | mode => c!"Mode"
  | letterboxInBreaks => c!"LetterboxInBreaks"
  | storyFireInFront => c!"StoryFireInFront"
  | useSkinSprites => c!"UseSkinSprites"
  | alwaysShowPlayfield => c!"AlwaysShowPlayfield"
  | overlayPosition => c!"OverlayPosition"
  | skinPreference => c!"SkinPreference"
  | epilepsyWarning => c!"EpilepsyWarning"
  | countdownOffset => c!"CountdownOffset"
  | specialStyle => c!"SpecialStyle"
  | widescreenStoryboard => c!"WidescreenStoryboard"
  | samplesMatchPlaybackRate => c!"SamplesMatchPlaybackRate"
  | editorBookmarks => c!"EditorBookmarks"
  | editorDistanceSpacing => c!"EditorDistanceSpacing"

/-- Wrapped types of the fields (src/osu_file/general/mod.rs:24-93). `AudioFilename` wraps a `PathBuf`,
modelled as its text. -/
@[reducible] def GKey.Val (D : Type) : GKey → Type
  | audioFilename => Str
  | audioLeadIn => Int32
  | audioHash => Str
  | previewTime => Int32
  | countdown => Countdown
  | sampleSet => GSampleSet
  | stackLeniency => Decimal D
  | mode => Mode
  | letterboxInBreaks | storyFireInFront | useSkinSprites | alwaysShowPlayfield => Bool
  | overlayPosition => OverlayPosition
  | skinPreference => Str
  | epilepsyWarning => Bool
  | countdownOffset => Int32
  | specialStyle | widescreenStoryboard | samplesMatchPlaybackRate => Bool
  | editorBookmarks => List Int32
  | editorDistanceSpacing => Decimal D

/-- `s.parse::<Integer>()` field with the value wrapped in `Some` (src/helper/macros.rs:88-93). -/
def intField (s : Str) : Res FieldErr (Option Int32) := (parseI32 s).mapErr .parseInt >>= fun n => .ok (some n)

/-- 0/1 field (src/helper/macros.rs:94-100). -/
def boolField (s : Str) : Res FieldErr (Option Bool) :=
  (parseZeroOneBool s).mapErr .zeroOne >>= fun b => .ok (some b)

/-- Text field: the value is kept as it is. -/
def textField (s : Str) : Res FieldErr (Option Str) := .ok (some s)

/-- `Decimal` field. -/
def decField {D : Type} [DecLib D] (s : Str) : Res FieldErr (Option (Decimal D)) :=
  .ok (some (Decimal.ofStr s))

/-- `from_str` of each field type (src/osu_file/general/mod.rs:24-93). -/
def GKey.parse {D : Type} [DecLib D] : (k : GKey) → Nat → Str → Res FieldErr (Option (k.Val D))
  | audioFilename, _, s => textField s
  | audioLeadIn, _, s => intField s
  | audioHash, _, s => textField s
  | previewTime, _, s => intField s
  | countdown, v, s => Countdown.parse v s
  | sampleSet, v, s => GSampleSet.parse v s
  | stackLeniency, _, s => decField s
  | mode, v, s => Mode.parse v s
  | letterboxInBreaks, _, s => boolField s
  | storyFireInFront, _, s => boolField s
  | useSkinSprites, _, s => boolField s
  | alwaysShowPlayfield, _, s => boolField s
  | overlayPosition, v, s => OverlayPosition.parse v s
  | skinPreference, _, s => textField s
  | epilepsyWarning, _, s => boolField s
  | countdownOffset, _, s => intField s
  | specialStyle, _, s => boolField s
  | widescreenStoryboard, _, s => boolField s
  | samplesMatchPlaybackRate, _, s => boolField s
  | editorBookmarks, _, s => parseBookmarks s >>= fun l => .ok (some l)
  | editorDistanceSpacing, _, s => decField s

/-- `to_string` of each field type (src/osu_file/general/mod.rs:24-93). -/
def GKey.shw {D : Type} [DecLib D] : (k : GKey) → Nat → k.Val D → Option Str
  | audioFilename, _, x => some x
  | audioLeadIn, _, x => some (i32ToStr x)
  | audioHash, v, x => if v > 13 then none else some x
  | previewTime, _, x => some (i32ToStr x)
  | countdown, v, x => Countdown.shw v x
  | sampleSet, v, x => GSampleSet.shw v x
  | stackLeniency, _, x => some (Decimal.toStr x)
  | mode, v, x => Mode.shw v x
  | letterboxInBreaks, _, x => some (boolToStr x)
  | storyFireInFront, _, x => some (boolToStr x)
  | useSkinSprites, _, x => some (boolToStr x)
  | alwaysShowPlayfield, _, x => some (boolToStr x)
  | overlayPosition, v, x => OverlayPosition.shw v x
  | skinPreference, _, x => some x
  | epilepsyWarning, _, x => some (boolToStr x)
  | countdownOffset, _, x => some (i32ToStr x)
  | specialStyle, _, x => some (boolToStr x)
  | widescreenStoryboard, _, x => some (boolToStr x)
  | samplesMatchPlaybackRate, _, x => some (boolToStr x)
  | editorBookmarks, v, x => if v > 5 then none else some (bookmarksToStr x)
  | editorDistanceSpacing, v, x => if v > 5 then none else some (Decimal.toStr x)

/-- The `General` section (src/osu_file/general/mod.rs:95-158), spacing `" "`. -/
def General (D : Type) [DecLib D] : Schema where
  Key := GKey
  keys := GKey.all
  name := GKey.name
  Val := GKey.Val D
  Err := FieldErr
  parse := GKey.parse
  shw := GKey.shw
  spacing := fun _ _ => [' ']

end Osu
