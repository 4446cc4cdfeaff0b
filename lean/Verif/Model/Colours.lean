/-
`src/osu_file/colours/mod.rs` and `src/osu_file/colours/types.rs`.
-/
import Verif.Model.Lines

namespace Osu

/-- `Rgb` (src/osu_file/colours/types.rs:11-19). -/
structure Rgb where
  red : UInt8
  green : UInt8
  blue : UInt8
  deriving DecidableEq, Repr

/-- `ParseRgbError` (src/osu_file/colours/error.rs:30-48). -/
inductive RgbErr where
  | invalidRed | invalidGreen | invalidBlue | missingGreen | missingBlue
  deriving DecidableEq, Repr

/-- `ParseColourError` (src/osu_file/colours/error.rs:11-26). -/
inductive ColourErr where
  | invalidComboCount
  | invalidColonSeparator
  | rgb (e : RgbErr)
  | unknownColourType
  deriving DecidableEq, Repr

namespace Rgb
open Parser

/-- `byte` (src/osu_file/colours/types.rs:25): digits as `u8`. -/
def byte : Parser RgbErr UInt8 := mapRes digit1 parseU8

/-- The parser of `Rgb::from_str` (src/osu_file/colours/types.rs:25-45). -/
def parser : Parser RgbErr Rgb :=
  (preceded space0 (context .invalidRed byte)).bind fun r =>
  (preceded (space0.bind fun _ => (context .missingGreen comma).bind fun _ => space0)
    (context .invalidGreen byte)).bind fun g =>
  (preceded (space0.bind fun _ => (context .missingBlue comma).bind fun _ => space0)
    (context .invalidBlue (restType parseU8))).bind fun b =>
  ret ⟨r, g, b⟩

/-- `Rgb::from_str` (src/osu_file/colours/types.rs:21-49). -/
def parse (s : Str) : Res RgbErr Rgb := (parser s).toRes

/-- `Rgb::to_string` (src/osu_file/colours/types.rs:51-55). -/
def shw (c : Rgb) : Str := u8ToStr c.red ++ [','] ++ u8ToStr c.green ++ [','] ++ u8ToStr c.blue

end Rgb

/-- `Colour` (src/osu_file/colours/mod.rs:75-85). -/
inductive Colour where
  | combo (n : Int32) (c : Rgb)
  | sliderTrackOverride (c : Rgb)
  | sliderBorder (c : Rgb)
  deriving DecidableEq, Repr

/-- Context labels of the colour parser: the error names and `rgb_parse_error`
(src/osu_file/colours/mod.rs:98). -/
inductive ColCtx where
  | err (e : ColourErr)
  | rgbParseError
  deriving DecidableEq, Repr

namespace Colour
open Parser

/-- `separator` (src/osu_file/colours/mod.rs:93). -/
def separator : Parser ColCtx Unit := space0.bind fun _ => (tag [':']).bind fun _ => space0.bind fun _ => ret ()

/-- `rgb()` (src/osu_file/colours/mod.rs:99-106). -/
def rgbP : Parser ColCtx Rgb := context .rgbParseError (mapRes rest Rgb.parse)

/-- `combo` (src/osu_file/colours/mod.rs:108-118). -/
def comboP : Parser ColCtx Colour :=
  (preceded (tag c!"Combo") (context (.err .invalidComboCount) (cut (mapRes digit1 parseI32)))).bind fun n =>
  (cut (preceded (context (.err .invalidColonSeparator) separator) rgbP)).bind fun c =>
  ret (.combo n c)

/-- `slide_track_override` (src/osu_file/colours/mod.rs:120-130). -/
def trackP : Parser ColCtx Colour :=
  (preceded ((tag c!"SliderTrackOverride").bind fun _ => context (.err .invalidColonSeparator) (cut separator))
    (cut rgbP)).map .sliderTrackOverride

/-- `slider_border` (src/osu_file/colours/mod.rs:97, 132-142). -/
def borderP : Parser ColCtx Colour :=
  (preceded
    (((tag c!"Slider").bind fun _ => (alt [char 'B', char 'b']).bind fun _ => tag c!"order").bind fun _ =>
      context (.err .invalidColonSeparator) (cut separator))
    (cut rgbP)).map .sliderBorder

/-- `alt((combo, slide_track_override, slider_border, fail))` (src/osu_file/colours/mod.rs:144-150). -/
def parser : Parser ColCtx Colour :=
  alt [comboP, trackP, borderP, context (.err .unknownColourType) fail]

/-- The first entry with the context `rgb_parse_error` (src/osu_file/colours/mod.rs:155-164). -/
def findRgb : VErr ColCtx → Option Str
  | [] => none
  | (i, .ctx .rgbParseError) :: _ => some i
  | _ :: e => findRgb e

/-- Conversion of a parser error (src/osu_file/colours/mod.rs:154-168): look for the rgb context and parse
that input again (`unwrap_err`), else the first context. `ParseColourError::from_str` does not know the
label `rgb_parse_error` (`unwrap` panics), but then the first loop has returned. -/
def toErr (e : VErr ColCtx) : Res ColourErr Colour :=
  match findRgb e with
  | some i =>
    match Rgb.parse i with
    | .err re => .err (.rgb re)
    | _ => .panic
  | none =>
    match firstCtx e with
    | some (.err c) => .err c
    | _ => .panic

/-- `Colour::from_str` (src/osu_file/colours/mod.rs:87-171). -/
def parse (s : Str) : Res ColourErr Colour :=
  match parser (trim s) with
  | .ok _ c => .ok c
  | .error e | .failure e => toErr e
  | .panic => .panic

/-- `Colour::to_string` (src/osu_file/colours/mod.rs:173-187). -/
def shw : Colour → Str
  | combo n c => c!"Combo" ++ i32ToStr n ++ c!" : " ++ c.shw
  | sliderTrackOverride c => c!"SliderTrackOverride : " ++ c.shw
  | sliderBorder c => c!"SliderBorder : " ++ c.shw

end Colour

/-- `Colours::from_str` (src/osu_file/colours/mod.rs:24-49); `none` is the absent section. -/
def Colours.parse (version : Nat) (s : Str) : Res (LErr ColourErr) (Option (List Colour)) :=
  if 3 ≤ version ∧ version ≤ 4 then .ok none
  else parseLines Colour.parse s >>= fun l => .ok (some l)

/-- `Colours::to_string` (src/osu_file/colours/mod.rs:51-64). -/
def Colours.shw (version : Nat) (l : List Colour) : Option Str :=
  if 3 ≤ version ∧ version ≤ 4 then none else some (printLines Colour.shw l)

end Osu
