/-
`src/osu_file/metadata/mod.rs`.
-/
import Verif.Model.General

namespace Osu

/-- The fields of `Metadata` (src/osu_file/metadata/mod.rs:38-60). -/
inductive MKey where
  | title | titleUnicode | artist | artistUnicode | creator | version | source | tags | beatmapID
  | beatmapSetID
  deriving DecidableEq, Repr

/-- Field order of the struct (src/osu_file/metadata/mod.rs:38-60). -/
def MKey.all : List MKey :=
  [.title, .titleUnicode, .artist, .artistUnicode, .creator, .version, .source, .tags, .beatmapID,
   .beatmapSetID]

/-- Field type names (src/osu_file/metadata/mod.rs:38-60). -/
def MKey.name : MKey → Str
  | title => c!"Title"
  | titleUnicode => c!"TitleUnicode"
  | artist => c!"Artist"
  | artistUnicode => c!"ArtistUnicode"
  | creator => c!"Creator"
  | version => c!"Version"
  | source => c!"Source"
  | tags => c!"Tags"
  | beatmapID => c!"BeatmapID"
  | beatmapSetID => c!"BeatmapSetID"

/-- Wrapped types (src/osu_file/metadata/mod.rs:14-34). -/
@[reducible] def MKey.Val : MKey → Type
  | title | titleUnicode | artist | artistUnicode | creator | version | source => Str
  | tags => List Str
  | beatmapID | beatmapSetID => Int32

open Parser in
/-- The list parser of `Tags` (src/osu_file/metadata/mod.rs:23-27). -/
def tagList : Parser Unit (List Str) := sepList0 (tag [' ']) (takeTill fun c => c == ' ')

/-- `Tags::from_str` (src/osu_file/metadata/mod.rs:21-32). -/
def parseTags (s : Str) : Res FieldErr (List Str) :=
  match tagList s with
  | .ok _ l => .ok l
  | _ => .panic

/-- `v.join(" ")` (src/osu_file/metadata/mod.rs:31). -/
def tagsToStr (l : List Str) : Str := join [' '] l

/-- `BeatmapID::from_str`, `BeatmapSetID::from_str` (src/osu_file/metadata/mod.rs:33-34):
`Ok(s.parse::<Integer>().unwrap())`. -/
def idField (s : Str) : Res FieldErr (Option Int32) :=
  match parseI32 s with
  | .ok n => .ok (some n)
  | _ => .panic

/-- `from_str` of each field type (src/osu_file/metadata/mod.rs:14-34). -/
def MKey.parse : (k : MKey) → Nat → Str → Res FieldErr (Option k.Val)
  | title, _, s => textField s
  | titleUnicode, _, s => textField s
  | artist, _, s => textField s
  | artistUnicode, _, s => textField s
  | creator, _, s => textField s
  | version, _, s => textField s
  | source, _, s => textField s
  | tags, _, s => parseTags s >>= fun l => .ok (some l)
  | beatmapID, _, s => idField s
  | beatmapSetID, _, s => idField s

/-- `to_string` of each field type (src/osu_file/metadata/mod.rs:14-34). -/
def MKey.shw : (k : MKey) → Nat → k.Val → Option Str
  | title, _, x => some x
  | titleUnicode, _, x => some x
  | artist, _, x => some x
  | artistUnicode, _, x => some x
  | creator, _, x => some x
  | version, _, x => some x
  | source, _, x => some x
  | tags, _, x => some (tagsToStr x)
  | beatmapID, _, x => some (i32ToStr x)
  | beatmapSetID, _, x => some (i32ToStr x)

/-- The `Metadata` section (src/osu_file/metadata/mod.rs:36-62), no spacing. -/
def Metadata : Schema where
  Key := MKey
  keys := MKey.all
  name := MKey.name
  Val := MKey.Val
  Err := FieldErr
  parse := MKey.parse
  shw := MKey.shw
  spacing := fun _ _ => []

end Osu
