/-
`src/osu_file/mod.rs`: the whole beatmap file.
-/
import Verif.Model.Osb
import Verif.Model.Editor
import Verif.Model.Metadata
import Verif.Model.Difficulty
import Verif.Model.Colours
import Verif.Model.TimingPoints
import Verif.Model.HitObjects

namespace Osu
open Ev

/-- `OsuFile` (src/osu_file/mod.rs:39-70); the version is a `Nat` here, `u8` in the code. -/
structure OsuFile (D : Type) [DecLib D] where
  version : Nat
  general : Option (General D).Section
  editor : Option (Editor D).Section
  osb : Option (Osb D)
  metadata : Option Metadata.Section
  difficulty : Option (Difficulty D).Section
  events : Option (List (Event D))
  timingPoints : Option (List (TimingPoint D))
  colours : Option (List Colour)
  hitobjects : Option (List (HitObject D))

/-- `ParseError` (src/osu_file/mod.rs:322-398); variants never constructed are left out. -/
inductive FileErr where
  | invalidFileVersion | fileVersionDefinedWrong | unexpectedLine | duplicateSections | unknownSection
  | general (e : KVErr FieldErr) | editor (e : KVErr FieldErr) | metadata (e : KVErr FieldErr)
  | difficulty (e : KVErr FieldErr) | events (e : EvErr) | timingPoints (e : TPErr) | colours (e : ColourErr)
  | hitobjects (e : HOErr)
  deriving DecidableEq, Repr

section
variable {D : Type} [DecLib D] [UniLib]

/-- `OsuFile::new`, `OsuFile::default` (src/osu_file/mod.rs:73-87, 104-106). -/
def OsuFile.new (version : Nat) : OsuFile D :=
  ⟨version, none, none, none, none, none, none, none, none, none⟩

/-- `append_osb` (src/osu_file/mod.rs:89-94): the value of `self` afterwards and the result. -/
def OsuFile.appendOsb (f : OsuFile D) (s : Str) : OsuFile D × Res (LErr OsbErr) Unit :=
  match (Osb.parse f.version s : Res (LErr OsbErr) (Option (Osb D))) with
  | .ok o => ({ f with osb := o }, .ok ())
  | .err e => (f, .err e)
  | .panic => (f, .panic)

/-- `osb_to_string` (src/osu_file/mod.rs:96-102); the outer `none` is a panic. -/
def OsuFile.osbToStr (f : OsuFile D) : Option (Option Str) :=
  match f.osb with
  | some o => o.shw f.version
  | none => some none

/-- One `if let Some(x) = &self.section` of `fmt` (src/osu_file/mod.rs:113-152), where printing may panic
(outer `none`) and may give nothing: the pairs pushed. -/
def pushSection {α : Type} (name : Str) (x : Option α) (shw : α → Option (Option Str)) : Option (List (Str × Str)) :=
  match x with
  | none => some []
  | some a => (shw a).map fun t => match t with
    | none => []
    | some t => [(name, t)]

/-- `fmt` of `Display for OsuFile` (src/osu_file/mod.rs:109-165); `none` is a panic. -/
def OsuFile.shw (f : OsuFile D) : Option Str := do
  let v := f.version
  let general ← pushSection c!"General" f.general fun x => some (some ((General D).toStr v x))
  let editor ← pushSection c!"Editor" f.editor fun x => some (some ((Editor D).toStr v x))
  let metadata ← pushSection c!"Metadata" f.metadata fun x => some (some (Metadata.toStr v x))
  let difficulty ← pushSection c!"Difficulty" f.difficulty fun x => some (some ((Difficulty D).toStr v x))
  let events ← pushSection c!"Events" f.events fun x => (Events.shw v x).map some
  let timingPoints ← pushSection c!"TimingPoints" f.timingPoints fun x => (TimingPoints.shw v x).map some
  let colours ← pushSection c!"Colours" f.colours fun x => some (Colours.shw v x)
  let hitobjects ← pushSection c!"HitObjects" f.hitobjects fun x => (HitObjects.shw v x).map some
  let sections := general ++ editor ++ metadata ++ difficulty ++ events ++ timingPoints ++ colours ++ hitobjects
  some (c!"osu file format v" ++ natToStr v ++ c!"\n\n" ++
    join ['\n', '\n'] (sections.map fun p => ['['] ++ p.1 ++ c!"]\n" ++ p.2))

open Parser in
/-- The header (src/osu_file/mod.rs:171-200): blanks before the version, and the version. -/
def versionP : Parser Unit (Str × UInt8) :=
  pair multispace0 (preceded (preceded (alt [tag ['\ufeff'], ret []]) (tag c!"osu file format v"))
    (mapRes (takeTill fun c => c == '\r' || c == '\n') parseU8))

/-- The `match section_name` (src/osu_file/mod.rs:261-301). -/
def OsuFile.handle (version : Nat) (f : OsuFile D) (name body : Str) (line : Nat) :
    Option (Res (LErr FileErr) (OsuFile D)) :=
  if name = c!"General" then
    some (processingLine .general ((General D).fromStr version body) line >>= fun x => .ok { f with general := some x })
  else if name = c!"Editor" then
    some (processingLine .editor ((Editor D).fromStr version body) line >>= fun x => .ok { f with editor := some x })
  else if name = c!"Metadata" then
    some (processingLine .metadata (Metadata.fromStr version body) line >>= fun x => .ok { f with metadata := some x })
  else if name = c!"Difficulty" then
    some (processingLine .difficulty ((Difficulty D).fromStr version body) line >>= fun x =>
      .ok { f with difficulty := some x })
  else if name = c!"Events" then
    some (processingLine .events (Events.parse version body) line >>= fun x => .ok { f with events := some x })
  else if name = c!"TimingPoints" then
    some (processingLine .timingPoints (TimingPoints.parse version body) line >>= fun x =>
      .ok { f with timingPoints := some x })
  else if name = c!"Colours" then
    some (processingLine .colours (Colours.parse version body) line >>= fun x => .ok { f with colours := x })
  else if name = c!"HitObjects" then
    some (processingLine .hitobjects (HitObjects.parse version body) line >>= fun x =>
      .ok { f with hitobjects := some x })
  else none

/-- `OsuFile::from_str` after the version check (src/osu_file/mod.rs:206-319); `s` is the text after the version
number, `leading` the blanks before the version header. -/
def OsuFile.parseRest (version : Nat) (leading s : Str) : Res (LErr FileErr) (OsuFile D) :=
  match preBad 0 ((lines s).take (preCount s)) with
  | some i => .err ⟨i, .unexpectedLine⟩
  | none =>
    match Parser.many0 squareSection (sectionText s) with
    | .ok _ sections =>
      sectionLoop .duplicateSections .unknownSection (OsuFile.handle version)
        (fun line n => if n = 0 then none else some (line + (n - 1)))
        sections ((lines leading).length + preCount s) [] (OsuFile.new version)
    | _ => .panic

/-- `OsuFile::from_str` (src/osu_file/mod.rs:167-320). `err.into()` places the header errors at line 0
(src/osu_file/types.rs:165-173). -/
def OsuFile.parse (s : Str) : Res (LErr FileErr) (OsuFile D) :=
  match versionP s with
  | .error ((_, .nom .tag) :: _) => .err ⟨0, .fileVersionDefinedWrong⟩
  | .error ((_, .nom .mapRes) :: _) => .err ⟨0, .invalidFileVersion⟩
  | .ok s (ws, version) =>
    if ¬ (3 ≤ version.toNat ∧ version.toNat ≤ 14) then .err ⟨0, .invalidFileVersion⟩
    else OsuFile.parseRest version.toNat ws s
  | _ => .panic

end

end Osu
