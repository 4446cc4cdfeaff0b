/-
The library built without overflow checks (cargo's release profile). Integer arithmetic wraps there instead of
panicking. Only the functions that contain such arithmetic, and those that call them, are given again; everything else
is the same in both builds. `rust_decimal` panics on overflow in both builds.
-/
import Verif.Model.OsuFile

namespace Osu
namespace Ev
open Parser
open SB (Command)

/-- `OLD_VERSION_TIME_OFFSET` added on reading (src/osu_file/events/normal_event/parsers.rs:42-72), wrapping. -/
def shiftUpR (version : Nat) (t : Int32) : Int32 := if 3 ≤ version ∧ version ≤ 4 then t + 24 else t

/-- `time_to_string` (src/osu_file/events/normal_event/mod.rs:37-45), wrapping. -/
def timeToStrR (version : Nat) (t : Int32) : Str :=
  if 3 ≤ version ∧ version ≤ 4 then i32ToStr (t - 24) else i32ToStr t

/-- `start_time_offset` (src/osu_file/events/normal_event/parsers.rs:42-56). -/
def startTimeOffsetR (version : Nat) : Parser NEErr Int32 :=
  context .invalidStartTime ((commaFieldType parseI32).map (shiftUpR version))

/-- `end_time` (src/osu_file/events/normal_event/parsers.rs:58-72). -/
def endTimeOffsetR (version : Nat) : Parser NEErr Int32 :=
  context .invalidEndTime ((restType parseI32).map (shiftUpR version))

/-- `Break::from_str` (src/osu_file/events/normal_event/mod.rs:231-259). -/
def Break.parseR (version : Nat) (s : Str) : Res NEErr Break :=
  ((headerP c!"2" c!"Break").bind (fun sh =>
    (preceded (context .missingStartTime comma) (startTimeOffsetR version)).bind fun st =>
    (preceded (context .missingEndTime comma) (endTimeOffsetR version)).bind fun et =>
    ret (⟨st, et, sh⟩ : Break)) s).toRes

/-- `Break::to_string` (src/osu_file/events/normal_event/mod.rs:261-274). -/
def Break.shwR (version : Nat) (b : Break) : Str :=
  (if b.shortHand then c!"2" else c!"Break") ++ [','] ++ timeToStrR version b.startTime ++ [','] ++
    timeToStrR version b.endTime

/-- `ColourTransformation::from_str` (src/osu_file/events/normal_event/mod.rs:286-337). -/
def ColourTransformation.parseR (version : Nat) (s : Str) : Res NEErr ColourTransformation :=
  ((preceded (pair (context .wrongEventType (tag c!"3")) (context .missingStartTime comma))
      (startTimeOffsetR version)).bind (fun st =>
    (preceded (context .missingRed comma) (context .invalidRed (commaFieldType parseU8))).bind fun r =>
    (preceded (context .missingGreen comma) (context .invalidGreen (commaFieldType parseU8))).bind fun g =>
    (preceded (context .missingBlue comma) (context .invalidBlue (restType parseU8))).bind fun b =>
    ret (⟨st, r, g, b⟩ : ColourTransformation)) s).toRes

/-- `ColourTransformation::to_string` (src/osu_file/events/normal_event/mod.rs:339-353). -/
def ColourTransformation.shwR (version : Nat) (c : ColourTransformation) : Option Str :=
  if version < 14 then
    some (c!"3," ++ timeToStrR version c.startTime ++ [','] ++ u8ToStr c.red ++ [','] ++ u8ToStr c.green ++ [','] ++
      u8ToStr c.blue)
  else none

section
variable {D : Type} [DecLib D]

/-- `Video::from_str` (src/osu_file/events/normal_event/mod.rs:144-179). -/
def Video.parseR (version : Nat) (s : Str) : Res NEErr (Video D) :=
  ((headerP c!"1" c!"Video").bind (fun sh =>
    (preceded (context .missingStartTime comma) (startTimeOffsetR version)).bind fun st =>
    (preceded (context .missingFileName comma) fileNameAndPosition).bind fun (f, p) =>
    ret (⟨st, f, p, [], sh⟩ : Video D)) s).toRes

/-- `Video::to_string_cmd` (src/osu_file/events/normal_event/mod.rs:196-208). -/
def Video.shwCmdR (version : Nat) (v : Video D) : Str :=
  (if v.shortHand then c!"1" else c!"Video") ++ [','] ++ timeToStrR version v.startTime ++ [','] ++
    FilePath.toStr v.fileName ++ positionStr v.position

/-- The parser of a line that starts an event (src/osu_file/events/mod.rs:233-292). The kinds whose parsers contain no
such arithmetic are left to `parseEvent`. -/
def parseEventR (version : Nat) (line : Str) : Res EvErr (Event D) :=
  match kindOf line with
  | some .video => mapEv .video .video (Video.parseR version line : Res NEErr (Video D))
  | some .break_ => mapEv .break_ .break_ (Break.parseR version line)
  | some .colourTransformation =>
    mapEv .colourTransformation .colourTransformation (ColourTransformation.parseR version line)
  | _ => parseEvent version line

/-- One round of the loop over the lines (src/osu_file/events/mod.rs:119-301). -/
def stepR [UniLib] (version : Nat) (vars : List Variable) (evs : List (Event D)) (line : Str) :
    Res EvErr (List (Event D)) :=
  if trim line = [] then .ok evs
  else
    match stripPrefix c!"//" line with
    | some c => .ok (evs ++ [.comment c])
    | none =>
      let indent := (line.takeWhile Command.isIndent).length
      if indent > 0 then stepCmd vars evs line indent
      else
        match (parseEventR version line : Res EvErr (Event D)) with
        | .ok e => .ok (evs ++ [e])
        | .err e => .err e
        | .panic => .panic

/-- The loop over the lines (src/osu_file/events/mod.rs:118-304). -/
def loopR [UniLib] (version : Nat) (vars : List Variable) : Nat → List (Event D) → List Str →
    Res (LErr EvErr) (List (Event D))
  | _, evs, [] => .ok evs
  | n, evs, l :: ls =>
    match stepR version vars evs l with
    | .ok evs' => loopR version vars (n + 1) evs' ls
    | .err e => .err ⟨n, e⟩
    | .panic => .panic

/-- `Events::from_str` (src/osu_file/events/mod.rs:36-38). -/
def Events.parseR [UniLib] (version : Nat) (s : Str) : Res (LErr EvErr) (List (Event D)) :=
  loopR version [] 0 [] (lines s)

/-- `Event::to_string_variables` (src/osu_file/events/mod.rs:352-365). -/
def Event.shwR (version : Nat) (vars : List Variable) : Event D → Option (Option Str)
  | video e => (withCmds [] (e.shwCmdR version) e.commands).map some
  | break_ e => some (some (e.shwR version))
  | colourTransformation e => some (e.shwR version)
  | e => e.shw version vars

/-- `Events::to_string` (src/osu_file/events/mod.rs:307-314, 317-321). -/
def Events.shwR (version : Nat) (evs : List (Event D)) : Option Str :=
  (evs.mapM (Event.shwR version [])).map fun l => join ['\n'] (l.filterMap id)

end

end Ev
open Ev

section
variable {D : Type} [DecLib D] [UniLib]

/-- The `match section_name` (src/osu_file/mod.rs:261-301). -/
def OsuFile.handleR (version : Nat) (f : OsuFile D) (name body : Str) (line : Nat) :
    Option (Res (LErr FileErr) (OsuFile D)) :=
  if name = c!"Events" then
    some (processingLine .events (Events.parseR version body) line >>= fun x => .ok { f with events := some x })
  else OsuFile.handle version f name body line

/-- `OsuFile::from_str` after the version check (src/osu_file/mod.rs:206-319). `line_number += 0 - 1` takes one away from
the line number here, which is not 0 after the header. -/
def OsuFile.parseRestR (version : Nat) (leading s : Str) : Res (LErr FileErr) (OsuFile D) :=
  match preBad 0 ((lines s).take (preCount s)) with
  | some i => .err ⟨i, .unexpectedLine⟩
  | none =>
    match Parser.many0 squareSection (sectionText s) with
    | .ok _ sections =>
      sectionLoop .duplicateSections .unknownSection (OsuFile.handleR version) (fun line n => some (line + n - 1))
        sections ((lines leading).length + preCount s) [] (OsuFile.new version)
    | _ => .panic

/-- `OsuFile::from_str` (src/osu_file/mod.rs:167-320). -/
def OsuFile.parseR (s : Str) : Res (LErr FileErr) (OsuFile D) :=
  match versionP s with
  | .error ((_, .nom .tag) :: _) => .err ⟨0, .fileVersionDefinedWrong⟩
  | .error ((_, .nom .mapRes) :: _) => .err ⟨0, .invalidFileVersion⟩
  | .ok s (ws, version) =>
    if ¬ (3 ≤ version.toNat ∧ version.toNat ≤ 14) then .err ⟨0, .invalidFileVersion⟩
    else OsuFile.parseRestR version.toNat ws s
  | _ => .panic

omit [UniLib] in
/-- `fmt` of `Display for OsuFile` (src/osu_file/mod.rs:109-165); `none` is a panic. -/
def OsuFile.shwR (f : OsuFile D) : Option Str := do
  let v := f.version
  let general ← pushSection c!"General" f.general fun x => some (some ((General D).toStr v x))
  let editor ← pushSection c!"Editor" f.editor fun x => some (some ((Editor D).toStr v x))
  let metadata ← pushSection c!"Metadata" f.metadata fun x => some (some (Metadata.toStr v x))
  let difficulty ← pushSection c!"Difficulty" f.difficulty fun x => some (some ((Difficulty D).toStr v x))
  let events ← pushSection c!"Events" f.events fun x => (Events.shwR v x).map some
  let timingPoints ← pushSection c!"TimingPoints" f.timingPoints fun x => (TimingPoints.shw v x).map some
  let colours ← pushSection c!"Colours" f.colours fun x => some (Colours.shw v x)
  let hitobjects ← pushSection c!"HitObjects" f.hitobjects fun x => (HitObjects.shw v x).map some
  let sections := general ++ editor ++ metadata ++ difficulty ++ events ++ timingPoints ++ colours ++ hitobjects
  some (c!"osu file format v" ++ natToStr v ++ c!"\n\n" ++
    join ['\n', '\n'] (sections.map fun p => ['['] ++ p.1 ++ c!"]\n" ++ p.2))

end

namespace SB

/-- `list.get(list.len() - 2)` with wrapping arithmetic: for fewer than two elements the index is past every list. -/
def secondLast {α : Type} (l : List α) : Option α := if l.length < 2 then none else l[l.length - 2]?

/-- `index == list.len() - 1` with wrapping arithmetic on 64 bits. -/
def isLastIndex {α : Type} (l : List α) (index : UInt64) : Bool :=
  if l.length = 0 then index == 18446744073709551615 else index.toNat == l.length - 1

/-- `push_continuing_fields` (src/osu_file/events/storyboard/cmds/types.rs:38-59). -/
def ContinuingFields.pushR {α : Type} (c : ContinuingFields α) (f : α × Option α) : ContinuingFields α :=
  match c.continuing.getLast? with
  | none => { c with continuing := c.continuing ++ [f] }
  | some last =>
    if last.2.isNone then
      let lastField := match secondLast c.continuing with
        | some g => g.2
        | none => some c.start.2
      { c with continuing := c.continuing.dropLast ++ [(last.1, lastField)] ++ [f] }
    else { c with continuing := c.continuing ++ [f] }

/-- `set_continuing_fields` (src/osu_file/events/storyboard/cmds/types.rs:61-78). -/
def ContinuingFields.setR {α : Type} (c : ContinuingFields α) (index : UInt64) (f : α × Option α) :
    Res ContErr (ContinuingFields α) :=
  if !isLastIndex c.continuing index && f.2.isNone then .err .invalidSecondFieldOption
  else if index.toNat < c.continuing.length then .ok { c with continuing := c.continuing.set index.toNat f }
  else .err .indexOutOfBounds

/-- `push_continuing_rgbs` (src/osu_file/events/storyboard/cmds/types.rs:137-166). -/
def Colours.pushR (c : Colours) (f : UInt8 × Option UInt8 × Option UInt8) : Colours :=
  match c.continuing.getLast? with
  | none => { c with continuing := c.continuing ++ [f] }
  | some (r, g, b) =>
    if g.isNone then
      let lastField := match secondLast c.continuing with
        | some x => x.2.1
        | none => some c.start.2.1
      { c with continuing := c.continuing.dropLast ++ [(r, lastField, b)] ++ [f] }
    else if b.isNone then
      let lastField := match secondLast c.continuing with
        | some x => x.2.2
        | none => some c.start.2.2
      { c with continuing := c.continuing.dropLast ++ [(r, g, lastField)] ++ [f] }
    else { c with continuing := c.continuing ++ [f] }

/-- `set_continuing_rgbs` (src/osu_file/events/storyboard/cmds/types.rs:168-195). -/
def Colours.setR (c : Colours) (index : UInt64) (f : UInt8 × Option UInt8 × Option UInt8) : Res ColourErr Colours :=
  if !isLastIndex c.continuing index && f.2.1.isNone then .err .green
  else if (!isLastIndex c.continuing index && f.2.2.isNone) || (f.2.1.isNone && f.2.2.isSome) then .err .blue
  else if index.toNat < c.continuing.length then .ok { c with continuing := c.continuing.set index.toNat f }
  else .err .indexOutOfBounds

end SB
end Osu
