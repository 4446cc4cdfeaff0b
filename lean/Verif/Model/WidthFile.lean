/-
Commands, events, sections and files in a build whose largest `usize` is `m` (see `Model/Width.lean`): the functions
that call those of `Model/Width.lean`. Numbers of lines stay unbounded: a text is shorter than the largest `usize`, and so
is the number of its lines.
-/
import Verif.Model.Width
import Verif.Model.OsuFile

namespace Osu

namespace SB.Command
open Parser
variable {D : Type} [DecLib D] [UniLib]

/-- `trigger` (src/osu_file/events/storyboard/cmds/mod.rs:467-541). -/
def triggerPW (m : Nat) : Parser CmdErr (Command D) :=
  (preceded (pair (tag c!"T") (context .missingTriggerType (cut comma)))
    (cut ((context .invalidTriggerType (mapRes commaField (TriggerType.parseW m))).bind fun t =>
      (alt [(pair comma (peek comma)).map fun _ => none,
        (verify rest fun s => (trim s).isEmpty).map fun _ => none, startTimeP]).bind fun st =>
      triggerTailP.bind fun (et, g) => ret (t, st, et, g)))).map
  fun (t, st, et, g) => mk st (.trigger t et g [])

/-- The parser of a command line (src/osu_file/events/storyboard/cmds/mod.rs:773-792). -/
def commandPW (m : Nat) : Parser CmdErr (Command D) :=
  preceded (Parser.takeWhile isIndent) (alt [moveP, rotateP, scaleP, vectorScaleP, fadeP, parameterP, moveYP, colourP,
    moveXP, triggerPW m, loopP, context .unknownCommandType fail])

/-- `Command::from_str` (src/osu_file/events/storyboard/cmds/mod.rs:351-796), always `Some`. -/
def parseW (m : Nat) (s : Str) : Res CmdErr (Command D) := (commandPW m s).toRes

end SB.Command

namespace Ev
open Parser
open SB (Command Object ObjErr)

section
variable {D : Type} [DecLib D]

/-- `SpriteLegacy::from_str` and `AnimationLegacy::from_str`
(src/osu_file/events/normal_event/mod.rs:367-411, 450-493). -/
def SpriteLegacy.parseW (m : Nat) (header : Str) (s : Str) : Res NEErr (SpriteLegacy D) :=
  ((preceded (pair (context .wrongEventType (tag header)) (context .missingLayer comma))
    ((context .invalidLayer (commaFieldType (LayerLegacy.parseW m))).bind fun l =>
      (preceded (context .missingOrigin comma)
        (context .invalidOrigin (commaFieldType (OriginLegacy.parseW m)))).bind fun o =>
      (preceded (context .missingFileName comma) fileNameAndPosition).bind fun (f, p) =>
      ret (⟨l, o, f, p, []⟩ : SpriteLegacy D))) s).toRes

/-- `SampleLegacy::from_str` (src/osu_file/events/normal_event/mod.rs:530-579). -/
def SampleLegacy.parseW (m : Nat) (s : Str) : Res NEErr (SampleLegacy D) :=
  ((preceded (pair (context .wrongEventType (tag c!"6")) (context .missingTime comma))
    ((context .invalidTime (commaFieldType Decimal.parse)).bind fun t =>
      (preceded (context .missingLayer comma)
        (context .invalidLayer (commaFieldType (LayerLegacy.parseW m)))).bind fun l =>
      (preceded (context .missingFileName comma) commaField).bind fun f =>
      (alt [eof.map fun _ => none,
        (preceded (context .missingVolume comma) (context .invalidVolume (restType Volume.parse))).map some]).bind fun v =>
      ret (⟨t, l, f, v, []⟩ : SampleLegacy D))) s).toRes

/-- `cmd_parse` (src/osu_file/events/mod.rs:132-164). -/
def cmdParseW [UniLib] (m : Nat) (vars : List Variable) (line : Str) : Res EvErr (Command D) :=
  match withoutHeader line with
  | none => .panic
  | some noHeader => (Command.parseW m (substVars noHeader line vars)).mapErr .command

/-- `NormalEventType::Other` (src/osu_file/events/mod.rs:270-291). -/
def parseOtherW (m : Nat) (line : Str) : Res EvErr (Event D) :=
  match (Object.parse line : Res ObjErr (Object D)) with
  | .ok o => .ok (.object o)
  | .err .unknownObjectType =>
    match AudioSample.parseW m line with
    | .ok a => .ok (.audioSample a)
    | .err .wrongEventType => .err .unknownEventType
    | .err e => .err (.audioSample e)
    | .panic => .panic
  | .err e => .err (.object e)
  | .panic => .panic

/-- The parser of a line that starts an event (src/osu_file/events/mod.rs:233-292). -/
def parseEventW (m version : Nat) (line : Str) : Res EvErr (Event D) :=
  match kindOf line with
  | none => .panic
  | some .background => mapEv .background .background (Background.parse line : Res NEErr (Background D))
  | some .video => mapEv .video .video (Video.parse version line : Res NEErr (Video D))
  | some .break_ => mapEv .break_ .break_ (Break.parse version line)
  | some .colourTransformation =>
    mapEv .colourTransformation .colourTransformation (ColourTransformation.parse version line)
  | some .spriteLegacy =>
    mapEv .spriteLegacy .spriteLegacy (SpriteLegacy.parseW m c!"4" line : Res NEErr (SpriteLegacy D))
  | some .animationLegacy =>
    mapEv .animationLegacy .animationLegacy (SpriteLegacy.parseW m c!"5" line : Res NEErr (SpriteLegacy D))
  | some .sampleLegacy => mapEv .sampleLegacy .sampleLegacy (SampleLegacy.parseW m line : Res NEErr (SampleLegacy D))
  | some .other => parseOtherW m line

variable [UniLib]

/-- A command line (src/osu_file/events/mod.rs:131-231). -/
def stepCmdW (m : Nat) (vars : List Variable) (evs : List (Event D)) (line : Str) (indent : Nat) :
    Res EvErr (List (Event D)) :=
  match evs.getLast? with
  | none => .err .storyboardCmdWithNoSprite
  | some e =>
    match e.commands with
    | none => .err .storyboardCmdWithNoSprite
    | some cs =>
      match cmdParseW m vars line with
      | .ok cmd =>
        match tryPush cs cmd indent with
        | (cs', .ok _) => .ok (evs.dropLast ++ [e.setCommands cs'])
        | (_, .err er) => .err (.push er)
        | (_, .panic) => .panic
      | .err er => .err er
      | .panic => .panic

/-- One round of the loop over the lines (src/osu_file/events/mod.rs:119-301). -/
def stepW (m version : Nat) (vars : List Variable) (evs : List (Event D)) (line : Str) : Res EvErr (List (Event D)) :=
  if trim line = [] then .ok evs
  else
    match stripPrefix c!"//" line with
    | some c => .ok (evs ++ [.comment c])
    | none =>
      let indent := (line.takeWhile Command.isIndent).length
      if indent > 0 then stepCmdW m vars evs line indent
      else
        match (parseEventW m version line : Res EvErr (Event D)) with
        | .ok e => .ok (evs ++ [e])
        | .err e => .err e
        | .panic => .panic

/-- The loop over the lines (src/osu_file/events/mod.rs:118-304). -/
def loopW (m version : Nat) (vars : List Variable) : Nat → List (Event D) → List Str → Res (LErr EvErr) (List (Event D))
  | _, evs, [] => .ok evs
  | n, evs, l :: ls =>
    match stepW m version vars evs l with
    | .ok evs' => loopW m version vars (n + 1) evs' ls
    | .err e => .err ⟨n, e⟩
    | .panic => .panic

/-- `Events::from_str_variables` (src/osu_file/events/mod.rs:42-305), always `Some`. -/
def Events.parseVarsW (m version : Nat) (vars : List Variable) (s : Str) : Res (LErr EvErr) (List (Event D)) :=
  loopW m version vars 0 [] (lines s)

/-- `Events::from_str` (src/osu_file/events/mod.rs:36-38). -/
def Events.parseW (m version : Nat) (s : Str) : Res (LErr EvErr) (List (Event D)) := Events.parseVarsW m version [] s

end
end Ev
open Ev

/-- `from_str` of each field type of the general section (src/osu_file/general/mod.rs:24-93). -/
def GKey.parseW {D : Type} [DecLib D] (m : Nat) : (k : GKey) → Nat → Str → Res FieldErr (Option (k.Val D))
  | .countdown, v, s => Countdown.parseW m v s
  | .mode, v, s => Mode.parseW m v s
  | k, v, s => GKey.parse k v s

/-- The general section (src/osu_file/general/mod.rs:95-158). -/
def GeneralW (m : Nat) (D : Type) [DecLib D] : Schema := { General D with parse := GKey.parseW m }

section
variable {D : Type} [DecLib D] [UniLib]

/-- The `match section_name` (src/osu_file/osb/mod.rs:74-102). -/
def Osb.handleW (m version : Nat) (o : Osb D) (name body : Str) (line : Nat) : Option (Res (LErr OsbErr) (Osb D)) :=
  if name = c!"Variables" then
    some (processingLine .variable (parseLines Variable.parse body) line >>= fun vs =>
      .ok { o with variables := some vs })
  else if name = c!"Events" then
    some (processingLine .events (Events.parseVarsW m version (o.variables.getD []) body) line >>= fun es =>
      .ok { o with events := some es })
  else none

/-- `Osb::from_str` (src/osu_file/osb/mod.rs:22-109). -/
def Osb.parseW (m version : Nat) (s : Str) : Res (LErr OsbErr) (Option (Osb D)) :=
  if version < 14 then .ok none
  else
    match preBad 0 ((lines s).take (preCount s)) with
    | some i => .err ⟨i, .unexpectedLine⟩
    | none =>
      match Parser.many0 squareSection (sectionText s) with
      | .ok _ sections =>
        sectionLoop .duplicateSections .unknownSection (Osb.handleW m version) (fun line n => some (line + (n - 1)))
          sections (preCount s) [] ⟨none, none⟩ >>= fun o => .ok (some o)
      | _ => .panic

/-- The `match section_name` (src/osu_file/mod.rs:261-301); the sections in which no `usize` is read are left to
`OsuFile.handle`. -/
def OsuFile.handleW (m version : Nat) (f : OsuFile D) (name body : Str) (line : Nat) :
    Option (Res (LErr FileErr) (OsuFile D)) :=
  if name = c!"General" then
    some (processingLine .general ((GeneralW m D).fromStr version body) line >>= fun x =>
      .ok { f with general := some x })
  else if name = c!"Events" then
    some (processingLine .events (Events.parseW m version body) line >>= fun x => .ok { f with events := some x })
  else if name = c!"HitObjects" then
    some (processingLine .hitobjects (HitObjects.parseW m version body) line >>= fun x =>
      .ok { f with hitobjects := some x })
  else OsuFile.handle version f name body line

/-- `OsuFile::from_str` after the version check (src/osu_file/mod.rs:206-319). -/
def OsuFile.parseRestW (m version : Nat) (leading s : Str) : Res (LErr FileErr) (OsuFile D) :=
  match preBad 0 ((lines s).take (preCount s)) with
  | some i => .err ⟨i, .unexpectedLine⟩
  | none =>
    match Parser.many0 squareSection (sectionText s) with
    | .ok _ sections =>
      sectionLoop .duplicateSections .unknownSection (OsuFile.handleW m version)
        (fun line n => if n = 0 then none else some (line + (n - 1)))
        sections ((lines leading).length + preCount s) [] (OsuFile.new version)
    | _ => .panic

/-- `OsuFile::from_str` (src/osu_file/mod.rs:167-320). -/
def OsuFile.parseW (m : Nat) (s : Str) : Res (LErr FileErr) (OsuFile D) :=
  match versionP s with
  | .error ((_, .nom .tag) :: _) => .err ⟨0, .fileVersionDefinedWrong⟩
  | .error ((_, .nom .mapRes) :: _) => .err ⟨0, .invalidFileVersion⟩
  | .ok s (ws, version) =>
    if ¬ (3 ≤ version.toNat ∧ version.toNat ≤ 14) then .err ⟨0, .invalidFileVersion⟩
    else OsuFile.parseRestW m version.toNat ws s
  | _ => .panic

end

end Osu
