/-
`src/osu_file/events/mod.rs`: the Events section, nested commands and their printing.
-/
import Verif.Model.NormalEvents
import Verif.Model.Lines

namespace Osu
namespace Ev
open SB (Command Object CmdErr ObjErr CmdProps)

/-- `CommandPushError::InvalidIndentation` (src/osu_file/events/storyboard/error.rs:10-13). -/
structure PushErr where
  expected : Nat
  got : Nat
  deriving DecidableEq, Repr

section
variable {D : Type}

/-- The `for i in 1..indentation` loop of `try_push_cmd` (src/osu_file/events/mod.rs:457-482) at `last_cmd`;
`n` iterations remain. Gives the new value of `last_cmd` and the outcome. -/
def pushLoop (ind : Nat) (cmd : Command D) : (n i : Nat) → Command D → Command D × Res PushErr Unit
  | 0, _, last => (last, .panic)
  | n + 1, i, .mk st p =>
    match p.children with
    | some cs =>
      if i + 1 = ind then (.mk st (p.setChildren (cs ++ [cmd])), .ok ())
      else
        match cs.getLast? with
        | some sub =>
          let r := pushLoop ind cmd n (i + 1) sub
          (.mk st (p.setChildren (cs.dropLast ++ [r.1])), r.2)
        | none => (.mk st p, .err ⟨i - 1, ind⟩)
    | none => (.mk st p, .err ⟨1, ind⟩)

/-- `EventWithCommands::try_push_cmd` (src/osu_file/events/mod.rs:446-484): the new commands and the outcome. -/
def tryPush (cmds : List (Command D)) (cmd : Command D) (ind : Nat) : List (Command D) × Res PushErr Unit :=
  if ind = 1 then (cmds ++ [cmd], .ok ())
  else
    match cmds.getLast? with
    | none => (cmds, .err ⟨1, ind⟩)
    | some last =>
      let r := pushLoop ind cmd (ind - 1) 1 last
      (cmds.dropLast ++ [r.1], r.2)

mutual
/-- Number of commands in a command with its nested commands: the number of iterations of the printing loop. -/
def cmdSize : Command D → Nat
  | .mk _ p => 1 + propsSize p
def propsSize : CmdProps D (Command D) → Nat
  | .loop _ cs => cmdsSize cs
  | .trigger _ _ _ cs => cmdsSize cs
  | _ => 0
def cmdsSize : List (Command D) → Nat
  | [] => 0
  | c :: cs => cmdSize c + cmdsSize cs
end

variable [DecLib D]

/-- `format!("{}{}", " ".repeat(indentation), cmd.to_string_variables(version, variables).unwrap())`
(src/osu_file/events/mod.rs:377-381, 402-406). -/
def cmdLine (vars : List Variable) (ind : Nat) (c : Command D) : Str := spaces ind ++ c.toStrVars vars

/-- The inner `loop` of `commands_to_string_variables` (src/osu_file/events/mod.rs:398-436): the lines it
pushes. `none`: index out of bounds, or the number of iterations allowed is used up. -/
def printLoop (vars : List Variable) : (fuel : Nat) → (cur : List (Command D)) → (idx : Nat) →
    (stack : List (List (Command D) × Nat × Nat)) → (ind : Nat) → Option (List Str)
  | 0, _, _, _, _ => none
  | fuel + 1, cur, idx, stack, ind =>
    match cur[idx]? with
    | none => none
    | some cmd =>
      match cmd.props.children with
      | some (c :: cs) =>
        (printLoop vars fuel (c :: cs) 0 (if idx + 1 < cur.length then (cur, idx + 1, ind) :: stack else stack)
          (ind + 1)).map (cmdLine vars ind cmd :: ·)
      | _ =>
        if idx + 1 ≥ cur.length then
          match stack with
          | (cur', idx', ind') :: stack' =>
            (printLoop vars fuel cur' idx' stack' ind').map (cmdLine vars ind cmd :: ·)
          | [] => some [cmdLine vars ind cmd]
        else (printLoop vars fuel cur (idx + 1) stack ind).map (cmdLine vars ind cmd :: ·)

/-- The outer `for` of `commands_to_string_variables` (src/osu_file/events/mod.rs:376-440), where
`indentation` is 1 at the start of every round: the lines pushed. -/
def printCmds (vars : List Variable) : List (Command D) → Option (List Str)
  | [] => some []
  | cmd :: rest =>
    match cmd.props.children with
    | some (c :: cs) => do
      let inner ← printLoop vars (cmdsSize (c :: cs)) (c :: cs) 0 [] 2
      let more ← printCmds vars rest
      some (cmdLine vars 1 cmd :: inner ++ more)
    | _ => (printCmds vars rest).map (cmdLine vars 1 cmd :: ·)

/-- `commands_to_string_variables` (src/osu_file/events/mod.rs:368-443); `none` is a panic. -/
def cmdsToStr (vars : List Variable) (cmds : List (Command D)) : Option Str :=
  (printCmds vars cmds).map (join ['\n'])

/-- `EventWithCommands::to_string_variables` (src/osu_file/events/mod.rs:497-515) for a printed first line. -/
def withCmds (vars : List Variable) (first : Str) (cmds : List (Command D)) : Option Str :=
  (cmdsToStr vars cmds).map fun s => first ++ (if s.isEmpty then s else '\n' :: s)

end

/-- `Event` (src/osu_file/events/mod.rs:329-343). -/
inductive Event (D : Type) where
  | comment (s : Str)
  | background (e : Background D)
  | video (e : Video D)
  | break_ (e : Break)
  | colourTransformation (e : ColourTransformation)
  | spriteLegacy (e : SpriteLegacy D)
  | animationLegacy (e : SpriteLegacy D)
  | sampleLegacy (e : SampleLegacy D)
  | object (e : Object D)
  | audioSample (e : AudioSample)

/-- `ParseError` (src/osu_file/events/error.rs:5-47); the unused variants are left out. -/
inductive EvErr where
  | storyboardCmdWithNoSprite
  | background (e : NEErr) | video (e : NEErr) | break_ (e : NEErr) | colourTransformation (e : NEErr)
  | spriteLegacy (e : NEErr) | animationLegacy (e : NEErr) | sampleLegacy (e : NEErr)
  | push (e : PushErr) | command (e : CmdErr) | object (e : ObjErr) | audioSample (e : NEErr)
  | unknownEventType
  deriving DecidableEq, Repr

/-- `&s[n..]` for a byte index `n`; `none` is the panic outside a character boundary. -/
def sliceFrom : Nat → Str → Option Str
  | 0, s => some s
  | _ + 1, [] => none
  | n + 1, c :: s => if c.utf8Size ≤ n + 1 then sliceFrom (n + 1 - c.utf8Size) s else none

/-- `line_without_header` (src/osu_file/events/mod.rs:133-136): the character index of the first comma is
used as a byte index. -/
def withoutHeader (line : Str) : Option Str :=
  match line.findIdx? (· == ',') with
  | some i => sliceFrom (i + 1) line
  | none => some line

/-- The loop over the variables (src/osu_file/events/mod.rs:138-152): the line after replacement. -/
def substVars (noHeader : Str) (line : Str) : List Variable → Str
  | [] => line
  | v :: vs =>
    substVars noHeader (if contains ('$' :: v.name) noHeader then replace ('$' :: v.name) v.value line else line) vs

/-- `cmd_parse` (src/osu_file/events/mod.rs:132-164). -/
def cmdParse {D : Type} [DecLib D] [UniLib] (vars : List Variable) (line : Str) : Res EvErr (Command D) :=
  match withoutHeader line with
  | none => .panic
  | some noHeader => (Command.parse (substVars noHeader line vars)).mapErr .command

section
variable {D : Type}

/-- `commands()` of the events that have commands; `none` for the others
(the `match event` of src/osu_file/events/mod.rs:167-222). -/
def Event.commands : Event D → Option (List (Command D))
  | background e => some e.commands
  | video e => some e.commands
  | spriteLegacy e => some e.commands
  | animationLegacy e => some e.commands
  | sampleLegacy e => some e.commands
  | object e => some e.commands
  | _ => none

/-- Assignment to `commands_mut()`. -/
def Event.setCommands (cs : List (Command D)) : Event D → Event D
  | background e => background { e with commands := cs }
  | video e => video { e with commands := cs }
  | spriteLegacy e => spriteLegacy { e with commands := cs }
  | animationLegacy e => animationLegacy { e with commands := cs }
  | sampleLegacy e => sampleLegacy { e with commands := cs }
  | object e => object { e with commands := cs }
  | e => e

variable [DecLib D]

/-- The event kinds tried by header (src/osu_file/events/mod.rs:49-59). -/
inductive Kind where
  | background | video | break_ | colourTransformation | spriteLegacy | animationLegacy | sampleLegacy | other
  deriving DecidableEq, Repr

section
open Parser

/-- One header parser (src/osu_file/events/mod.rs:62-116): the header must be followed by the end of the line
or a comma, otherwise `Failure`. -/
def kindP (tags : List Str) (k : Kind) : Parser Unit Kind :=
  (peek (pair (alt (tags.map tag)) (cut (alt [eof, comma])))).map fun _ => k

/-- `alt` of the headers (src/osu_file/events/mod.rs:234-243). -/
def kindsP : Parser Unit Kind :=
  alt [kindP [c!"0"] .background, kindP [c!"1", c!"Video"] .video, kindP [c!"2", c!"Break"] .break_,
    kindP [c!"3"] .colourTransformation, kindP [c!"4"] .spriteLegacy, kindP [c!"5"] .animationLegacy,
    kindP [c!"6"] .sampleLegacy, ret .other]

end

/-- `.unwrap()` of the header classification (src/osu_file/events/mod.rs:234-244): `none` is a panic. -/
def kindOf (line : Str) : Option Kind :=
  match kindsP line with
  | .ok _ k => some k
  | _ => none

/-- `NormalEventType::Other` (src/osu_file/events/mod.rs:270-291). -/
def parseOther (line : Str) : Res EvErr (Event D) :=
  match (Object.parse line : Res ObjErr (Object D)) with
  | .ok o => .ok (.object o)
  | .err .unknownObjectType =>
    match AudioSample.parse line with
    | .ok a => .ok (.audioSample a)
    | .err .wrongEventType => .err .unknownEventType
    | .err e => .err (.audioSample e)
    | .panic => .panic
  | .err e => .err (.object e)
  | .panic => .panic

/-- Result mapping used for the parsers of one kind of event (src/osu_file/events/mod.rs:247-269). -/
def mapEv {ε α β δ : Type} (f : α → β) (g : ε → δ) : Res ε α → Res δ β
  | .ok a => .ok (f a)
  | .err e => .err (g e)
  | .panic => .panic

/-- The parser of a line that starts an event (src/osu_file/events/mod.rs:233-292). -/
def parseEvent (version : Nat) (line : Str) : Res EvErr (Event D) :=
  match kindOf line with
  | none => .panic
  | some .background => mapEv .background .background (Background.parse line : Res NEErr (Background D))
  | some .video => mapEv .video .video (Video.parse version line : Res NEErr (Video D))
  | some .break_ => mapEv .break_ .break_ (Break.parse version line)
  | some .colourTransformation =>
    mapEv .colourTransformation .colourTransformation (ColourTransformation.parse version line)
  | some .spriteLegacy => mapEv .spriteLegacy .spriteLegacy (SpriteLegacy.parse c!"4" line : Res NEErr (SpriteLegacy D))
  | some .animationLegacy =>
    mapEv .animationLegacy .animationLegacy (SpriteLegacy.parse c!"5" line : Res NEErr (SpriteLegacy D))
  | some .sampleLegacy => mapEv .sampleLegacy .sampleLegacy (SampleLegacy.parse line : Res NEErr (SampleLegacy D))
  | some .other => parseOther line

/-- A command line (src/osu_file/events/mod.rs:131-231): the events with the command pushed to the last one. -/
def stepCmd [UniLib] (vars : List Variable) (evs : List (Event D)) (line : Str) (indent : Nat) :
    Res EvErr (List (Event D)) :=
  match evs.getLast? with
  | none => .err .storyboardCmdWithNoSprite
  | some e =>
    match e.commands with
    | none => .err .storyboardCmdWithNoSprite
    | some cs =>
      match cmdParse vars line with
      | .ok cmd =>
        match tryPush cs cmd indent with
        | (cs', .ok _) => .ok (evs.dropLast ++ [e.setCommands cs'])
        | (_, .err er) => .err (.push er)
        | (_, .panic) => .panic
      | .err er => .err er
      | .panic => .panic

/-- One round of the loop over the lines (src/osu_file/events/mod.rs:119-301). -/
def step [UniLib] (version : Nat) (vars : List Variable) (evs : List (Event D)) (line : Str) :
    Res EvErr (List (Event D)) :=
  if trim line = [] then .ok evs
  else
    match stripPrefix c!"//" line with
    | some c => .ok (evs ++ [.comment c])
    | none =>
      let indent := (line.takeWhile Command.isIndent).length
      if indent > 0 then stepCmd vars evs line indent
      else
        match (parseEvent version line : Res EvErr (Event D)) with
        | .ok e => .ok (evs ++ [e])
        | .err e => .err e
        | .panic => .panic

/-- The loop over the lines (src/osu_file/events/mod.rs:118-304); `n` is the index of the first line. -/
def loop [UniLib] (version : Nat) (vars : List Variable) : Nat → List (Event D) → List Str →
    Res (LErr EvErr) (List (Event D))
  | _, evs, [] => .ok evs
  | n, evs, l :: ls =>
    match step version vars evs l with
    | .ok evs' => loop version vars (n + 1) evs' ls
    | .err e => .err ⟨n, e⟩
    | .panic => .panic

/-- `Events::from_str_variables` (src/osu_file/events/mod.rs:42-305), always `Some`. -/
def Events.parseVars [UniLib] (version : Nat) (vars : List Variable) (s : Str) : Res (LErr EvErr) (List (Event D)) :=
  loop version vars 0 [] (lines s)

/-- `Events::from_str` (src/osu_file/events/mod.rs:36-38). -/
def Events.parse [UniLib] (version : Nat) (s : Str) : Res (LErr EvErr) (List (Event D)) :=
  Events.parseVars version [] s

/-- `Event::to_string_variables` (src/osu_file/events/mod.rs:352-365): the outer `none` is a panic. The
commands of backgrounds and videos are printed without variables
(src/osu_file/events/normal_event/mod.rs:95-99, 181-185). -/
def Event.shw (version : Nat) (vars : List Variable) : Event D → Option (Option Str)
  | comment s => some (some (c!"//" ++ s))
  | background e => (withCmds [] e.shwCmd e.commands).map some
  | video e => (e.shwCmd version).bind fun s => (withCmds [] s e.commands).map some
  | break_ e => (e.shw version).map some
  | colourTransformation e => e.shw version
  | spriteLegacy e => (withCmds vars (e.shwCmd c!"4") e.commands).map some
  | animationLegacy e => (withCmds vars (e.shwCmd c!"5") e.commands).map some
  | sampleLegacy e => (withCmds vars e.shwCmd e.commands).map some
  | object e => (withCmds vars e.shwCmd e.commands).map some
  | audioSample e => some (some e.shw)

/-- `Events::to_string_variables` (src/osu_file/events/mod.rs:307-314), with `map_string_new_line`
(src/helper/trait_ext.rs:1-8): `none` is a panic. -/
def Events.shwVars (version : Nat) (vars : List Variable) (evs : List (Event D)) : Option Str :=
  (evs.mapM (Event.shw version vars)).map fun l => join ['\n'] (l.filterMap id)

/-- `Events::to_string` (src/osu_file/events/mod.rs:317-321). -/
def Events.shw (version : Nat) (evs : List (Event D)) : Option Str := Events.shwVars version [] evs

end

end Ev
end Osu
