/-
`src/osu_file/events/storyboard/cmds/mod.rs`: storyboard commands.
-/
import Verif.Model.StoryTypes
import Verif.Basic.Nom

namespace Osu

/-- `Variable` (src/osu_file/osb/types.rs:11-15). -/
structure Variable where
  name : Str
  value : Str
  deriving DecidableEq, Repr

namespace SB

/-- `CommandProperties` (src/osu_file/events/storyboard/cmds/mod.rs:285-349); `C` is the type of nested
commands. -/
inductive CmdProps (D C : Type) where
  | fade (easing : Easing) (endTime : Option Int32) (start : Decimal D) (continuing : List (Decimal D))
  | move (easing : Easing) (endTime : Option Int32) (positions : ContinuingFields (Decimal D))
  | moveX (easing : Easing) (endTime : Option Int32) (start : Decimal D) (continuing : List (Decimal D))
  | moveY (easing : Easing) (endTime : Option Int32) (start : Decimal D) (continuing : List (Decimal D))
  | scale (easing : Easing) (endTime : Option Int32) (start : Decimal D) (continuing : List (Decimal D))
  | vectorScale (easing : Easing) (endTime : Option Int32) (scales : ContinuingFields (Decimal D))
  | rotate (easing : Easing) (endTime : Option Int32) (start : Decimal D) (continuing : List (Decimal D))
  | colour (easing : Easing) (endTime : Option Int32) (colours : Colours)
  | parameter (easing : Easing) (endTime : Option Int32) (parameter : Parameter) (continuing : List Parameter)
  | loop (count : UInt32) (commands : List C)
  | trigger (type : TriggerType) (endTime : Option Int32) (group : Option Int32) (commands : List C)

/-- `Command` (src/osu_file/events/storyboard/cmds/mod.rs:24-28). -/
inductive Command (D : Type) where
  | mk (startTime : Option Int32) (properties : CmdProps D (Command D))

namespace CmdProps
variable {D C : Type}

/-- The nested commands of a loop or trigger, as matched by
`CommandProperties::Loop { commands, .. } | CommandProperties::Trigger { commands, .. }`. -/
def children : CmdProps D C → Option (List C)
  | loop _ cs => some cs
  | trigger _ _ _ cs => some cs
  | _ => none

/-- Assignment through the `&mut commands` of that match. -/
def setChildren : CmdProps D C → List C → CmdProps D C
  | loop n _, cs => loop n cs
  | trigger t e g _, cs => trigger t e g cs
  | p, _ => p

end CmdProps

namespace Command
variable {D : Type}

def startTime : Command D → Option Int32
  | mk t _ => t

def props : Command D → CmdProps D (Command D)
  | mk _ p => p

end Command

/-- `ParseCommandError` (src/osu_file/events/storyboard/error.rs). -/
inductive CmdErr where
  | unknownCommandType | missingStartTime | invalidStartTime | missingLoopCount | invalidLoopCount
  | missingTriggerType | invalidTriggerType | invalidGroupNumber | missingEndTime | invalidEndTime
  | missingEasing | invalidEasing | missingRed | missingGreen | missingBlue | invalidRed | invalidGreen
  | invalidBlue | invalidContinuingColours | missingParameterType | invalidParameterType
  | invalidContinuingParameters | missingMoveX | invalidMoveX | missingMoveY | invalidMoveY
  | invalidContinuingMove | missingScaleX | invalidScaleX | missingScaleY | invalidScaleY
  | invalidContinuingScales | missingStartOpacity | invalidStartOpacity | invalidContinuingOpacities
  | missingStartScale | invalidStartScale | missingStartRotation | invalidStartRotation
  | invalidContinuingRotation
  deriving DecidableEq, Repr

namespace Command
variable {D : Type} [DecLib D]

/-- `continuing_to_string` and `continuing_versioned_to_string`
(src/osu_file/events/storyboard/cmds/mod.rs:30-64). -/
def continuingToStr {α : Type} (f : α → Str) (l : List α) : Str :=
  if l.isEmpty then [] else ',' :: join [','] (l.map f)

/-- `end_time_to_string` and `start_time` (src/osu_file/events/storyboard/cmds/mod.rs:74-75, 87). -/
def timeToStr (t : Option Int32) : Str := TriggerType.optStr i32ToStr t

/-- The text of the command after its header, before variables are replaced
(src/osu_file/events/storyboard/cmds/mod.rs:89-279). -/
def body : Command D → Str
  | mk st (.fade e et x xs) | mk st (.moveX e et x xs) | mk st (.moveY e et x xs) | mk st (.scale e et x xs)
  | mk st (.rotate e et x xs) =>
    e.shw ++ [','] ++ timeToStr st ++ [','] ++ timeToStr et ++ [','] ++ x.toStr ++ continuingToStr Decimal.toStr xs
  | mk st (.move e et c) | mk st (.vectorScale e et c) =>
    e.shw ++ [','] ++ timeToStr st ++ [','] ++ timeToStr et ++ [','] ++ c.shw Decimal.toStr
  | mk st (.colour e et c) => e.shw ++ [','] ++ timeToStr st ++ [','] ++ timeToStr et ++ [','] ++ c.shw
  | mk st (.parameter e et p ps) =>
    e.shw ++ [','] ++ timeToStr st ++ [','] ++ timeToStr et ++ [','] ++ p.shw ++ continuingToStr Parameter.shw ps
  | mk st (.loop n _) => timeToStr st ++ [','] ++ u32ToStr n
  | mk st (.trigger t et g _) =>
    t.shw ++ (if st.isSome || et.isSome || g.isSome then [','] else []) ++
    (match st with
      | some x => if et.isSome || g.isSome then i32ToStr x ++ [','] else i32ToStr x
      | none => if et.isSome || g.isSome then [','] else []) ++
    (match et with
      | some x => if g.isSome then i32ToStr x ++ [','] else i32ToStr x
      | none => if g.isSome then [','] else []) ++
    timeToStr g

omit [DecLib D] in
/-- The header of the command (the first argument of `variable_replace`,
src/osu_file/events/storyboard/cmds/mod.rs:103-277). -/
def header : Command D → Str
  | mk _ (.fade ..) => c!"F"
  | mk _ (.move ..) => c!"M"
  | mk _ (.moveX ..) => c!"MX"
  | mk _ (.moveY ..) => c!"MY"
  | mk _ (.scale ..) => c!"S"
  | mk _ (.vectorScale ..) => c!"V"
  | mk _ (.rotate ..) => c!"R"
  | mk _ (.colour ..) => c!"C"
  | mk _ (.parameter ..) => c!"P"
  | mk _ (.loop ..) => c!"L"
  | mk _ (.trigger ..) => c!"T"

/-- The loop of `variable_replace` (src/osu_file/events/storyboard/cmds/mod.rs:79-83). -/
def variableReplace (cmd : Str) : List Variable → Str
  | [] => cmd
  | v :: vs => variableReplace (if contains v.value cmd then replace v.value ('$' :: v.name) cmd else cmd) vs

/-- `Command::to_string_variables` (src/osu_file/events/storyboard/cmds/mod.rs:73-282), always `Some`.
Nested commands are not part of it. -/
def toStrVars (vars : List Variable) (c : Command D) : Str :=
  c.header ++ [','] ++ variableReplace c.body vars

/-- `Command::to_string` (src/osu_file/events/storyboard/cmds/mod.rs:66-70). -/
def shw (c : Command D) : Str := c.toStrVars []

section
open Parser

/-- `indentation` (src/osu_file/events/storyboard/cmds/mod.rs:355). -/
def isIndent (c : Char) : Bool := c == ' ' || c == '_'

/-- `start_time` (src/osu_file/events/storyboard/cmds/mod.rs:356-364). -/
def startTimeP : Parser CmdErr (Option Int32) :=
  preceded (context .missingStartTime comma) (context .invalidStartTime ((commaFieldType parseI32).map some))

/-- `end_time` (src/osu_file/events/storyboard/cmds/mod.rs:365-376). -/
def endTimeP : Parser CmdErr (Option Int32) :=
  preceded (context .missingEndTime (cut comma))
    (alt [(verify commaField fun s => (trim s).isEmpty).map fun _ => none,
      cut ((context .invalidEndTime (commaFieldType parseI32)).map some)])

/-- `easing` (src/osu_file/events/storyboard/cmds/mod.rs:377-387). -/
def easingP : Parser CmdErr Easing :=
  cut (preceded (context .missingEasing comma)
    (context .invalidEasing (mapOpt (commaFieldType parseI32) fun n => some (Easing.ofInt n))))

/-- `easing_start_end_time` (src/osu_file/events/storyboard/cmds/mod.rs:392-400). -/
def timesP : Parser CmdErr (Easing × Option Int32 × Option Int32) :=
  pair easingP (alt [(pair (tag c!",,") (peek comma)).map fun _ => (none, none), pair startTimeP endTimeP])

/-- `continuing` of the two field commands (src/osu_file/events/storyboard/cmds/mod.rs:408-412, 627-631). -/
def twoContinuingP : Parser CmdErr (List (Decimal D × Option (Decimal D))) :=
  many0 (preceded comma (pair (commaFieldType Decimal.parse)
    (alt [eof.map fun _ => none, cut ((preceded comma (commaFieldType Decimal.parse)).map some)])))

/-- What follows the header in the two field commands (src/osu_file/events/storyboard/cmds/mod.rs:416-427,
635-649). -/
def twoBodyP (missing1 invalid1 missing2 invalid2 invalidCont : CmdErr) :
    Parser CmdErr ((Easing × Option Int32 × Option Int32) × ContinuingFields (Decimal D)) :=
  cut (timesP.bind fun t =>
    (preceded (context missing1 comma) (context invalid1 (commaFieldType Decimal.parse))).bind fun x =>
    (preceded (context missing2 comma) (context invalid2 (commaFieldType Decimal.parse))).bind fun y =>
    (terminated twoContinuingP (context invalidCont eof)).bind fun c =>
    ret (t, ⟨(x, y), c⟩))

/-- `continuing_decimal_two_fields` (src/osu_file/events/storyboard/cmds/mod.rs:401-429). -/
def twoFieldsP (header : Str) (missing1 invalid1 missing2 invalid2 invalidCont : CmdErr) :
    Parser CmdErr ((Easing × Option Int32 × Option Int32) × ContinuingFields (Decimal D)) :=
  preceded (tag header) (twoBodyP missing1 invalid1 missing2 invalid2 invalidCont)

/-- `continuing_decimal_fields` (src/osu_file/events/storyboard/cmds/mod.rs:430-445). -/
def oneFieldP (header : Str) (missing invalid invalidCont : CmdErr) :
    Parser CmdErr ((Easing × Option Int32 × Option Int32) × Decimal D × List (Decimal D)) :=
  preceded (tag header) (cut (timesP.bind fun t =>
    (preceded (context missing comma) (context invalid (commaFieldType Decimal.parse))).bind fun x =>
    (terminated (many0 (preceded comma (commaFieldType Decimal.parse))) (context invalidCont eof)).bind fun xs =>
    ret (t, x, xs)))

/-- `loop_` (src/osu_file/events/storyboard/cmds/mod.rs:447-466). -/
def loopP : Parser CmdErr (Command D) :=
  (preceded (tag c!"L") (cut (pair
    (alt [(pair comma (peek comma)).map fun _ => none, startTimeP])
    (preceded (context .missingLoopCount comma) (context .invalidLoopCount (mapRes rest parseU32)))))).map
  fun (st, n) => mk st (.loop n [])

/-- The end time and group number of a trigger (src/osu_file/events/storyboard/cmds/mod.rs:468-498, 517-527). -/
def triggerTailP : Parser CmdErr (Option Int32 × Option Int32) :=
  alt [
    (pair (preceded comma (commaFieldType parseI32))
      (preceded comma (context .invalidGroupNumber (cut (restType parseI32))))).map fun (e, g) => (some e, some g),
    (preceded (pair comma comma) (context .invalidGroupNumber (cut (restType parseI32)))).map fun g => (none, some g),
    alt [(verify rest fun s => (trim s).isEmpty).map fun _ => (none, none),
      (verify rest fun s => s == c!",").map fun _ => (none, none)],
    (preceded comma (context .invalidEndTime (cut (restType parseI32)))).map fun e => (some e, none)]

/-- `trigger` (src/osu_file/events/storyboard/cmds/mod.rs:467-541). -/
def triggerP [UniLib] : Parser CmdErr (Command D) :=
  (preceded (pair (tag c!"T") (context .missingTriggerType (cut comma)))
    (cut ((context .invalidTriggerType (mapRes commaField TriggerType.parse)).bind fun t =>
      (alt [(pair comma (peek comma)).map fun _ => none,
        (verify rest fun s => (trim s).isEmpty).map fun _ => none, startTimeP]).bind fun st =>
      triggerTailP.bind fun (et, g) => ret (t, st, et, g)))).map
  fun (t, st, et, g) => mk st (.trigger t et g [])

/-- `continuing_colour` (src/osu_file/events/storyboard/cmds/mod.rs:543-548). -/
def contColourP : Parser CmdErr (Option UInt8) :=
  alt [eof.map fun _ => none, (preceded comma (commaFieldType parseU8)).map some]

/-- `continuing_colours` (src/osu_file/events/storyboard/cmds/mod.rs:549-552). -/
def contColoursP : Parser CmdErr (List (UInt8 × Option UInt8 × Option UInt8)) :=
  many0 (preceded comma ((commaFieldType parseU8).bind fun r =>
    contColourP.bind fun g => contColourP.bind fun b => ret (r, g, b)))

/-- `colour` (src/osu_file/events/storyboard/cmds/mod.rs:542-591). -/
def colourP : Parser CmdErr (Command D) :=
  (preceded (tag c!"C") (cut (timesP.bind fun t =>
    (preceded (context .missingRed comma) (context .invalidRed (commaFieldType parseU8))).bind fun r =>
    (preceded (context .missingGreen comma) (context .invalidGreen (commaFieldType parseU8))).bind fun g =>
    (preceded (context .missingBlue comma) (context .invalidBlue (commaFieldType parseU8))).bind fun b =>
    (terminated contColoursP (context .invalidContinuingColours eof)).bind fun c =>
    ret (t, (⟨(r, g, b), c⟩ : Colours))))).map
  fun (t, c) => mk t.2.1 (.colour t.1 t.2.2 c)

/-- `parameter` (src/osu_file/events/storyboard/cmds/mod.rs:592-624). -/
def parameterP : Parser CmdErr (Command D) :=
  (preceded (tag c!"P") (cut (timesP.bind fun t =>
    (preceded (context .missingParameterType comma)
      (context .invalidParameterType (commaFieldType Parameter.parse))).bind fun p =>
    (terminated (many0 (preceded comma (commaFieldType Parameter.parse)))
      (context .invalidContinuingParameters eof)).bind fun ps =>
    ret (t, p, ps)))).map
  fun (t, p, ps) => mk t.2.1 (.parameter t.1 t.2.2 p ps)

/-- `move_` (src/osu_file/events/storyboard/cmds/mod.rs:625-665). -/
def moveP : Parser CmdErr (Command D) :=
  (preceded (pair (tag c!"M") (peek comma))
    (twoBodyP .missingMoveX .invalidMoveX .missingMoveY .invalidMoveY .invalidContinuingMove)).map
  fun (t, c) => mk t.2.1 (.move t.1 t.2.2 c)

/-- `vector_scale` (src/osu_file/events/storyboard/cmds/mod.rs:666-686). -/
def vectorScaleP : Parser CmdErr (Command D) :=
  (twoFieldsP c!"V" .missingScaleX .invalidScaleX .missingScaleY .invalidScaleY .invalidContinuingScales).map
  fun (t, c) => mk t.2.1 (.vectorScale t.1 t.2.2 c)

/-- `fade` (src/osu_file/events/storyboard/cmds/mod.rs:687-703). -/
def fadeP : Parser CmdErr (Command D) :=
  (oneFieldP c!"F" .missingStartOpacity .invalidStartOpacity .invalidContinuingOpacities).map
  fun (t, x, xs) => mk t.2.1 (.fade t.1 t.2.2 x xs)

/-- `move_x` (src/osu_file/events/storyboard/cmds/mod.rs:704-720). -/
def moveXP : Parser CmdErr (Command D) :=
  (oneFieldP c!"MX" .missingMoveX .invalidMoveX .invalidContinuingMove).map
  fun (t, x, xs) => mk t.2.1 (.moveX t.1 t.2.2 x xs)

/-- `move_y` (src/osu_file/events/storyboard/cmds/mod.rs:721-737). -/
def moveYP : Parser CmdErr (Command D) :=
  (oneFieldP c!"MY" .missingMoveY .invalidMoveY .invalidContinuingMove).map
  fun (t, x, xs) => mk t.2.1 (.moveY t.1 t.2.2 x xs)

/-- `scale` (src/osu_file/events/storyboard/cmds/mod.rs:738-754). -/
def scaleP : Parser CmdErr (Command D) :=
  (oneFieldP c!"S" .missingStartScale .invalidStartScale .invalidContinuingScales).map
  fun (t, x, xs) => mk t.2.1 (.scale t.1 t.2.2 x xs)

/-- `rotate` (src/osu_file/events/storyboard/cmds/mod.rs:755-771). -/
def rotateP : Parser CmdErr (Command D) :=
  (oneFieldP c!"R" .missingStartRotation .invalidStartRotation .invalidContinuingRotation).map
  fun (t, x, xs) => mk t.2.1 (.rotate t.1 t.2.2 x xs)

/-- The parser of a command line (src/osu_file/events/storyboard/cmds/mod.rs:773-792). -/
def commandP [UniLib] : Parser CmdErr (Command D) :=
  preceded (Parser.takeWhile isIndent) (alt [moveP, rotateP, scaleP, vectorScaleP, fadeP, parameterP, moveYP, colourP,
    moveXP, triggerP, loopP, context .unknownCommandType fail])

/-- `Command::from_str` (src/osu_file/events/storyboard/cmds/mod.rs:351-796), always `Some`. -/
def parse [UniLib] (s : Str) : Res CmdErr (Command D) := (commandP s).toRes

end

end Command
end SB
end Osu
