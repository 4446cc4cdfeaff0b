/-
Specification of the error reported for a storyboard command line that is refused.
-/
import Verif.Spec.Faults
import Verif.Spec.Cmds

namespace Osu
open SB

/-- A piece that may be left empty. -/
def orEmpty (f : Str → Bool) (p : Str) : Bool := p.isEmpty || f p

/-- A piece that may be blank. -/
def orBlank (f : Str → Bool) (p : Str) : Bool := p.all isWs || f p

/-- A column that takes anything. -/
def freeColumn {E : Type} (missing : E) : Column E := ⟨missing, missing, anyText, false⟩

/-- Easing, start time and end time. The times are both left out if both are empty and another piece follows. -/
def timeColumns : List Str → List (Column CmdErr)
  | _ :: [] :: [] :: _ :: _ => [⟨.missingEasing, .invalidEasing, readable parseI32, false⟩,
      freeColumn .missingStartTime, freeColumn .missingEndTime]
  | _ => [⟨.missingEasing, .invalidEasing, readable parseI32, false⟩,
      ⟨.missingStartTime, .invalidStartTime, readable parseI32, false⟩,
      ⟨.missingEndTime, .invalidEndTime, orBlank (readable parseI32), false⟩]

/-- One column for each of the remaining pieces. -/
def restColumns {E : Type} (invalid : E) (ok : Str → Bool) (qs : List Str) : List (Column E) :=
  qs.map fun _ => ⟨invalid, invalid, ok, false⟩

/-- The start time of a loop or trigger: it can be left out if another piece follows. -/
def startColumn : List Str → Column CmdErr
  | _ :: _ :: _ => ⟨.missingStartTime, .invalidStartTime, orEmpty (readable parseI32), false⟩
  | _ => ⟨.missingStartTime, .invalidStartTime, readable parseI32, false⟩

/-- The columns of a trigger; only the type has to be there. -/
def triggerColumns [UniLib] (qs : List Str) : List (Column CmdErr) :=
  ⟨.missingTriggerType, .invalidTriggerType, readable TriggerType.parse, false⟩ ::
    [startColumn qs.tail, ⟨.missingEndTime, .invalidEndTime, orEmpty (readable parseI32), false⟩,
      ⟨.invalidGroupNumber, .invalidGroupNumber, readable parseI32, true⟩].take (qs.length - 1)

/-- The commands with their columns, for a line with the pieces `qs` after the first. -/
def cmdTable [UniLib] (qs : List Str) : List (Str × List (Column CmdErr)) :=
  [(c!"R", timeColumns qs ++ [freeColumn .missingStartRotation]),
   (c!"S", timeColumns qs ++ [freeColumn .missingStartScale]),
   (c!"V", timeColumns qs ++ [freeColumn .missingScaleX, freeColumn .missingScaleY]),
   (c!"F", timeColumns qs ++ [freeColumn .missingStartOpacity]),
   (c!"P", timeColumns qs ++ [⟨.missingParameterType, .invalidParameterType, readable Parameter.parse, false⟩] ++
      restColumns .invalidContinuingParameters (readable Parameter.parse) (qs.drop 4)),
   (c!"MY", timeColumns qs ++ [freeColumn .missingMoveY]),
   (c!"C", timeColumns qs ++ [⟨.missingRed, .invalidRed, readable parseU8, false⟩,
      ⟨.missingGreen, .invalidGreen, readable parseU8, false⟩, ⟨.missingBlue, .invalidBlue, readable parseU8, false⟩] ++
      restColumns .invalidContinuingColours (readable parseU8) (qs.drop 6)),
   (c!"MX", timeColumns qs ++ [freeColumn .missingMoveX]),
   (c!"T", triggerColumns qs),
   (c!"L", [startColumn qs, ⟨.missingLoopCount, .invalidLoopCount, readable parseU32, true⟩])]

/-- The error of a command line with the first piece `p` and the further pieces `qs`, if it has one. A first piece
that only starts with the name of a command counts as the name with nothing after it. -/
def cmdFault [UniLib] (p : Str) (qs : List Str) : Option CmdErr :=
  if p = c!"M" ∧ qs ≠ [] then
    firstFault (timeColumns qs ++ [freeColumn .missingMoveX, freeColumn .missingMoveY]) qs
  else
    match (cmdTable qs).find? fun e => e.1.isPrefixOf p with
    | some (k, cs) => firstFault cs (if p = k then qs else [])
    | none => some .unknownCommandType

end Osu
