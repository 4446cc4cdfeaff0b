/-
Specification of the error reported for a line that should start an event.
-/
import Verif.Spec.FaultsCmds
import Verif.Spec.Events

namespace Osu
open SB Ev

/-- The start time of an event. -/
def startTimeColumn : Column NEErr := ⟨.missingStartTime, .invalidStartTime, readable parseI32, false⟩

/-- A file name, and a position if something follows the file name. -/
def filePosColumns (more : List Str) : List (Column NEErr) :=
  freeColumn .missingFileName :: if more = [] then [] else [freeColumn .missingX, freeColumn .missingY]

def backgroundColumns (qs : List Str) : List (Column NEErr) := startTimeColumn :: filePosColumns (qs.drop 2)

def breakColumns : List (Column NEErr) :=
  [startTimeColumn, ⟨.missingEndTime, .invalidEndTime, readable parseI32, true⟩]

def transformColumns : List (Column NEErr) :=
  [startTimeColumn, ⟨.missingRed, .invalidRed, readable parseU8, false⟩,
    ⟨.missingGreen, .invalidGreen, readable parseU8, false⟩, ⟨.missingBlue, .invalidBlue, readable parseU8, true⟩]

def legacyColumns (qs : List Str) : List (Column NEErr) :=
  [⟨.missingLayer, .invalidLayer, readable LayerLegacy.parse, false⟩,
    ⟨.missingOrigin, .invalidOrigin, readable OriginLegacy.parse, false⟩] ++ filePosColumns (qs.drop 3)

def sampleLegacyColumns (qs : List Str) : List (Column NEErr) :=
  [freeColumn .missingTime, ⟨.missingLayer, .invalidLayer, readable LayerLegacy.parse, false⟩,
    freeColumn .missingFileName] ++
    if qs.drop 3 = [] then [] else [⟨.missingVolume, .invalidVolume, readable Volume.parse, true⟩]

/-- A code of a layer of an audio sample. -/
def audioLayerText (s : Str) : Bool :=
  match parseUsize s with
  | .ok n => decide (n.toNat < audioLayers.length)
  | _ => false

def audioColumns (qs : List Str) : List (Column NEErr) :=
  [⟨.missingTime, .invalidTime, readable parseI32, false⟩, ⟨.missingLayer, .invalidLayer, audioLayerText, false⟩,
    freeColumn .missingFileName] ++
    if qs.drop 3 = [] then [] else [⟨.missingVolume, .invalidVolume, readable Volume.parse, false⟩]

def spriteColumns : List (Column ObjErr) :=
  [⟨.missingLayer, .invalidLayer, readable Layer.parse, false⟩,
    ⟨.missingOrigin, .invalidOrigin, readable Origin.parse, false⟩, freeColumn .missingFilePath,
    freeColumn .missingPositionX, freeColumn .missingPositionY]

def animationColumns (D : Type) [DecLib D] : List (Column ObjErr) :=
  spriteColumns ++ [⟨.missingFrameCount, .invalidFrameCount, readable parseU32, false⟩,
    ⟨.missingFrameDelay, .invalidFrameDelay, fun s => (DecLib.parse s : Option D).isSome, false⟩]

/-- The error of a line with the first piece `p` and the further pieces `qs` that should start an event, if it has
one. For sprites, animations and audio samples a first piece that only starts with the name counts as the name
with nothing after it. -/
def evFault (D : Type) [DecLib D] (p : Str) (qs : List Str) : Option EvErr :=
  if p = c!"0" then (firstFault (backgroundColumns qs) qs).map .background
  else if p = c!"1" ∨ p = c!"Video" then (firstFault (backgroundColumns qs) qs).map .video
  else if p = c!"2" ∨ p = c!"Break" then (firstFault breakColumns qs).map .break_
  else if p = c!"3" then (firstFault transformColumns qs).map .colourTransformation
  else if p = c!"4" then (firstFault (legacyColumns qs) qs).map .spriteLegacy
  else if p = c!"5" then (firstFault (legacyColumns qs) qs).map .animationLegacy
  else if p = c!"6" then (firstFault (sampleLegacyColumns qs) qs).map .sampleLegacy
  else if (c!"Sprite").isPrefixOf p then (firstFault spriteColumns (if p = c!"Sprite" then qs else [])).map .object
  else if (c!"Animation").isPrefixOf p then
    (firstFault (animationColumns D) (if p = c!"Animation" then qs else [])).map .object
  else if (c!"Sample").isPrefixOf p then
    (firstFault (audioColumns qs) (if p = c!"Sample" then qs else [])).map .audioSample
  else some .unknownEventType

/-- The indentation named as expected when a command is put too deep after the commands `cs`. -/
def namedLevel {D : Type} (cs : List (Command D)) : Nat :=
  match (SB.listing 1 cs).getLast? with
  | none => 1
  | some (l, c) => if c.Holds then l - 1 else 1

/-- The error of a line after the events `evs`: a line without indentation that starts no event, a command after
an event that has no commands, a faulty command, or a command that is indented too far. -/
inductive LineFault {D : Type} [DecLib D] [UniLib] (evs : List (Event D)) (l : Str) : EvErr → Prop
  | event {p : Str} {qs : List Str} {e : EvErr} (h0 : indentOf l = 0) (hc : (c!"//").isPrefixOf l = false)
      (hl : splitOnC ',' l = p :: qs) (h : evFault D p qs = some e) : LineFault evs l e
  | noOwner (h0 : 1 ≤ indentOf l) (h : ∀ e, evs.getLast? = some e → e.commands = none) :
      LineFault evs l .storyboardCmdWithNoSprite
  | command {e : Event D} {p : Str} {qs : List Str} {x : CmdErr} (h0 : 1 ≤ indentOf l) (he : evs.getLast? = some e)
      (hc : e.commands.isSome) (hl : splitOnC ',' (l.dropWhile fun c => c == ' ' || c == '_') = p :: qs)
      (h : cmdFault p qs = some x) : LineFault evs l (.command x)
  | deep {e : Event D} {cs : List (Command D)} {c : Command D} (he : evs.getLast? = some e)
      (hc : e.commands = some cs) (hr : CmdLineReads l (indentOf l, c)) (h : maxLevel (SB.listing 1 cs) < indentOf l) :
      LineFault evs l (.push ⟨namedLevel cs, indentOf l⟩)

end Osu
