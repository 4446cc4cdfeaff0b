/-
Specification of the texts of errors: which column is named.
-/
import Verif.Spec.FaultsEvents
import Verif.Spec.FaultsHits
import Verif.Spec.FaultsColours

namespace Osu
open SB Ev Parser

/-- What is said of a missing and of an unreadable column. -/
def saysMissing (n : Str) : Str := c!"Missing `" ++ n ++ c!"` field"
def saysInvalid (n : Str) : Str := c!"Invalid `" ++ n ++ c!"` value"

/-- A column with a name. -/
def named (n : Str) (ok : Str → Bool) (toEnd : Bool := false) : Column Str := ⟨saysMissing n, saysInvalid n, ok, toEnd⟩

/-- A column with a name whose text is never unreadable. -/
def namedFree (n : Str) : Column Str := ⟨saysMissing n, saysMissing n, anyText, false⟩

/-- The named columns of a timing point. -/
def tpNamed (v n : Nat) : List (Column Str) :=
  [⟨saysInvalid c!"time", saysInvalid c!"time", anyText, false⟩, namedFree c!"beat_length"] ++
  (if v ≤ 3 then [] else
    [named c!"meter" (readable parseI32), named c!"sample_set" (readable TP.SampleSet.parse),
      named c!"sample_index" (readable TP.SampleIndex.parse)]) ++
  (if v ≤ 3 ∨ (v = 4 ∧ n ≤ 5) then [] else [named c!"volume" (readable TP.Volume.parse) (decide (v = 4))]) ++
  (if v ≤ 4 ∨ n ≤ 6 then [] else [named c!"uninherited" (readable parseZeroOneBool)]) ++
  (if v ≤ 4 ∨ n ≤ 6 ∨ (v = 5 ∧ n = 7) then [] else [named c!"effects" (readable TP.Effects.parse) true])

/-- The named columns of a storyboard command: easing and times. -/
def timeNamed (qs : List Str) : List (Column Str) :=
  let times : List (Column Str) := [named c!"easing" (readable parseI32), named c!"start_time" (readable parseI32),
    named c!"end_time" (orBlank (readable parseI32))]
  match qs with
  | _ :: [] :: [] :: _ :: _ => [named c!"easing" (readable parseI32), namedFree c!"start_time", namedFree c!"end_time"]
  | _ => times

/-- The start time of a loop or trigger. -/
def startNamed (qs : List Str) : Column Str :=
  named c!"start_time" (if 2 ≤ qs.length then orEmpty (readable parseI32) else readable parseI32)

/-- The columns of further values have no names of their own. -/
def furtherNamed (what : Str) (ok : Str → Bool) (qs : List Str) : List (Column Str) :=
  qs.map fun _ => ⟨c!"Invalid continuing " ++ what ++ c!" value", c!"Invalid continuing " ++ what ++ c!" value", ok, false⟩

/-- The named columns of the commands. -/
def cmdNamed [UniLib] (qs : List Str) : List (Str × List (Column Str)) :=
  [(c!"R", timeNamed qs ++ [namedFree c!"start_rotation"]),
   (c!"S", timeNamed qs ++ [namedFree c!"start_scale"]),
   (c!"V", timeNamed qs ++ [namedFree c!"scale_x", namedFree c!"scale_y"]),
   (c!"F", timeNamed qs ++ [namedFree c!"start_opacity"]),
   (c!"P", timeNamed qs ++ [named c!"parameter_type" (readable Parameter.parse)] ++
      furtherNamed c!"parameter" (readable Parameter.parse) (qs.drop 4)),
   (c!"MY", timeNamed qs ++ [namedFree c!"move_y"]),
   (c!"C", timeNamed qs ++ [named c!"red" (readable parseU8), named c!"green" (readable parseU8),
      named c!"blue" (readable parseU8)] ++ furtherNamed c!"colour" (readable parseU8) (qs.drop 6)),
   (c!"MX", timeNamed qs ++ [namedFree c!"move_x"]),
   (c!"T", named c!"trigger_type" (readable TriggerType.parse) ::
      [startNamed qs.tail, named c!"end_time" (orEmpty (readable parseI32)),
        ⟨saysInvalid c!"group_number", saysInvalid c!"group_number", readable parseI32, true⟩].take (qs.length - 1)),
   (c!"L", [startNamed qs, named c!"loop_count" (readable parseU32) true])]

/-- What is said of a command line with the first piece `p` and the further pieces `qs`, if it is refused. -/
def cmdSays [UniLib] (p : Str) (qs : List Str) : Option Str :=
  if p = c!"M" ∧ qs ≠ [] then firstFault (timeNamed qs ++ [namedFree c!"move_x", namedFree c!"move_y"]) qs
  else
    match (cmdNamed qs).find? fun e => e.1.isPrefixOf p with
    | some (k, cs) => firstFault cs (if p = k then qs else [])
    | none => some c!"Unknown command type"

/-- A file name, and a position if something follows. -/
def filePosNamed (more : List Str) : List (Column Str) :=
  namedFree c!"file_name" :: if more = [] then [] else [namedFree c!"x", namedFree c!"y"]

/-- The columns of a sprite or animation are named without quotation marks. -/
def spaced (n : Str) (ok : Str → Bool) : Column Str := ⟨c!"Missing " ++ n ++ c!" field", c!"Invalid " ++ n ++ c!" value", ok, false⟩
def spacedFree (n : Str) : Column Str := ⟨c!"Missing " ++ n ++ c!" field", c!"Missing " ++ n ++ c!" field", anyText, false⟩

def spriteNamed : List (Column Str) :=
  [spaced c!"layer" (readable Layer.parse), spaced c!"origin" (readable Origin.parse), spacedFree c!"file path",
    spacedFree c!"position x", spacedFree c!"position y"]

/-- What is said of a line that should start an event, if it is refused. -/
def evSays (D : Type) [DecLib D] (p : Str) (qs : List Str) : Option Str :=
  let start := named c!"start_time" (readable parseI32)
  let legacy := [named c!"layer" (readable LayerLegacy.parse), named c!"origin" (readable OriginLegacy.parse)] ++
    filePosNamed (qs.drop 3)
  if p = c!"0" ∨ p = c!"1" ∨ p = c!"Video" then firstFault (start :: filePosNamed (qs.drop 2)) qs
  else if p = c!"2" ∨ p = c!"Break" then firstFault [start, named c!"end_time" (readable parseI32) true] qs
  else if p = c!"3" then
    firstFault [start, named c!"red" (readable parseU8), named c!"green" (readable parseU8),
      named c!"blue" (readable parseU8) true] qs
  else if p = c!"4" ∨ p = c!"5" then firstFault legacy qs
  else if p = c!"6" then
    firstFault ([namedFree c!"time", named c!"layer" (readable LayerLegacy.parse), namedFree c!"file_name"] ++
      if qs.drop 3 = [] then [] else [named c!"volume" (readable Volume.parse) true]) qs
  else if (c!"Sprite").isPrefixOf p then firstFault spriteNamed (if p = c!"Sprite" then qs else [])
  else if (c!"Animation").isPrefixOf p then
    firstFault (spriteNamed ++ [spaced c!"frame count" (readable parseU32),
      spaced c!"frame delay" fun s => (DecLib.parse s : Option D).isSome]) (if p = c!"Animation" then qs else [])
  else if (c!"Sample").isPrefixOf p then
    firstFault ([named c!"time" (readable parseI32), named c!"layer" audioLayerText, namedFree c!"filepath"] ++
      if qs.drop 3 = [] then [] else [named c!"volume" (readable Volume.parse)]) (if p = c!"Sample" then qs else [])
  else some c!"Unknown event type"

/-- The named columns of a slider: the three faults that are reported as another one come with that one's text. -/
def edgeNamed : List Str → List (Column Str)
  | [] => []
  | [_] => [⟨saysMissing c!"edge_sound", saysMissing c!"edge_set", orSpaces (barList HO.HitSound.parse), false⟩]
  | [_, _] => [⟨saysMissing c!"edge_sound", saysMissing c!"edge_set", barList HO.HitSound.parse, false⟩,
      ⟨saysMissing c!"edge_set", saysMissing c!"hit_sample", orSpaces (barList HO.EdgeSet.parse), false⟩]
  | _ => [⟨saysMissing c!"edge_sound", saysMissing c!"edge_set", barList HO.HitSound.parse, false⟩,
      ⟨saysMissing c!"edge_set", saysMissing c!"hit_sample", barList HO.EdgeSet.parse, false⟩,
      named c!"hit_sample" (readable HO.HitSample.parse) true]

def sampleNamed (qs : List Str) : List (Column Str) :=
  if qs = [] then [] else [named c!"hit_sample" (readable HO.HitSample.parse) true]

/-- The named columns after the hit sound. -/
def kindNamed (D : Type) [DecLib D] (qs : List Str) : HOKind → List (Column Str)
  | .circle => sampleNamed qs
  | .slider => [⟨saysMissing c!"curve_type",
        if curveName (qs.headD []) then saysMissing c!"slides_count" else saysInvalid c!"curve_type",
        fun p => curveName p && curvePoints D p, false⟩,
      named c!"slides_count" (readable parseI32), namedFree c!"length"] ++ edgeNamed (qs.drop 3)
  | .spinner => namedFree c!"end_time" :: sampleNamed (qs.drop 1)
  | .hold => [⟨saysMissing c!"end_time",
      saysInvalid (if lacks ':' (join [','] qs) then c!"end_time" else c!"hit_sample"),
      fun t => !lacks ':' t && readable HO.HitSample.parse ((t.dropWhile fun c => !(c == ':')).drop 1), true⟩]

/-- What is said of a hit object line with the pieces `ps`, if it is refused. -/
def hoSays (D : Type) [DecLib D] (ps : List Str) : Option Str :=
  match firstFault [namedFree c!"x", namedFree c!"y", namedFree c!"time", named c!"obj_type" (readable parseI32),
      named c!"hit_sound" (readable HO.HitSound.parse)] ps with
  | some m => some m
  | none =>
    match pieceKind ps with
    | some k => firstFault (kindNamed D (ps.drop 5) k) (ps.drop 5)
    | none => some c!"Unknown object type"

/-- What is said of the numbers of a colour. -/
def rgbSays (s : Str) : Option Str :=
  if readable parseU8 (leadDigits s) = false then some c!"Invalid red value"
  else match after ',' (pastDigits s) with
    | none => some c!"Missing green value"
    | some t =>
      if readable parseU8 (leadDigits t) = false then some c!"Invalid green value"
      else match after ',' (pastDigits t) with
        | none => some c!"Missing blue value"
        | some u => if readable parseU8 (skipSp u) then none else some c!"Invalid blue value"

def colonSays (s : Str) : Option Str :=
  match after ':' (skipSp s) with
  | none => some c!"Invalid colon separator"
  | some t => rgbSays t

/-- What is said of a colour line without blanks around it, if it is refused. -/
def colourSays (s : Str) : Option Str :=
  if (c!"Combo").isPrefixOf s then
    if readable parseI32 ((s.drop 5).takeWhile isDig) then colonSays ((s.drop 5).dropWhile isDig)
    else some c!"Invalid additive combo count"
  else if (c!"SliderTrackOverride").isPrefixOf s then colonSays (s.drop 19)
  else if (c!"SliderBorder").isPrefixOf s || (c!"Sliderborder").isPrefixOf s then colonSays (s.drop 12)
  else some c!"Unknown colour type"

end Osu
