/-
Specification of the texts of errors in key/value sections.
-/
import Verif.Proof.KVGrammar
import Verif.Spec.Lines
import Verif.Model.Editor
import Verif.Props.Numbers

namespace Osu
open Parser

/-! ### Numbers -/

/-- What is said of digits whose value may be at most `max`: what follows the leading digits does not matter if these are too
large already. -/
def digitsSay (max : Nat) (over t : Str) : Option Str :=
  if max < decVal (t.takeWhile isDig) then some over
  else if t = [] ∨ t.dropWhile isDig ≠ [] then some c!"invalid digit found in string"
  else none

/-- What is said of a number that may be negative. -/
def signedSays (max : Nat) : Str → Option Str
  | [] => some c!"cannot parse integer from empty string"
  | '+' :: t => digitsSay max c!"number too large to fit in target type" t
  | '-' :: t => digitsSay (max + 1) c!"number too small to fit in target type" t
  | s => digitsSay max c!"number too large to fit in target type" s

/-- What is said of a number that may not. -/
def unsignedSays (max : Nat) : Str → Option Str
  | [] => some c!"cannot parse integer from empty string"
  | '+' :: t => digitsSay max c!"number too large to fit in target type" t
  | s => digitsSay max c!"number too large to fit in target type" s

def i32Says : Str → Option Str := signedSays (2 ^ 31 - 1)
def usizeSays : Str → Option Str := unsignedSays (2 ^ 64 - 1)

/-- The value of a number. -/
def numVal : Str → Int
  | '+' :: t => decVal t
  | '-' :: t => -decVal t
  | s => decVal s

/-! ### Values of fields -/

/-- A number out of which only some values are taken. -/
def choiceSays (bad : Option Str) (ok : Bool) (unknown : Str) : Option Str :=
  match bad with
  | some m => some m
  | none => if ok then none else some unknown

def zeroOneSays (s : Str) : Option Str :=
  choiceSays (i32Says s) (numVal s = 0 ∨ numVal s = 1) c!"Error parsing value as `true` or `false`, expected value of 0 or 1"

/-- A list of numbers separated by commas, or nothing. -/
def marksSay (s : Str) : Option Str :=
  if s = [] then none
  else (splitOnC ',' s).findSome? fun p =>
    if p = [] then some c!"Invalid comma list, expected format of `key: value, value, value, ...`" else i32Says p

/-- What is said of a value in `General`, if it is refused. -/
def generalSays (v : Nat) (k : GKey) (s : Str) : Option Str :=
  match k with
  | .audioFilename | .audioHash | .skinPreference | .stackLeniency | .editorDistanceSpacing => none
  | .audioLeadIn | .previewTime | .countdownOffset => i32Says s
  | .letterboxInBreaks | .storyFireInFront | .useSkinSprites | .alwaysShowPlayfield | .epilepsyWarning | .specialStyle
  | .widescreenStoryboard | .samplesMatchPlaybackRate => zeroOneSays s
  | .editorBookmarks => marksSay s
  | .countdown =>
    if 3 ≤ v ∧ v ≤ 4 then none
    else choiceSays ((usizeSays s).map fun _ => c!"There was a problem parsing the `str` as an `Integer`") (numVal s ≤ 3)
      c!"Unknown `CountdownSpeed` variant"
  | .mode => choiceSays (usizeSays s) (numVal s ≤ 3) c!"Unknown `GameMode` variant"
  | .sampleSet =>
    if v = 3 ∨ s ∈ [c!"Normal", c!"Soft", c!"Drum", c!"None"] then none else some c!"Unknown `SampleSet` variant"
  | .overlayPosition =>
    if 3 ≤ v ∧ v ≤ 13 ∨ s ∈ [c!"NoChange", c!"Below", c!"Above"] then none else some c!"Unknown `OverlayPosition` variant"

/-- What is said of a value in `Editor`, if it is refused. -/
def editorSays (k : EKey) (s : Str) : Option Str :=
  match k with
  | .distanceSpacing | .beatDivisor | .timelineZoom => none
  | .gridSize | .currentTime => i32Says s
  | .bookmarks => marksSay s

/-! ### Sections -/

/-- `KVSays S says dup unk v s n m`: of the text `s` of a section it is said in its line `n` that `m`: a line without a colon
comes first of all; otherwise the first entry counts whose key is repeated (`dup`) or does not exist (`unk`), or of whose
value something is said. -/
inductive KVSays (S : Schema) (says : S.Key → Str → Option Str) (dup unk : Str) (v : Nat) (s : Str) : Nat → Str → Prop
  | colon {es : List (KVLine × Str)} {r : Str} (h : KVSplits s es r) (hr : ¬Blank r) :
      KVSays S says dup unk v s (kvCount es) c!"Invalid colon set, expected format of `key: value`"
  | repeated {pre post : List (KVLine × Str)} {e e' : KVLine × Str} {r : Str} (h : KVSplits s (pre ++ e :: post) r) (hr : Blank r)
      (ha : S.Accepts v pre) (he : e' ∈ pre) (hk : e'.1.key = e.1.key) : KVSays S says dup unk v s (kvCount pre) dup
  | unknown {pre post : List (KVLine × Str)} {e : KVLine × Str} {r : Str} (h : KVSplits s (pre ++ e :: post) r) (hr : Blank r)
      (ha : S.Accepts v pre) (hk : ∀ k, S.name k ≠ e.1.key) : KVSays S says dup unk v s (kvCount pre) unk
  | value {pre post : List (KVLine × Str)} {e : KVLine × Str} {r : Str} {k : S.Key} {m : Str} (h : KVSplits s (pre ++ e :: post) r)
      (hr : Blank r) (ha : S.Accepts v pre) (hn : ∀ e' ∈ pre, e'.1.key ≠ e.1.key) (hk : S.name k = e.1.key)
      (hm : says k e.1.value = some m) : KVSays S says dup unk v s (kvCount pre) m

/-! ### Variables of storyboard files -/

/-- What is said of a line that should define a variable, if it is refused. -/
def variableSays (l : Str) : Option Str :=
  if l.head? ≠ some '$' then some c!"Missing the header `$`"
  else if '=' ∈ l.takeWhile (fun c => !(c == '\n')) then none
  else some c!"Missing `=` for assignment"

end Osu
