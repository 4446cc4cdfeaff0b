/-
Specification of how many things a value holds, and of the rows of a text.
-/
import Verif.Spec.Fields
import Verif.Spec.File
import Verif.Spec.Osb
import Verif.Spec.Lines

namespace Osu
open SB Ev

/-- A line feed or a carriage return. -/
def isBreak (c : Char) : Bool := c == '\n' || c == '\r'

/-- The pieces of a text between its line feeds and carriage returns. -/
def pieces : Str → List Str
  | [] => [[]]
  | c :: s =>
    if isBreak c then [] :: pieces s
    else
      match pieces s with
      | [] => [[c]]
      | p :: ps => (c :: p) :: ps

/-- The rows of a text: the pieces between line breaks that are not blank. -/
def rowCount (s : Str) : Nat := (contentLines (pieces s)).length

/-- Every carriage return of the text stands before a line feed. -/
def PlainBreaks (s : Str) : Prop := ∀ a b, s = a ++ '\r' :: b → ∃ b', b = '\n' :: b'

section
variable {D : Type} [DecLib D]

/-- The number of fields that hold something. -/
def filled (view : FView D) : Nat := (view.filter fun p => p.2.isSome).length

omit [DecLib D] in
/-- The number of events and of the commands in them, at any depth. -/
def eventEntries (es : List (Event D)) : Nat := (es.map fun e => 1 + (listing 1 (e.commands.getD [])).length).sum

/-- The number of fields, events, commands, timing points, colours and hit objects of a file. -/
def fileEntries (f : OsuFile D) : Nat :=
  (f.general.map fun g => filled (generalView g)).getD 0 + (f.editor.map fun g => filled (editorView g)).getD 0 +
    (f.metadata.map fun g => filled (metadataView D g)).getD 0 + (f.difficulty.map fun g => filled (difficultyView g)).getD 0 +
    (f.events.map eventEntries).getD 0 + (f.timingPoints.map List.length).getD 0 + (f.colours.map List.length).getD 0 +
    (f.hitobjects.map List.length).getD 0

omit [DecLib D] in
/-- The number of variables, events and commands of a storyboard. -/
def osbEntries (o : Osb D) : Nat := (o.variables.map List.length).getD 0 + (o.events.map eventEntries).getD 0

omit [DecLib D] in
/-- There is a command at depth `n` (1: directly in an event). -/
def HasDepth (es : List (Event D)) (n : Nat) : Prop := ∃ e ∈ es, ∃ x ∈ listing 1 (e.commands.getD []), x.1 = n

end
end Osu
