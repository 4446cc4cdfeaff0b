/-
Specification of how many lines the text of a saved file has.
-/
import Verif.Spec.Counts
import Verif.Spec.Events

namespace Osu
open SB Ev

/-- The number of lines of a text that are not blank. -/
def lineCount (s : Str) : Nat := (contentLines (lines s)).length

section
variable {D : Type} [DecLib D]

open Classical in
/-- The number of fields that hold something and are written in the version. -/
noncomputable def savedFields (v : Nat) (view : FView D) : Nat := (view.filter fun p => p.2.isSome && decide (p.1.written v)).length

/-- The number of fields, events, commands, timing points, colours and hit objects of a file that its version writes. -/
noncomputable def savedEntries (f : OsuFile D) : Nat :=
  (f.general.map fun g => savedFields f.version (generalView g)).getD 0 + (f.editor.map fun g => savedFields f.version (editorView g)).getD 0 +
    (f.metadata.map fun g => savedFields f.version (metadataView D g)).getD 0 +
    (f.difficulty.map fun g => savedFields f.version (difficultyView g)).getD 0 +
    (f.events.map fun es => eventEntries (es.filter (writtenIn f.version))).getD 0 + (f.timingPoints.map List.length).getD 0 +
    (f.colours.map List.length).getD 0 + (f.hitobjects.map List.length).getD 0

omit [DecLib D] in
/-- The number of sections of a file. -/
def sectionCount (f : OsuFile D) : Nat :=
  f.general.isSome.toNat + f.editor.isSome.toNat + f.metadata.isSome.toNat + f.difficulty.isSome.toNat + f.events.isSome.toNat +
    f.timingPoints.isSome.toNat + f.colours.isSome.toNat + f.hitobjects.isSome.toNat

end
end Osu
