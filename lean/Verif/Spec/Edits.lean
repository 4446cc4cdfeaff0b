/-
Specification: file values and texts that differ in one section.
-/
import Verif.Spec.FileText

namespace Osu
open Parser Ev

section
variable {D : Type} [DecLib D]

/-- The two file values have the same value for this section. -/
def SectSame (f g : OsuFile D) : SName → Prop
  | .general => f.general = g.general
  | .editor => f.editor = g.editor
  | .metadata => f.metadata = g.metadata
  | .difficulty => f.difficulty = g.difficulty
  | .events => f.events = g.events
  | .timingPoints => f.timingPoints = g.timingPoints
  | .colours => f.colours = g.colours
  | .hitobjects => f.hitobjects = g.hitobjects

/-- The two file values differ at most in one section (and the storyboard). -/
def SameBut (n : SName) (f g : OsuFile D) : Prop := g.version = f.version ∧ ∀ m, m ≠ n → SectSame f g m

end

/-- The block of a section in a file: none, if there is no text. -/
def blockOf (n : SName) (t : Option Str) : List (Str × Str) := (t.map fun t => (n.text, t)).toList

/-- The text is a file whose last section has this name, with nothing but that section after its header. -/
def LastSection (s name : Str) : Prop :=
  ∃ ws num r pre xs x, Versioned s ws num r ∧ Layout r pre (xs ++ [x]) [] ∧ x.name = name

end Osu
