/-
Specification of parts of values: what is left when the end of a text is missing.
-/
import Verif.Spec.File
import Verif.Spec.Events
import Verif.Spec.Osb

namespace Osu
open SB Ev Parser

/-- The first value, if there is one, is a part of the second. -/
def OptPart {α : Type} (R : α → α → Prop) (x y : Option α) : Prop := ∀ a, x = some a → ∃ b, y = some b ∧ R a b

/-- The fields that are set in `g` are set alike in `f`. -/
def FieldsPart {S : Schema} (g f : S.Section) : Prop := ∀ k x, g k = some x → f k = some x

section
variable {D : Type}

/-- Events line by line: each event without its commands, followed by its commands in depth first order with their depth. -/
def evRows (es : List (Event D)) : List (Event D ⊕ Nat × Command D) :=
  es.flatMap fun e => .inl (e.setCommands []) :: (listing 1 (e.commands.getD [])).map .inr

/-- The first events, the last of them perhaps with its first commands only. -/
def EventsPart (g f : List (Event D)) : Prop := evRows g <+: evRows f

variable [DecLib D]

/-- What one section of `g` holds is a part of what it holds in `f`: some fields, or a first part of the list. -/
def SectPart (g f : OsuFile D) : SName → Prop
  | .general => OptPart FieldsPart g.general f.general
  | .editor => OptPart FieldsPart g.editor f.editor
  | .metadata => OptPart FieldsPart g.metadata f.metadata
  | .difficulty => OptPart FieldsPart g.difficulty f.difficulty
  | .events => OptPart EventsPart g.events f.events
  | .timingPoints => OptPart (· <+: ·) g.timingPoints f.timingPoints
  | .colours => OptPart (· <+: ·) g.colours f.colours
  | .hitobjects => OptPart (· <+: ·) g.hitobjects f.hitobjects

/-- One section is the same in both. -/
def SectWhole (g f : OsuFile D) : SName → Prop
  | .general => g.general = f.general
  | .editor => g.editor = f.editor
  | .metadata => g.metadata = f.metadata
  | .difficulty => g.difficulty = f.difficulty
  | .events => g.events = f.events
  | .timingPoints => g.timingPoints = f.timingPoints
  | .colours => g.colours = f.colours
  | .hitobjects => g.hitobjects = f.hitobjects

/-- The header of a section. -/
def sectHeader (name : Str) : Str := '[' :: (name ++ [']'])

/-- `g` is what is left of `f` if the lines of `b` are missing: the version is kept; of at most one section there is a part, the others
are whole or missing, and a section of `f` is missing only if its header stands in a line of `b`. -/
def CutFile (b : Str) (g f : OsuFile D) : Prop :=
  g.version = f.version ∧ g.osb = none ∧
    (∃ n, SectPart g f n ∧ ∀ m, m ≠ n → SectWhole g f m ∨ SectAbsent g m) ∧
    ∀ n, SectAbsent g n → ¬SectAbsent f n → ∃ l ∈ lines b, sectHeader n.text <:+: l

/-- What is left of a storyboard: a part of one list, and the other one whole or missing; a list is missing only if its header stands in a
line of `b`. -/
def CutOsb (b : Str) (g o : Osb D) : Prop :=
  OptPart (· <+: ·) g.variables o.variables ∧ OptPart EventsPart g.events o.events ∧
    (g.variables = o.variables ∨ g.variables = none ∨ g.events = o.events ∨ g.events = none) ∧
    (g.variables = none → o.variables ≠ none → ∃ l ∈ lines b, sectHeader c!"Variables" <:+: l) ∧
    (g.events = none → o.events ≠ none → ∃ l ∈ lines b, sectHeader c!"Events" <:+: l)

end

/-- The last line that is not blank ends with the header of a section and blanks. -/
def EndsInHeader (s : Str) : Prop :=
  ∃ (n : SName) (p : List Str) (d w : Str) (q : List Str), lines s = p ++ (d ++ sectHeader n.text ++ w) :: q ∧ AllC isMultispace w ∧
    ∀ l ∈ q, AllC isMultispace l

end Osu
