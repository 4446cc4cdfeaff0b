/-
Specification of the text of a file made of sections.
-/
import Verif.Spec.File
import Verif.Proof.Lines

namespace Osu
open Parser Ev

/-- The content of a section as it is written: one or more lines that are not blank and do not end in a carriage return,
the first one not indented, the others not beginning with `[`. -/
def WellText (t : Str) : Prop :=
  ∃ ls, t = join ['\n'] ls ∧ ls ≠ [] ∧ (∀ l ∈ ls, LineOK l) ∧ (∀ l, ls.head? = some l → HeadNot isMultispace l) ∧
    ∀ l ∈ ls.tail, l.head? ≠ some '['

/-- The name of a section in brackets, and its content. -/
def blockText (b : Str × Str) : Str := ['['] ++ b.1 ++ c!"]\n" ++ b.2

/-- A file: header and sections, with an empty line after each. -/
def fileText (num : Str) (bs : List (Str × Str)) : Str :=
  c!"osu file format v" ++ num ++ c!"\n\n" ++ join ['\n', '\n'] (bs.map blockText)

/-- The sections in the order in which a file lists them. -/
def SName.all : List SName :=
  [.general, .editor, .metadata, .difficulty, .events, .timingPoints, .colours, .hitobjects]

/-- Line breaks and blanks after a line. -/
def Tail (w : Str) : Prop := ∃ w', w = '\n' :: w' ∧ AllC isMultispace w

/-- Two section contents that differ only in line breaks and blanks after the last line. -/
inductive SameBody : Str → Str → Prop
  | refl (b : Str) : SameBody b b
  | more {b w : Str} (hw : Tail w) (hb : b.getLast? ≠ some '\r') (hn : b ≠ []) : SameBody b (b ++ w)
  | less {b w : Str} (hw : Tail w) (hb : b.getLast? ≠ some '\r') (hn : b ≠ []) : SameBody (b ++ w) b
  | trans {a b c : Str} (h : SameBody a b) (h' : SameBody b c) : SameBody a c

/-- The same sections, in the same order. -/
inductive SameSects : List Sect → List Sect → Prop
  | nil : SameSects [] []
  | cons {x y : Sect} {xs ys : List Sect} (hn : x.name = y.name) (hb : SameBody x.body y.body) (h : SameSects xs ys) :
      SameSects (x :: xs) (y :: ys)

section
variable {D : Type} [DecLib D] [UniLib]

/-- What is written for a section of a file value: nothing, or a text. -/
def SectPrints (f : OsuFile D) (t : Option Str) : SName → Prop
  | .general => t = f.general.map ((General D).toStr f.version)
  | .editor => t = f.editor.map ((Editor D).toStr f.version)
  | .metadata => t = f.metadata.map (Metadata.toStr f.version)
  | .difficulty => t = f.difficulty.map ((Difficulty D).toStr f.version)
  | .events => (f.events = none ∧ t = none) ∨ ∃ x s, f.events = some x ∧ Events.shw f.version x = some s ∧ t = some s
  | .timingPoints => (f.timingPoints = none ∧ t = none) ∨
      ∃ x s, f.timingPoints = some x ∧ TimingPoints.shw f.version x = some s ∧ t = some s
  | .colours => t = f.colours.bind (Colours.shw f.version)
  | .hitobjects => (f.hitobjects = none ∧ t = none) ∨
      ∃ x s, f.hitobjects = some x ∧ HitObjects.shw f.version x = some s ∧ t = some s

/-- The sections that are written, in order, with their texts. -/
def listed (p : SName → Option Str) : List (Str × Str) := SName.all.filterMap fun n => (p n).map fun t => (n.text, t)

end

end Osu
