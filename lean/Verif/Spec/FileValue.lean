/-
Specification of the file values that can be written.
-/
import Verif.Spec.FileText
import Verif.Props.Sections
import Verif.Props.Lines
import Verif.Props.TimingPoints
import Verif.Props.HitObjects
import Verif.Props.Events

namespace Osu
open Parser Ev

section
variable {D : Type} [DecLib D]

/-- The decimal is not a text that begins with a blank or a line break. -/
def NotIndented : Decimal D → Prop
  | .left _ => True
  | .right s => HeadNot isMultispace s

/-- The decimal is not a text that begins with `[`. -/
def NotBracket : Decimal D → Prop
  | .left _ => True
  | .right s => s.head? ≠ some '['

/-- The lines that begin with these decimals can stand in a file: the first one is not indented, the others do not look
like the header of a section. -/
def StartsOK : List (Decimal D) → Prop
  | [] => True
  | x :: xs => NotIndented x ∧ ∀ y ∈ xs, NotBracket y

/-- No carriage return but before the line feed at the end of a line. -/
def NoBareCR (s : Str) : Prop := ∀ l ∈ lines s, '\r' ∉ l

/-- The blanks at the end of each line are only spaces and tabs. -/
def TrailPlain (s : Str) : Prop := ∀ l ∈ lines s, ∀ a b, l = a ++ b → AllC isWs b → AllC isMultispace b

variable [UniLib]

/-- A file value that is written in full and can be read back. -/
structure FileWritable (f : OsuFile D) : Prop where
  version : 3 ≤ f.version ∧ f.version ≤ 14
  osb : f.osb = none
  general : ∀ x, f.general = some x → (General D).toStr f.version x ≠ [] ∧
    ∀ k y, x k = some y → GKey.OK k y ∧ GKey.existsIn f.version k y = true
  editor : ∀ x, f.editor = some x → (Editor D).toStr f.version x ≠ [] ∧
    ∀ k y, x k = some y → EKey.OK k y ∧ EKey.existsIn f.version k y = true
  metadata : ∀ x, f.metadata = some x → Metadata.toStr f.version x ≠ [] ∧ ∀ k y, x k = some y → MKey.OK k y
  difficulty : ∀ x, f.difficulty = some x → (Difficulty D).toStr f.version x ≠ [] ∧ ∀ k y, x k = some y → DecOK y
  events : ∀ x, f.events = some x → x ≠ [] ∧ ∀ e ∈ x, EvWritable f.version e ∧ ∀ p, pathOf e = some p → PathPlain p
  timingPoints : ∀ x, f.timingPoints = some x → x ≠ [] ∧ (∀ t ∈ x, TPExpressible f.version t) ∧ StartsOK (x.map TimingPoint.time)
  colours : ∀ x, f.colours = some x → x ≠ [] ∧ 5 ≤ f.version ∧ ∀ c ∈ x, ColourWritable c
  hitobjects : ∀ x, f.hitobjects = some x → x ≠ [] ∧ (∀ o ∈ x, HOExpressible f.version o) ∧
    StartsOK (x.map fun o => o.position.x)

/-- What a file value that was read has to satisfy so that saving it loses nothing more the second time: no section is
written as an empty text, sample indices fit into `i32`, file names of hit samples are not only blanks, and in version 3
positions of sliders have no `|`. -/
structure Resavable (f : OsuFile D) : Prop where
  nonEmpty : ∀ n t, SectPrints f (some t) n → t ≠ []
  index : 4 ≤ f.version → ∀ l, f.timingPoints = some l → ∀ t ∈ l, ∀ n, t.sampleIndex = .index n → n.toNat ≤ 2147483647
  filename : 12 ≤ f.version → ∀ l, f.hitobjects = some l → ∀ o ∈ l, ∀ h, o.hitsample = some h →
    h.filename = [] ∨ blanks h.filename = false
  slider : f.version = 3 → ∀ l, f.hitobjects = some l → ∀ o ∈ l, ∀ p, o.params = .slider p →
    DecWritable pointY o.position.x ∧ DecWritable pointY o.position.y

/-- The file value that is read from the text of a file value that was read: without the fields the version does not
write, with quotes around paths that need them. -/
def resaved (f : OsuFile D) : OsuFile D :=
  { f with
    general := f.general.map ((General D).written f.version)
    editor := f.editor.map ((Editor D).written f.version)
    events := f.events.map fun l => (l.filter (writtenIn f.version)).map quoted
    timingPoints := f.timingPoints.map fun l => l.map (tpDefaults f.version)
    hitobjects := f.hitobjects.map fun l => l.map (hoBack f.version) }

end

end Osu
