/-
Specification of the trimmed form of a text.
-/
import Verif.Basic.Str

namespace Osu

/-- A line without the blanks around it and without byte order marks. -/
def cleanLine (l : Str) : Str := (trim l).filter fun c => !(c == '\uFEFF')

/-- The cleaned lines of a text that are not empty. -/
def cleanLines (s : Str) : List Str := ((lines s).map cleanLine).filter fun l => !l.isEmpty

/-- Cleaning leaves no blanks around the lines. (A byte order mark next to a blank can leave one.) -/
def BomOK (s : Str) : Prop := ∀ l ∈ cleanLines s, trim l = l

/-- A line that looks like the header of a section. -/
def LooksHeader (l : Str) : Prop := l.head? = some '[' ∧ l.getLast? = some ']'

instance (l : Str) : Decidable (LooksHeader l) := by unfold LooksHeader; infer_instance

/-- The lines are `pre`, followed by sections, each a header and lines that are no headers. -/
structure TrimLayout (ls pre : List Str) (bs : List (Str × List Str)) : Prop where
  eq : ls = pre ++ bs.flatMap fun b => b.1 :: b.2
  pre : ∀ l ∈ pre, ¬LooksHeader l
  head : ∀ b ∈ bs, LooksHeader b.1
  body : ∀ b ∈ bs, ∀ l ∈ b.2, ¬LooksHeader l

/-- What is kept of the lines before the first section: the first one if it is a format line. -/
def keptPre (pre : List Str) : List Str :=
  match pre with
  | l :: _ => if c!"osu file format v" <+: l then [l] else []
  | [] => []

/-- A line with a colon loses all its blanks, other lines are kept. -/
def squeeze (l : Str) : Str := if ':' ∈ l then l.filter fun c => !isWs c else l

/-- How the lines of a section are shown: sorted if all of them have a colon, otherwise in their order. -/
structure BodyShown (b r : List Str) : Prop where
  sorted : (∀ l ∈ b, ':' ∈ l) → r.Perm (b.map squeeze) ∧ r.Pairwise (· ≤ ·)
  kept : (∃ l ∈ b, ':' ∉ l) → r = b.map squeeze

/-- How sections are shown. -/
inductive SectionsShown : List (Str × List Str) → List Str → Prop
  | nil : SectionsShown [] []
  | cons {h : Str} {b r : List Str} {bs : List (Str × List Str)} {rs : List Str} (hb : BodyShown b r) (hs : SectionsShown bs rs) :
      SectionsShown ((h, b) :: bs) (h :: (r ++ rs))

/-- The trimmed form of a text. -/
def Trimmed (s t : Str) : Prop :=
  ∃ pre bs rs, TrimLayout (cleanLines s) pre bs ∧ SectionsShown bs rs ∧ t = join ['\n'] (keptPre pre ++ rs)

/-- Bodies of sections that are not told apart: the same lines up to the blanks in lines with a colon, and up to their order
if all lines have a colon. -/
def SameLines (b b' : List Str) : Prop :=
  b.map squeeze = b'.map squeeze ∨ ((∀ l ∈ b, ':' ∈ l) ∧ (b.map squeeze).Perm (b'.map squeeze))

/-- Sections that are not told apart. -/
inductive SameSections : List (Str × List Str) → List (Str × List Str) → Prop
  | nil : SameSections [] []
  | cons {h : Str} {b b' : List Str} {bs bs' : List (Str × List Str)} (hb : SameLines b b') (hs : SameSections bs bs') :
      SameSections ((h, b) :: bs) ((h, b') :: bs')

end Osu
