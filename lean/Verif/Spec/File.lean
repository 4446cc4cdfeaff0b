/-
Specification of the layout of a file: header, lines before the first section, sections.
-/
import Verif.Model.OsuFile
import Verif.Props.Numbers

namespace Osu
open Parser Ev

/-! ### Layout -/

/-- The text begins, after blanks, with a bracketed name on one line. -/
def HasHeader (s : Str) : Prop :=
  ∃ ws name r, s = ws ++ '[' :: (name ++ ']' :: r) ∧ AllC isMultispace ws ∧ ']' ∉ name ∧ '\n' ∉ name

/-- `body` goes up to the next line that begins with `[`; `r` is the rest from the end of the last line of `body`. -/
def BodyEnds (body r : Str) : Prop :=
  (r = [] ∨ ∃ r', r = '\n' :: '[' :: r') ∧ ∀ a b, body ≠ a ++ '\n' :: '[' :: b

/-- A text as sections, followed by a rest without a section header at its start. -/
inductive Sections : Str → List Sect → Str → Prop
  | nil {r : Str} (h : ¬HasHeader r) : Sections r [] r
  | cons {x : Sect} {s : Str} {xs : List Sect} {r : Str} (hw : AllC isMultispace x.ws) (hn : ']' ∉ x.name ∧ '\n' ∉ x.name)
      (hw2 : AllC isMultispace x.ws2) (hb : HeadNot isMultispace (x.body ++ s)) (he : BodyEnds x.body s)
      (h : Sections s xs r) :
      Sections (x.ws ++ '[' :: (x.name ++ ']' :: (x.ws2 ++ (x.body ++ s)))) (x :: xs) r

/-- A line that, without the blanks around it, begins with `[` or ends with `]`. -/
def Bracketed (l : Str) : Prop := (∃ r, trim l = '[' :: r) ∨ ∃ r, trim l = r ++ [']']

/-- A blank line or a comment. -/
def Ignorable (l : Str) : Prop := trim l = [] ∨ ∃ r, trim l = '/' :: '/' :: r

/-- The lines of a text: those before the first bracketed line, then sections, then a rest. -/
def Layout (s : Str) (pre : List Str) (xs : List Sect) (rest : Str) : Prop :=
  ∃ ls, lines s = pre ++ ls ∧ (∀ l ∈ pre, ¬Bracketed l) ∧ (∀ l, ls.head? = some l → Bracketed l) ∧
    Sections (join ['\n'] ls) xs rest

/-- A text that begins like a beatmap file: blanks, maybe a byte order mark, `osu file format v`, the text of the
version up to the end of the line, the rest from there on. -/
def Versioned (s ws num r : Str) : Prop :=
  (∃ bom, (bom = [] ∨ bom = ['﻿']) ∧ s = ws ++ bom ++ c!"osu file format v" ++ num ++ r) ∧
    AllC isMultispace ws ∧ '\r' ∉ num ∧ '\n' ∉ num ∧ (r = [] ∨ ∃ r', r = '\r' :: r' ∨ r = '\n' :: r')

/-- A version number the library knows. -/
def KnownVersion (num : Str) (v : Nat) : Prop := IsUNumeral num v ∧ 3 ≤ v ∧ v ≤ 14

/-! ### Sections of a beatmap file -/

/-- The sections of a beatmap file. -/
inductive SName where
  | general | editor | metadata | difficulty | events | timingPoints | colours | hitobjects
  deriving DecidableEq, Repr

/-- The name of a section in a file. -/
def SName.text : SName → Str
  | general => c!"General" | editor => c!"Editor" | metadata => c!"Metadata" | difficulty => c!"Difficulty"
  | events => c!"Events" | timingPoints => c!"TimingPoints" | colours => c!"Colours" | hitobjects => c!"HitObjects"

section
variable {D : Type} [DecLib D] [UniLib]

/-- The file value has the value read from `body` for this section. -/
def SectReads (v : Nat) (f : OsuFile D) (body : Str) : SName → Prop
  | .general => ∃ x, (General D).fromStr v body = .ok x ∧ f.general = some x
  | .editor => ∃ x, (Editor D).fromStr v body = .ok x ∧ f.editor = some x
  | .metadata => ∃ x, Metadata.fromStr v body = .ok x ∧ f.metadata = some x
  | .difficulty => ∃ x, (Difficulty D).fromStr v body = .ok x ∧ f.difficulty = some x
  | .events => ∃ x, Events.parse v body = .ok x ∧ f.events = some x
  | .timingPoints => ∃ x, TimingPoints.parse v body = .ok x ∧ f.timingPoints = some x
  | .colours => ∃ x, Colours.parse v body = .ok x ∧ f.colours = x
  | .hitobjects => ∃ x, HitObjects.parse v body = .ok x ∧ f.hitobjects = some x

/-- The file value has no such section. -/
def SectAbsent (f : OsuFile D) : SName → Prop
  | .general => f.general = none
  | .editor => f.editor = none
  | .metadata => f.metadata = none
  | .difficulty => f.difficulty = none
  | .events => f.events = none
  | .timingPoints => f.timingPoints = none
  | .colours => f.colours = none
  | .hitobjects => f.hitobjects = none

/-- The file value that the sections stand for. -/
def FileReads (v : Nat) (xs : List Sect) (f : OsuFile D) : Prop :=
  f.version = v ∧ f.osb = none ∧ (xs.map Sect.name).Nodup ∧
    (∀ x ∈ xs, x.body ≠ [] ∧ ∃ n : SName, n.text = x.name ∧ SectReads v f x.body n) ∧
    ∀ n : SName, n.text ∉ xs.map Sect.name → SectAbsent f n

variable (D) in
/-- What the section's own parser makes of its content, without the value. -/
def SName.outcome (v : Nat) (body : Str) : SName → Res (LErr FileErr) Unit
  | .general => processingLine .general ((General D).fromStr v body) 0 >>= fun _ => .ok ()
  | .editor => processingLine .editor ((Editor D).fromStr v body) 0 >>= fun _ => .ok ()
  | .metadata => processingLine .metadata (Metadata.fromStr v body) 0 >>= fun _ => .ok ()
  | .difficulty => processingLine .difficulty ((Difficulty D).fromStr v body) 0 >>= fun _ => .ok ()
  | .events => processingLine .events (Events.parse v body : Res _ (List (Event D))) 0 >>= fun _ => .ok ()
  | .timingPoints => processingLine .timingPoints (TimingPoints.parse v body : Res _ (List (TimingPoint D))) 0 >>= fun _ => .ok ()
  | .colours => processingLine .colours (Colours.parse v body) 0 >>= fun _ => .ok ()
  | .hitobjects => processingLine .hitobjects (HitObjects.parse v body : Res _ (List (HitObject D))) 0 >>= fun _ => .ok ()

/-- The sections `pre` are all readable: different known names, accepted contents that are not empty. -/
def AllRead (D : Type) [DecLib D] (v : Nat) (pre : List Sect) : Prop :=
  (pre.map Sect.name).Nodup ∧ ∀ x ∈ pre, x.body ≠ [] ∧ ∃ n : SName, n.text = x.name ∧ n.outcome D v x.body = .ok ()

/-- Reading ends at the section `x` with `o`, when `seen` are the names before it, its header counts as line `line` and
its content begins at line `bline`: it is repeated, it has an unknown name, its content is rejected, reading its
content panics, or it is accepted and empty (which panics). -/
def StopsAt (D : Type) [DecLib D] [UniLib] (v line bline : Nat) (seen : List Str) (x : Sect) {α : Type} (o : Res (LErr FileErr) α) : Prop :=
  (x.name ∈ seen ∧ o = .err ⟨line, .duplicateSections⟩) ∨
  (x.name ∉ seen ∧ (∀ n : SName, n.text ≠ x.name) ∧ o = .err ⟨line, .unknownSection⟩) ∨
  (x.name ∉ seen ∧ ∃ n : SName, n.text = x.name ∧
    ((∃ e, n.outcome D v x.body = .err e ∧ o = .err ⟨e.line + bline, e.error⟩) ∨
     (n.outcome D v x.body = .panic ∧ o = .panic) ∨
     (n.outcome D v x.body = .ok () ∧ x.body = [] ∧ o = .panic)))

end

/-! ### Line numbers -/

/-- Lines counted for a section that is followed by another one. -/
def Sect.counted (x : Sect) : Nat := (lines x.ws).length + (lines x.ws2).length + ((lines x.body).length - 1)

/-- The line number counted for the header of a section after `pre`. -/
def nameLine (start : Nat) (pre : List Sect) (x : Sect) : Nat :=
  start + (pre.map Sect.counted).sum + (lines x.ws).length

/-- The line number counted for the first line of the content of a section after `pre`. -/
def bodyLine (start : Nat) (pre : List Sect) (x : Sect) : Nat := nameLine start pre x + (lines x.ws2).length

/-- The text of a section. -/
def Sect.text (x : Sect) : Str := x.ws ++ '[' :: (x.name ++ ']' :: (x.ws2 ++ x.body))

/-- Number of line feeds. -/
def feeds (s : Str) : Nat := s.count '\n'

/-- The text of the sections `pre`, and of `x` up to its header. -/
def upToName (pre : List Sect) (x : Sect) : Str := (pre.map Sect.text).flatten ++ x.ws

/-- The text of the sections `pre`, and of `x` up to its content. -/
def upToBody (pre : List Sect) (x : Sect) : Str := (pre.map Sect.text).flatten ++ (x.ws ++ '[' :: (x.name ++ ']' :: x.ws2))

/-- 1 for blanks that are not followed by the end of a line, that is for blanks in front of something. -/
def indent (w : Str) : Nat := if w = [] ∨ w.getLast? = some '\n' then 0 else 1

/-- 1 for a section whose content ends with an empty line. -/
def Sect.gap (x : Sect) : Nat := if x.body.getLast? = some '\n' then 1 else 0

end Osu
