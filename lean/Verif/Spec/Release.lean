/-
Specification of the build without overflow checks.
-/
import Verif.Model.Release
import Verif.Spec.File
import Verif.Spec.Events

namespace Osu
open Ev
variable {D : Type}

/-- A time moved by `k`, within 32 bits: the number in the range that differs from the sum by a multiple of 2 ^ 32. -/
def moveTime (k : Int) (t : Int32) : Int32 := Int32.ofInt (t.toInt + k)

/-- An event with the times of videos, breaks and colour transformations moved by `k`. -/
def moveEvent (k : Int) : Event D → Event D
  | .video x => .video { x with startTime := moveTime k x.startTime }
  | .break_ x => .break_ { x with startTime := moveTime k x.startTime, endTime := moveTime k x.endTime }
  | .colourTransformation x => .colourTransformation { x with startTime := moveTime k x.startTime }
  | e => e

/-- How far the times of events are moved when a file of this version is read. -/
def offsetOf (v : Nat) : Int := if v = 3 ∨ v = 4 then 24 else 0

section
variable [DecLib D] [UniLib]

/-- The file value has the value read from `body` for this section. The events are those that version 5, which does not move
times, reads, with their times moved. -/
def SectReadsR (v : Nat) (f : OsuFile D) (body : Str) : SName → Prop
  | .events => ∃ x, Events.parse 5 body = .ok x ∧ f.events = some (x.map (moveEvent (offsetOf v)))
  | n => SectReads v f body n

variable (D) in
/-- What the section's own parser makes of its content, without the value. -/
def SName.outcomeR (v : Nat) (body : Str) (n : SName) : Res (LErr FileErr) Unit :=
  if n = .events then n.outcome D 5 body else n.outcome D v body

/-- The file value that the sections stand for. Other than in the build with overflow checks they may be empty. -/
def FileReadsR (v : Nat) (xs : List Sect) (f : OsuFile D) : Prop :=
  f.version = v ∧ f.osb = none ∧ (xs.map Sect.name).Nodup ∧
    (∀ x ∈ xs, ∃ n : SName, n.text = x.name ∧ SectReadsR v f x.body n) ∧
    ∀ n : SName, n.text ∉ xs.map Sect.name → SectAbsent f n

variable (D) in
/-- The sections are all readable: different known names, accepted contents. -/
def AllReadR (v : Nat) (pre : List Sect) : Prop :=
  (pre.map Sect.name).Nodup ∧ ∀ x ∈ pre, ∃ n : SName, n.text = x.name ∧ n.outcomeR D v x.body = .ok ()

variable (D) in
/-- Reading ends at the section `x` with `o`, when `seen` are the names before it, its header counts as line `line` and
its content begins at line `bline`: it is repeated, it has an unknown name, its content is rejected, or reading its
content panics. -/
def StopsAtR (v line bline : Nat) (seen : List Str) (x : Sect) {α : Type} (o : Res (LErr FileErr) α) : Prop :=
  (x.name ∈ seen ∧ o = .err ⟨line, .duplicateSections⟩) ∨
  (x.name ∉ seen ∧ (∀ n : SName, n.text ≠ x.name) ∧ o = .err ⟨line, .unknownSection⟩) ∨
  (x.name ∉ seen ∧ ∃ n : SName, n.text = x.name ∧
    ((∃ e, n.outcomeR D v x.body = .err e ∧ o = .err ⟨e.line + bline, e.error⟩) ∨
     (n.outcomeR D v x.body = .panic ∧ o = .panic)))

end

/-- The second parts of the entries of a list of pairs are all there. -/
def NoGaps {α β : Type} (l : List (α × Option β)) : Prop := ∀ p ∈ l, p.2 ≠ none

end Osu
