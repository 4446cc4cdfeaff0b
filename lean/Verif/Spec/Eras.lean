/-
Specification of the version eras: the versions at which reading and writing change.
-/
import Verif.Spec.File

namespace Osu

/-- No cut separates the two versions; a cut `c` is between `c - 1` and `c`. -/
def sameEra (cuts : List Nat) (v w : Nat) : Prop := ∀ c ∈ cuts, v < c ↔ w < c

/-- The versions from which on the content of a section is read differently than before. -/
def readCuts : SName → List Nat
  | .general => [3, 4, 5, 7, 10, 14]
  | .editor | .metadata | .difficulty => []
  | .events => [3, 5]
  | .timingPoints => [3, 4, 5, 6]
  | .colours => [3, 5]
  | .hitobjects => [3, 4, 5]

/-- The versions from which on a section is written differently than before. -/
def writeCuts : SName → List Nat
  | .general => [3, 4, 5, 6, 14]
  | .editor => [10, 11]
  | .metadata => []
  | .difficulty => [3, 5]
  | .events => [3, 5, 14]
  | .timingPoints => [3, 4, 5]
  | .colours => [3, 5]
  | .hitobjects => [3, 4, 5, 10, 12]

/-- The cuts for files, whose version is from 3 to 14. -/
def fileReadCuts : List Nat := [4, 5, 6, 7, 10, 14]
def fileWriteCuts : List Nat := [4, 5, 6, 10, 11, 12, 14]

section
variable {D : Type} [DecLib D]

/-- A text that starts with the header of version `v` and goes on with `r`. -/
def headed (v : Nat) (r : Str) : Str := c!"osu file format v" ++ natToStr v ++ r

/-- What is written for one section of a file: no section, a section without text, or a text; `none` outside is a panic. -/
def SName.written (v : Nat) (f : OsuFile D) : SName → Option (Option (Option Str))
  | .general => some (f.general.map fun x => some ((General D).toStr v x))
  | .editor => some (f.editor.map fun x => some ((Editor D).toStr v x))
  | .metadata => some (f.metadata.map fun x => some (Metadata.toStr v x))
  | .difficulty => some (f.difficulty.map fun x => some ((Difficulty D).toStr v x))
  | .events => match f.events with
    | none => some none
    | some x => (Ev.Events.shw v x).map fun t => some (some t)
  | .timingPoints => match f.timingPoints with
    | none => some none
    | some x => (TimingPoints.shw v x).map fun t => some (some t)
  | .colours => some (f.colours.map (Colours.shw v))
  | .hitobjects => match f.hitobjects with
    | none => some none
    | some x => (HitObjects.shw v x).map fun t => some (some t)

/-- Reading as `v` and as `w` gives the same result, apart from the number of the version in the value. -/
def ReadsAlike (D : Type) [DecLib D] [UniLib] (v w : Nat) : Prop :=
  ∀ r : Str, r = [] ∨ (∃ r', r = '\r' :: r' ∨ r = '\n' :: r') →
    (OsuFile.parse (headed w r) : Res (LErr FileErr) (OsuFile D)) =
      OsuFile.parse (headed v r) >>= fun g => .ok { g with version := w }

/-- Writing as `v` and as `w` gives the same text, apart from the number in the header. -/
def WritesAlike (D : Type) [DecLib D] (v w : Nat) : Prop :=
  ∀ f : OsuFile D,
    (∃ t, OsuFile.shw { f with version := v } = some (headed v t) ∧ OsuFile.shw { f with version := w } = some (headed w t)) ∨
    (OsuFile.shw { f with version := v } = none ∧ OsuFile.shw { f with version := w } = none)

end

end Osu
