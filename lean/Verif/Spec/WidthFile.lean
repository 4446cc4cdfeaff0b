/-
Which files a build with a smaller `usize` can hold. `m` is the largest `usize`.
-/
import Verif.Spec.Width
import Verif.Model.OsuFile

namespace Osu

/-- A file that can be held: its hit objects can. -/
def fileFits {D : Type} [DecLib D] (m : Nat) (f : OsuFile D) : Prop :=
  ∀ l, f.hitobjects = some l → ∀ o ∈ l, objectFits m o

/-- The error of a number that is too large, in the countdown or the mode. -/
def TooLarge (e : FieldErr) : Prop := e = .countdownInt .posOverflow ∨ e = .modeInt .posOverflow

/-- The errors of a hit object line whose numbers are too large. -/
def SampleErr (c : HOErr) : Prop := c = .invalidHitSample ∨ c = .missingHitSample

end Osu
