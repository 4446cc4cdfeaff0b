/-
Specification of the error reported for a line that is refused: the columns of a line in order, each with the name
of the error for a missing and for an unreadable piece; the first fault counts.
-/
import Verif.Spec.TimingPoints

namespace Osu

/-- A column of a line: the errors it can have, and which pieces are readable. -/
structure Column (E : Type) where
  missing : E
  invalid : E
  ok : Str → Bool
  /-- The column takes all that is left of the line. -/
  toEnd : Bool := false

/-- The fault of the first column that is missing or unreadable. -/
def firstFault {E : Type} : List (Column E) → List Str → Option E
  | [], _ => none
  | c :: _, [] => some c.missing
  | c :: cs, p :: ps =>
    if c.ok (if c.toEnd then join [','] (p :: ps) else p) then firstFault cs (if c.toEnd then [] else ps)
    else some c.invalid

/-- A piece of text that is never unreadable. -/
def anyText (_ : Str) : Bool := true

/-- A piece that a parser accepts. -/
def readable {ε α : Type} (f : Str → Res ε α) (p : Str) : Bool := (f p).isOk

/-- The columns of a timing point line with `n` pieces in version `v`. -/
def tpColumns (v n : Nat) : List (Column TPErr) :=
  [⟨.invalidTime, .invalidTime, anyText, false⟩, ⟨.missingBeatLength, .missingBeatLength, anyText, false⟩] ++
  (if v ≤ 3 then [] else
    [⟨.missingMeter, .invalidMeter, readable parseI32, false⟩,
      ⟨.missingSampleSet, .invalidSampleSet, readable TP.SampleSet.parse, false⟩,
      ⟨.missingSampleIndex, .invalidSampleIndex, readable TP.SampleIndex.parse, false⟩]) ++
  (if v ≤ 3 ∨ (v = 4 ∧ n ≤ 5) then [] else
    [⟨.missingVolume, .invalidVolume, readable TP.Volume.parse, decide (v = 4)⟩]) ++
  (if v ≤ 4 ∨ n ≤ 6 then [] else
    [⟨.missingUninherited, .invalidUninherited, readable parseZeroOneBool, false⟩]) ++
  (if v ≤ 4 ∨ n ≤ 6 ∨ (v = 5 ∧ n = 7) then [] else
    [⟨.missingEffects, .invalidEffects, readable TP.Effects.parse, true⟩])

end Osu
