/-
Which sections can still be read when the version in the header is changed.
-/
import Verif.Spec.File

namespace Osu

/-- Every text of the section that is accepted in version `v` is also readable in version `w`. `General` has values that are read only from
version 4, 5 and 14 on, colours are read only from version 5 on. A timing point of version 3 has two columns or more, one of version 4 five or
six, one of version 5 six or more, and later ones have any number of columns from six on but seven. -/
def keeps (v w : Nat) : SName → Prop
  | .general => (4 ≤ w → 4 ≤ v) ∧ (5 ≤ w → 5 ≤ v) ∧ (14 ≤ w → 14 ≤ v)
  | .colours => 5 ≤ w → 5 ≤ v
  | .timingPoints => w = v ∨ w = 3 ∨ (5 ≤ w ∧ 6 ≤ v)
  | .editor | .metadata | .difficulty | .events | .hitobjects => True

instance (v w : Nat) (n : SName) : Decidable (keeps v w n) := by
  cases n <;> unfold keeps <;> infer_instance

end Osu
