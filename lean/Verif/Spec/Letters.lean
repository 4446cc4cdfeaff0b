/-
Specification: which characters there are in what is written.
-/
import Verif.Basic.Str

namespace Osu

/-- The blank, and the letters, digits and signs of ASCII. -/
def Printable (c : Char) : Prop := 32 ≤ c.toNat ∧ c.toNat ≤ 126

instance (c : Char) : Decidable (Printable c) := by unfold Printable; infer_instance

/-- Every character of `t` is one of `s`, or printable ASCII, or a line feed. -/
def NothingForeign (s t : Str) : Prop := ∀ c ∈ t, c ∈ s ∨ Printable c ∨ c = '\n'

end Osu
