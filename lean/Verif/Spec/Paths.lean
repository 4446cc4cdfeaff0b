/-
Specification of the equality of file paths: spellings that mean the same.
-/
import Verif.Spec.Split

namespace Osu

/-- A redundant part of a path is left out: a slash next to another one, a single dot between slashes or at the end, a slash at
the end that is not the whole path. -/
inductive PathStep : Str → Str → Prop
  | double (a b : Str) : PathStep (a ++ '/' :: '/' :: b) (a ++ '/' :: b)
  | dot (a b : Str) (h : b = [] ∨ ∃ b', b = '/' :: b') : PathStep (a ++ '/' :: '.' :: b) (a ++ '/' :: b)
  | last (a : Str) (h : a ≠ []) : PathStep (a ++ ['/']) a

/-- Two spellings of a path. -/
inductive SamePath : Str → Str → Prop
  | refl (p : Str) : SamePath p p
  | step {p q r : Str} (h : PathStep p q) (t : SamePath q r) : SamePath p r
  | back {p q r : Str} (h : PathStep q p) (t : SamePath q r) : SamePath p r

/-- A path as short as possible. -/
def ShortPath (p : Str) : Prop := ∀ q, ¬PathStep p q

end Osu
