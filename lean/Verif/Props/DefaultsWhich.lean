/-
C64, continued: which fields and lists have a default.
-/
import Verif.Model.Defaults

namespace Osu
open HO

section
variable {D : Type} [DecLib D]

/-- Every field of `General` has a default except the two of the editor. -/
theorem C64_general_which (d07 : D) (k : GKey) (v : Nat) :
    k.default d07 v = none ↔ k = .editorBookmarks ∨ k = .editorDistanceSpacing := by
  cases k <;> simp [GKey.default]

example (d : D) : GKey.default d .editorBookmarks 4 = none ∧ GKey.default d .countdown 14 ≠ none :=
  ⟨(C64_general_which _ _ 4).2 (.inl rfl), fun h => by rcases (C64_general_which _ _ 14).1 h with h | h <;> cases h⟩

/-- The default of a list section is there exactly in the versions in which the section is written, and is empty. -/
theorem C64_lists (v : Nat) :
    ((∃ l, Colours.default v = some l) ↔ ∃ l s, Colours.shw v l = some s) ∧ (∀ l, Colours.default v = some l → l = []) ∧
    (TimingPoints.default v : Option (List (TimingPoint D))) = some [] ∧
    (HitObjects.default v : Option (List (HitObject D))) = some [] ∧
    (Ev.Events.default v : Option (List (Ev.Event D))) = some [] := by
  refine ⟨?_, ?_, rfl, rfl, rfl⟩
  · unfold Colours.default Colours.shw
    split <;> simp
  · intro l h
    unfold Colours.default at h
    split at h <;> cases h
    rfl

end

example : Colours.default 4 = none ∧ Colours.default 5 = some [] := by decide

end Osu
