/-
Specification of inserting blank lines, and of the first offending line.
-/
import Verif.Basic.Res

namespace Osu

/-- Only white space. -/
def Blank (w : Str) : Prop := ∀ c ∈ w, isWs c = true

instance (w : Str) : Decidable (Blank w) := by unfold Blank; infer_instance

/-- The lines that are not blank. -/
def contentLines (ls : List Str) : List Str := ls.filter fun l => !decide (Blank l)

/-- `BlankInsert s t`: `t` is `s` with blank text put on lines of its own, between two lines, before the
first or after the last one. -/
inductive BlankInsert : Str → Str → Prop
  | mid (a b w : Str) (h : Blank w) : BlankInsert (a ++ '\n' :: b) (a ++ '\n' :: (w ++ '\n' :: b))
  | first (b w : Str) (h : Blank w) : BlankInsert b (w ++ '\n' :: b)
  | last (a w : Str) (ha : a.getLast? ≠ some '\r') (h : Blank w) : BlankInsert a (a ++ '\n' :: w)

/-- Any number of insertions and removals of blank lines. -/
inductive BlankEq : Str → Str → Prop
  | refl (s : Str) : BlankEq s s
  | ins {s t u : Str} (h : BlankEq s t) (h' : BlankInsert t u) : BlankEq s u
  | del {s t u : Str} (h : BlankEq s t) (h' : BlankInsert u t) : BlankEq s u

/-- `k` is the index of the first line that is neither blank nor accepted by `f`, and `f` gives `e` there. -/
def FirstBad {E α : Type} (f : Str → Res E α) (s : Str) (k : Nat) (e : E) : Prop :=
  (∃ l, (lines s)[k]? = some l ∧ ¬ Blank l ∧ f l = .err e) ∧
  ∀ j l, j < k → (lines s)[j]? = some l → Blank l ∨ ∃ a, f l = .ok a

end Osu
