/-
Specification: lines of a text taken out, repeated or put in another order.
-/
import Verif.Spec.Concat
import Verif.Spec.Cut

namespace Osu

/-- The lines of a text that are not blank. -/
def inked (s : Str) : List Str := (lines s).filter fun l => !(trim l).isEmpty

/-- What becomes of the things read from `s` when `t` is made from its lines: things are only left out if lines are; they are put in
order like the lines; and there are no new ones. -/
def Sifted {α : Type} (s t : Str) (xs ys : List α) : Prop :=
  ys ⊆ xs ∧ ((inked t).Sublist (inked s) → ys.Sublist xs) ∧ ((inked t).Perm (inked s) → ys.Perm xs)

/-- Rows left when some are taken out, each together with the rows right after it that are deeper. -/
inductive Pruned {α : Type} (depth : α → Nat) : List α → List α → Prop
  | nil : Pruned depth [] []
  | keep (x : α) {as bs : List α} (h : Pruned depth as bs) : Pruned depth (x :: as) (x :: bs)
  | drop (x : α) {ms as bs : List α} (hm : ∀ m ∈ ms, depth x < depth m) (ha : ∀ a, as.head? = some a → depth a ≤ depth x)
      (h : Pruned depth as bs) : Pruned depth (x :: (ms ++ as)) bs

end Osu
