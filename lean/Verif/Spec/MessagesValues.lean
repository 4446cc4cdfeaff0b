/-
Specification of the texts of the errors of single values and of setters.
-/
import Verif.Spec.ValueErrors
import Verif.Spec.Names

namespace Osu

/-- `Shows f msg says`: a text is refused by `f` with a text of the error exactly if `says` gives that text for it. -/
def Shows {ε α : Type} (f : Str → Res ε α) (msg : ε → Str) (says : Str → Option Str) : Prop :=
  ∀ s m, (∃ e, f s = .err e ∧ msg e = m) ↔ says s = some m

/-- The text of the error of a number, or `high` for numbers above the limit. -/
def limitSays (says : Str → Option Str) (limit : Int) (high : Str) (s : Str) : Option Str :=
  match says s with
  | some m => some m
  | none => if limit < numVal s then some high else none

/-- What is said of a sample set of a hit object that is no number. -/
def sampleSetSays (s : Str) : Option Str :=
  (usizeSays s).map fun _ => c!"There was a problem parsing the `str` into an integer first"

/-- What is said of an edge set. -/
def edgeSays (s : Str) : Option Str :=
  match splitOnC ':' s with
  | [] => none
  | p :: ps =>
    if usizeSays p ≠ none then some c!"Failed to parse the first item"
    else if ps = [] then some c!"The colon separator is missing"
    else if usizeSays (s.drop (p.length + 1)) ≠ none then some c!"Failed to parse the first item"
    else none

/-- What is said of a curve point. -/
def curvePointSays (s : Str) : Option Str :=
  if ':' ∈ s then none else some c!"The colon separator is missing"

/-- What is said of a hit sample. -/
def sampleSays (s : Str) : Option Str :=
  let number := fun t => decide (usizeSays t = none)
  firstBad [(c!"Invalid `sample_set` value", number), (c!"Invalid `sample_set` value", number), (c!"Invalid `index` value", number),
    (c!"Invalid `volume` value", fun t => decide (unsignedSays 255 t = none ∧ numVal t ≤ 100))] (dropBlankLast (splitOnC ':' s))

/-- What is said of a text that is none of the names. -/
def nameSays {α : Type} [DecidableEq α] (names : List (α × Str)) (unknown : Str) (s : Str) : Option Str :=
  if s ∈ names.map (·.2) then none else some unknown

end Osu
