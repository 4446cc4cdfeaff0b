/-
Specification of the error of a value that is read on its own.
-/
import Verif.Spec.MessagesKV
import Verif.Spec.HitObjects
import Verif.Spec.Faults
import Verif.Model.Messages

namespace Osu

/-- `NumberErrors f says`: the errors of `f` are those of a number, with the text that `says` gives, and nothing else goes wrong. -/
def NumberErrors {α : Type} (f : Str → Res IntErr α) (says : Str → Option Str) : Prop :=
  ∀ s, (∀ m, (∃ e, f s = .err e ∧ e.msg = m) ↔ says s = some m) ∧ ((∃ a, f s = .ok a) ↔ says s = none)

/-- The errors of a number of which those above a limit are refused. -/
def LimitErrors {ε α : Type} (f : Str → Res ε α) (int : IntErr → ε) (high : ε) (says : Str → Option Str) (limit : Int) : Prop :=
  ∀ s, (∀ e, f s = .err e ↔ (∃ i, e = int i ∧ says s = some i.msg) ∨ (e = high ∧ says s = none ∧ limit < numVal s)) ∧
    ((∃ a, f s = .ok a) ↔ says s = none ∧ numVal s ≤ limit)

open HO in
/-- The error of an edge set. -/
def edgeFault (s : Str) : Option ColonSetErr :=
  if readable SampleSet.parse (s.takeWhile fun c => !(c == ':')) then
    match s.dropWhile fun c => !(c == ':') with
    | [] => some .missingSeparator
    | _ :: y => if readable SampleSet.parse y then none else some .invalidFirstItem
  else some .invalidFirstItem

/-- The error of the first piece that cannot be read, each with the error of its place. Places without a piece and pieces without
a place have none. -/
def firstBad {E : Type} : List (E × (Str → Bool)) → List Str → Option E
  | (e, ok) :: cs, p :: ps => if ok p then firstBad cs ps else some e
  | _, _ => none

open HO in
/-- The error of a hit sample. -/
def sampleFault (s : Str) : Option HitSampleErr :=
  firstBad [(.invalidSampleSet, readable SampleSet.parse), (.invalidSampleSet, readable SampleSet.parse),
    (.invalidIndex, readable SampleIndex.parse), (.invalidVolume, readable Volume.parse)] (dropBlankLast (splitOnC ':' s))

end Osu
