/-
Storyboard variables: what a list of variables must satisfy for printing with variables to be undone by reading with
them.
-/
import Verif.Model.Osb

namespace Osu

/-- Variables that can be told apart in a text: values are not empty, `$` is in no name and in no value, no name starts
with the name of another variable, and no value starts with a character of the name of a variable before it. -/
structure VarsOK (vars : List Variable) : Prop where
  value : ∀ v ∈ vars, v.value ≠ [] ∧ '$' ∉ v.value
  name : ∀ v ∈ vars, '$' ∉ v.name
  prefixFree : ∀ v ∈ vars, ∀ w ∈ vars, v ≠ w → ¬v.name <+: w.name
  apart : vars.Pairwise fun v w => ∀ c, w.value.head? = some c → c ∉ v.name

/-- A variable whose definition fits in a line; `cr`: carriage returns in it are allowed. -/
structure VarWritableC (cr : Bool) (v : Variable) : Prop where
  name : ∀ c ∈ v.name, c ≠ '=' ∧ c ≠ '\n' ∧ (cr = false → c ≠ '\r')
  value : ∀ c ∈ v.value, c ≠ '\n' ∧ (cr = false → c ≠ '\r')

/-- A variable whose definition fits in a line without carriage returns. -/
abbrev VarWritable : Variable → Prop := VarWritableC false

/-- A variable whose definition fits in a line. -/
abbrev VarFits : Variable → Prop := VarWritableC true

/-- `t` is `s` with the separate, leftmost occurrences of `pat` replaced by `to`: `s` is cut into parts at the
occurrences, and no part followed by less than a whole `pat` contains `pat`. -/
def Replaced (pat to s t : Str) : Prop :=
  ∃ parts : List Str, parts ≠ [] ∧ s = join pat parts ∧ t = join to parts ∧
    (∀ p ∈ parts.dropLast, ¬pat <:+: p ++ pat.dropLast) ∧ ∀ p, parts.getLast? = some p → ¬pat <:+: p

end Osu
