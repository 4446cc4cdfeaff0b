/-
Specification for comparing a text with what is written after reading it.
-/
import Verif.Spec.FileText
import Verif.Spec.Trimmer

namespace Osu
open Parser Ev

/-- Every carriage return is followed by a line feed. -/
def CrLf (s : Str) : Prop := ∀ a b, s = a ++ '\r' :: b → b.head? = some '\n'

/-- A text without blanks and byte order marks. -/
def bareText (s : Str) : Str := s.filter fun c => !(isWs c || c == '﻿')

/-- What follows a line: nothing, or a line break. -/
def BreaksLine (r : Str) : Prop := r = [] ∨ ∃ r', r = '\n' :: r' ∨ r = '\r' :: '\n' :: r'

/-- A beatmap text with the version `num` and the sections `xs`, in which the format line and each header stand alone on
their line and no line of a section looks like a header. -/
structure OwnLines (s num : Str) (xs : List Sect) : Prop where
  layout : ∃ ws r pre, Versioned s ws num r ∧ BreaksLine r ∧ Layout r pre xs []
  alone : ∀ x ∈ xs, '\n' ∈ x.ws2
  body : ∀ x ∈ xs, ∀ l ∈ cleanLines x.body, ¬LooksHeader l

end Osu
