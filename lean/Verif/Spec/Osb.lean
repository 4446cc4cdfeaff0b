/-
Specification of storyboard files.
-/
import Verif.Spec.Variables
import Verif.Spec.FileText
import Verif.Spec.Events

namespace Osu
open SB Ev

/-- A line that defines a variable: `$`, a name without `=`, `=`, the value. -/
def VarReads (l : Str) (v : Variable) : Prop := l = '$' :: (v.name ++ '=' :: v.value) ∧ '=' ∉ v.name ∧ '\n' ∉ v.name

/-- The lines of a `Variables` section that are not blank define the variables, in order. -/
inductive VarsRead : List Str → List Variable → Prop
  | nil : VarsRead [] []
  | cons {l : Str} {ls : List Str} {v : Variable} {vs : List Variable} (h : VarReads l v) (hs : VarsRead ls vs) :
      VarsRead (l :: ls) (v :: vs)

/-- The part of a command line in which references are looked for: all of it if there is no comma, otherwise what is left
after as many bytes as there are characters up to the first comma. -/
def AfterHeader (l b : Str) : Prop :=
  (',' ∉ l ∧ b = l) ∨ (',' ∈ l ∧ ∃ a, l = a ++ b ∧ byteLen a = (l.takeWhile fun c => !(c == ',')).length + 1)

/-- The references to variables are replaced in `s`, in the order of the variables, if they occur in `b`. -/
inductive Resolved (b : Str) : List Variable → Str → Str → Prop
  | nil (s : Str) : Resolved b [] s s
  | hit {v : Variable} {vs : List Variable} {s t u : Str} (h : '$' :: v.name <:+: b) (ht : Replaced ('$' :: v.name) v.value s t)
      (hs : Resolved b vs t u) : Resolved b (v :: vs) s u
  | miss {v : Variable} {vs : List Variable} {s u : Str} (h : ¬'$' :: v.name <:+: b) (hs : Resolved b vs s u) : Resolved b (v :: vs) s u

section
variable {D : Type} [DecLib D] [UniLib]

/-- A command line that may refer to variables, its level and its command. -/
def CmdLineVars (vars : List Variable) (l : Str) (x : Nat × Command D) : Prop :=
  1 ≤ x.1 ∧ indentOf l = x.1 ∧ ∃ b t, AfterHeader l b ∧ Resolved b vars l t ∧
    CmdReads (splitOnC ',' (t.dropWhile fun c => c == ' ' || c == '_')) x.2

/-- The storyboard that the sections stand for. Variables are used in the events only if they come first. -/
inductive OsbReads (v : Nat) : List Sect → Osb D → Prop
  | none : OsbReads v [] ⟨none, none⟩
  | vars {x : Sect} {vs : List Variable} (hx : x.name = c!"Variables") (h : VarsRead (contentLines (lines x.body)) vs) :
      OsbReads v [x] ⟨some vs, none⟩
  | events {y : Sect} {es : List (Event D)} (hy : y.name = c!"Events") (h : Events.parse v y.body = .ok es) :
      OsbReads v [y] ⟨none, some es⟩
  | varsEvents {x y : Sect} {vs : List Variable} {es : List (Event D)} (hx : x.name = c!"Variables") (hy : y.name = c!"Events")
      (h : VarsRead (contentLines (lines x.body)) vs) (h' : Events.parseVars v vs y.body = .ok es) :
      OsbReads v [x, y] ⟨some vs, some es⟩
  | eventsVars {x y : Sect} {vs : List Variable} {es : List (Event D)} (hy : y.name = c!"Events") (hx : x.name = c!"Variables")
      (h' : Events.parse v y.body = .ok es) (h : VarsRead (contentLines (lines x.body)) vs) :
      OsbReads v [y, x] ⟨some vs, some es⟩

/-- Reading ends with `r` at the section `x` after sections that stand for `o`, when its header counts as line `line` and
its content begins at line `bline`: it is repeated, it has an unknown name, a line of it is rejected, or reading it
panics. -/
inductive OsbStops (v line bline : Nat) (o : Osb D) (x : Sect) {α : Type} : Res (LErr OsbErr) α → Prop
  | dupVariables (hx : x.name = c!"Variables") (ho : o.variables ≠ none) : OsbStops v line bline o x (.err ⟨line, .duplicateSections⟩)
  | dupEvents (hx : x.name = c!"Events") (ho : o.events ≠ none) : OsbStops v line bline o x (.err ⟨line, .duplicateSections⟩)
  | unknown (hx : x.name ≠ c!"Variables") (hy : x.name ≠ c!"Events") : OsbStops v line bline o x (.err ⟨line, .unknownSection⟩)
  | variables {k : Nat} {e : VarErr} (hx : x.name = c!"Variables") (ho : o.variables = none) (h : FirstBad Variable.parse x.body k e) :
      OsbStops v line bline o x (.err ⟨k + bline, .variable e⟩)
  | events {e : LErr EvErr} (hx : x.name = c!"Events") (ho : o.events = none)
      (h : (Events.parseVars v (o.variables.getD []) x.body : Res _ (List (Event D))) = .err e) :
      OsbStops v line bline o x (.err ⟨e.line + bline, .events e.error⟩)
  | panic (hx : x.name = c!"Events") (ho : o.events = none)
      (h : (Events.parseVars v (o.variables.getD []) x.body : Res _ (List (Event D))) = .panic) :
      OsbStops v line bline o x .panic

/-- A storyboard that can be written and read back: sections are not empty, the variables can be told apart, the events can
be written, and no command has a `$` in its text. -/
structure OsbWritable (v : Nat) (o : Osb D) : Prop where
  vars : ∀ vs, o.variables = some vs → vs ≠ [] ∧ ∀ x ∈ vs, VarWritable x
  events : ∀ es, o.events = some es → es ≠ [] ∧ ∀ e ∈ es, EvWritable v e
  apart : ∀ vs es, o.variables = some vs → o.events = some es → VarsOK vs ∧ ∀ e ∈ es, ∀ x ∈ listing 1 (cmdsOf e), '$' ∉ x.2.shw

end

end Osu
