/-
Specification of the faults of events with references to variables.
-/
import Verif.Spec.FaultsEvents
import Verif.Spec.Osb

namespace Osu
open SB Ev Parser

/-- The text that a command line stands for after the references to variables are replaced. -/
def StandsFor (vars : List Variable) (l t : Str) : Prop := ∃ b, AfterHeader l b ∧ Resolved b vars l t

/-- The pieces of the text of a command. -/
def cmdPieces (t : Str) : List Str := splitOnC ',' (t.dropWhile fun c => c == ' ' || c == '_')

section
variable {D : Type} [DecLib D] [UniLib]

/-- A line that panics after the events `evs`: a line that starts an event, or a command line for the last event, when its
name cannot be cut off or the text it stands for panics. -/
inductive LinePanicsVars (v : Nat) (vars : List Variable) (evs : List (Event D)) (l : Str) : Prop
  | event (h0 : indentOf l = 0) (h : EvPanics D v l) : LinePanicsVars v vars evs l
  | header {e : Event D} (h0 : 1 ≤ indentOf l) (he : evs.getLast? = some e) (hc : e.commands.isSome) (h : ¬HeaderCuts l) :
      LinePanicsVars v vars evs l
  | command {e : Event D} {t : Str} (h0 : 1 ≤ indentOf l) (he : evs.getLast? = some e) (hc : e.commands.isSome)
      (ht : StandsFor vars l t) (h : CmdPanics (cmdPieces t)) : LinePanicsVars v vars evs l

/-- The error of a line after the events `evs`: a line without indentation that starts no event, a command after an event
that has no commands, a line that stands for a faulty command, or a command that is indented too far. The indentation is that
of the line before references are replaced. -/
inductive LineFaultVars (vars : List Variable) (evs : List (Event D)) (l : Str) : EvErr → Prop
  | event {p : Str} {qs : List Str} {e : EvErr} (h0 : indentOf l = 0) (hc : (c!"//").isPrefixOf l = false)
      (hl : splitOnC ',' l = p :: qs) (h : evFault D p qs = some e) : LineFaultVars vars evs l e
  | noOwner (h0 : 1 ≤ indentOf l) (h : ∀ e, evs.getLast? = some e → e.commands = none) :
      LineFaultVars vars evs l .storyboardCmdWithNoSprite
  | command {e : Event D} {t p : Str} {qs : List Str} {x : CmdErr} (h0 : 1 ≤ indentOf l) (he : evs.getLast? = some e)
      (hc : e.commands.isSome) (ht : StandsFor vars l t) (hl : cmdPieces t = p :: qs) (h : cmdFault p qs = some x) :
      LineFaultVars vars evs l (.command x)
  | deep {e : Event D} {cs : List (Command D)} {c : Command D} (he : evs.getLast? = some e) (hc : e.commands = some cs)
      (hr : CmdLineVars vars l (indentOf l, c)) (h : maxLevel (SB.listing 1 cs) < indentOf l) :
      LineFaultVars vars evs l (.push ⟨namedLevel cs, indentOf l⟩)

end

end Osu
