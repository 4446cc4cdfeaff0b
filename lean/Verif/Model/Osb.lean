/-
`src/osu_file/osb`: storyboard files and variables.
-/
import Verif.Model.Events
import Verif.Model.SectionSplit

namespace Osu
open Ev

/-- `ParseVariableError` (src/osu_file/osb/error.rs:29-35). -/
inductive VarErr where
  | missingHeader | missingEquals
  deriving DecidableEq, Repr

open Parser in
/-- `Variable::from_str` (src/osu_file/osb/types.rs:17-42), always `Some`. -/
def Variable.parse (s : Str) : Res VarErr Variable :=
  (((preceded (context .missingHeader (tag ['$'])) (takeTill fun c => c == '=' || c == '\n')).bind fun name =>
    (preceded (context .missingEquals (tag ['='])) rest).bind fun value =>
    ret (⟨name, value⟩ : Variable)) s).toRes

/-- `Variable::to_string` (src/osu_file/osb/types.rs:44-48), always `Some`. -/
def Variable.shw (v : Variable) : Str := ['$'] ++ v.name ++ ['='] ++ v.value

/-- `Osb` (src/osu_file/osb/mod.rs:13-17). -/
structure Osb (D : Type) where
  variables : Option (List Variable)
  events : Option (List (Event D))

/-- `ParseError` (src/osu_file/osb/error.rs:6-24). -/
inductive OsbErr where
  | unexpectedLine | duplicateSections | unknownSection
  | variable (e : VarErr) | events (e : EvErr)
  deriving DecidableEq, Repr

section
variable {D : Type} [DecLib D] [UniLib]

/-- The `match section_name` (src/osu_file/osb/mod.rs:74-102). -/
def Osb.handle (version : Nat) (o : Osb D) (name body : Str) (line : Nat) : Option (Res (LErr OsbErr) (Osb D)) :=
  if name = c!"Variables" then
    some (processingLine .variable (parseLines Variable.parse body) line >>= fun vs =>
      .ok { o with variables := some vs })
  else if name = c!"Events" then
    some (processingLine .events (Events.parseVars version (o.variables.getD []) body) line >>= fun es =>
      .ok { o with events := some es })
  else none

/-- `Osb::from_str` (src/osu_file/osb/mod.rs:22-109). -/
def Osb.parse (version : Nat) (s : Str) : Res (LErr OsbErr) (Option (Osb D)) :=
  if version < 14 then .ok none
  else
    match preBad 0 ((lines s).take (preCount s)) with
    | some i => .err ⟨i, .unexpectedLine⟩
    | none =>
      match Parser.many0 squareSection (sectionText s) with
      | .ok _ sections =>
        sectionLoop .duplicateSections .unknownSection (Osb.handle version) (fun line n => some (line + (n - 1)))
          sections (preCount s) [] ⟨none, none⟩ >>= fun o => .ok (some o)
      | _ => .panic

/-- `Osb::to_string` (src/osu_file/osb/mod.rs:113-144); the outer `none` is a panic. -/
def Osb.shw (version : Nat) (o : Osb D) : Option (Option Str) :=
  if version < 14 then some none
  else do
    let vars := match o.variables with
      | some vs => [c!"[Variables]\n" ++ join ['\n'] (vs.map Variable.shw)]
      | none => []
    let evs ← match o.events with
      | some es => (Events.shwVars version (o.variables.getD []) es).map fun t => [c!"[Events]\n" ++ t]
      | none => some []
    some (some (join ['\n', '\n'] (vars ++ evs)))

end

end Osu
