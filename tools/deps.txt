import Lean.Elab.Command
import Verif
open Lean Elab Command
def usedOf (e : Environment) (n : Name) : List Name :=
  match e.find? n with
  | none => []
  | some c =>
    c.type.getUsedConstants.toList ++ (match c.value? (allowOpaque := true) with
      | some v => v.getUsedConstants.toList
      | none => [])
run_cmd do
  let e ← getEnv
  let mut out : Array String := #[]
  for (n, c) in e.constants.map₁.toList do
    if (n.toString.startsWith "Osu.") then
      let u := (usedOf e n).filter fun m => m.toString.startsWith "Osu."
      out := out.push (n.toString ++ "\t" ++ (if c matches .thmInfo _ then "T" else "D") ++ "\t" ++ " ".intercalate (u.map toString))
  IO.FS.writeFile "/tmp/mut/deps.tsv" ("\n".intercalate out.toList)
