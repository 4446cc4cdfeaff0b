import Verif.Proof.Dec96
import Verif.Model.OsuFile
import Verif.Model.Messages
open Osu
attribute [local instance] asciiUni

/-- Reads each `.osu` file and prints it again, or appends each `.osb` file to a new file and prints the storyboard; writes the text
to the output directory (the first argument) or prints the error. `NAME@14` sets the version to 14 before printing. -/
def main (args : List String) : IO UInt32 := do
  let dir :: files := args | return 1
  for arg in files do
    let (a, version) := match arg.splitOn "@" with
      | [a, v] => (a, v.toNat?)
      | _ => (arg, none)
    let cs := (← IO.FS.readFile a).toList
    let name := (System.FilePath.fileName arg).getD "x"
    let put (t : Str) : IO Unit := do
      IO.FS.writeFile (dir ++ "/" ++ name) (String.ofList t)
      IO.println s!"{name}\tok"
    if a.endsWith ".osb" then
      let (g, r) := (OsuFile.new 14 : OsuFile Dec96).appendOsb cs
      match r with
      | .ok _ => match g.osbToStr with
        | some (some t) => put t
        | _ => IO.println s!"{name}\tnot printed"
      | .err e => IO.println s!"{name}\t{String.ofList (e.shw OsbErr.msg)}"
      | .panic => IO.println s!"{name}\tpanic"
    else
      match (OsuFile.parse cs : Res _ (OsuFile Dec96)) with
      | .ok f =>
        match ({ f with version := version.getD f.version }).shw with
        | some t => put t
        | none => IO.println s!"{name}\tnot printed"
      | .err e => IO.println s!"{name}\t{String.ofList (e.shw FileErr.msg)}"
      | .panic => IO.println s!"{name}\tpanic"
  return 0
