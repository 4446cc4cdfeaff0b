/-
The line loop shared by Colours, TimingPoints and HitObjects.
-/
import Verif.Basic.Nom

namespace Osu

/-- `for (line_index, s) in s.lines().enumerate() { if s.trim().is_empty() { continue; } v.push(parse(s)?) }`
with the error placed at the line (`Error::new_from_result_into`):
src/osu_file/colours/mod.rs:33-43, src/osu_file/timingpoints/mod.rs:33-42,
src/osu_file/hitobjects/mod.rs:39-48. `n` is the index of the first line of the list. -/
def lineLoop {E α : Type} (f : Str → Res E α) : Nat → List Str → Res (LErr E) (List α)
  | _, [] => .ok []
  | n, l :: ls =>
    if trim l = [] then lineLoop f (n + 1) ls
    else
      match f l with
      | .err e => .err ⟨n, e⟩
      | .panic => .panic
      | .ok a =>
        match lineLoop f (n + 1) ls with
        | .ok as => .ok (a :: as)
        | .err e => .err e
        | .panic => .panic

/-- The loop over all lines of a section text. -/
def parseLines {E α : Type} (f : Str → Res E α) (s : Str) : Res (LErr E) (List α) := lineLoop f 0 (lines s)

/-- `v.iter().filter_map(|x| x.to_string(version)).collect::<Vec<_>>().join("\n")`
(src/osu_file/colours/mod.rs:55-61, src/osu_file/timingpoints/mod.rs:61-71,
src/osu_file/hitobjects/mod.rs:54-64); the printers of these types always return `Some`. -/
def printLines {α : Type} (shw : α → Str) (l : List α) : Str := join ['\n'] (l.map shw)

/-- The same when printing an item may panic (`none`). -/
def printLinesP {α : Type} (shw : α → Option Str) (l : List α) : Option Str :=
  (l.mapM shw).map (join ['\n'])

end Osu
