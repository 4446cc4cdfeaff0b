/-
Splitting a file into sections: `square_section` of `src/parsers.rs` and the code shared by
`src/osu_file/mod.rs` and `src/osu_file/osb/mod.rs`.
-/
import Verif.Basic.Nom

namespace Osu

/-- One result `(ws, name, ws, content)` of `square_section`. -/
structure Sect where
  ws : Str
  name : Str
  ws2 : Str
  body : Str
  deriving DecidableEq, Repr

open Parser in
/-- `square_section` (src/parsers.rs:136-145). -/
def squareSection : Parser Unit Sect :=
  multispace0.bind fun ws =>
  (delimited (tag ['[']) (takeTill fun c => c == ']' || c == '\n') (tag [']'])).bind fun name =>
  multispace0.bind fun ws2 =>
  (alt [takeUntil ['\n', '['], rest]).bind fun body =>
  ret ⟨ws, name, ws2, body⟩

/-- The condition of the `take_while` for the lines before the first section
(src/osu_file/mod.rs:208-211, src/osu_file/osb/mod.rs:29-32). -/
def isPreLine (l : Str) : Bool :=
  let l := trim l
  !startsWith (trim l) ['['] && !endsWith (trim l) [']']

/-- `pre_section_count` (src/osu_file/mod.rs:206-212, src/osu_file/osb/mod.rs:27-33). -/
def preCount (s : Str) : Nat := ((lines s).takeWhile isPreLine).length

/-- The loop over the lines before the first section (src/osu_file/mod.rs:214-226,
src/osu_file/osb/mod.rs:35-47): the index of the first unexpected line, if any. -/
def preBad : Nat → List Str → Option Nat
  | _, [] => none
  | n, l :: ls =>
    let l := trim l
    if l = [] then preBad (n + 1) ls
    else if startsWith l ['/', '/'] then preBad (n + 1) ls
    else some n

/-- The text from the first section on (src/osu_file/mod.rs:228-232, src/osu_file/osb/mod.rs:49-53). -/
def sectionText (s : Str) : Str := join ['\n'] ((lines s).drop (preCount s))

/-- The loop over the sections (src/osu_file/mod.rs:251-305, src/osu_file/osb/mod.rs:64-106). `handle` is the
`match section_name`, given the name, the content and the line number, `none` for `_`; `count` is the last
statement, given the line number and the number of lines, `none` for a panic. `seen` is `section_parsed`. -/
def sectionLoop {σ E : Type} (dup unknown : E) (handle : σ → Str → Str → Nat → Option (Res (LErr E) σ))
    (count : Nat → Nat → Option Nat) : List Sect → (line : Nat) → (seen : List Str) → σ → Res (LErr E) σ
  | [], _, _, st => .ok st
  | x :: xs, line, seen, st =>
    let nameLine := line + (lines x.ws).length
    if x.name ∈ seen then .err ⟨nameLine, dup⟩
    else
      let line := nameLine + (lines x.ws2).length
      match handle st x.name x.body line with
      | none => .err ⟨nameLine, unknown⟩
      | some (.err e) => .err e
      | some .panic => .panic
      | some (.ok st') =>
        match count line (lines x.body).length with
        | none => .panic
        | some line => sectionLoop dup unknown handle count xs line (seen ++ [x.name]) st'

end Osu
