/-
Model of `osu_str_trimmer` and `osu_str_eq` (src/lib.rs:41-143).
-/
import Verif.Basic.Str

namespace Osu.Trimmer

/-- Insertion into a sorted list. The order `≤` on `List Char` is the lexicographic order by code points, which is the
order of the UTF-8 bytes that `String` is compared by. -/
def insertStr (x : Str) : List Str → List Str
  | [] => [x]
  | y :: ys => if x ≤ y then x :: y :: ys else y :: insertStr x ys

/-- `Vec<String>::sort` (src/lib.rs:53): equal texts cannot be told apart, so only the order matters. -/
def sortStrs : List Str → List Str
  | [] => []
  | x :: xs => insertStr x (sortStrs xs)

/-- `section_values_sort_and_push` (src/lib.rs:51-55): the new builder; the inner list is empty afterwards. -/
def sortAndPush (inner builder : List Str) : List Str := builder ++ sortStrs inner

/-- The `filter` closure over the characters of a line with a colon (src/lib.rs:95-109), with its two flags. -/
def filterLine (header value : Bool) : Str → Str
  | [] => []
  | c :: s =>
    if !header && !value && c == ':' then c :: filterLine false true s
    else if header && isWs c then filterLine header value s
    else c :: filterLine header value s

/-- The local variables of the loop (src/lib.rs:45-49). -/
structure State where
  builder : List Str
  inner : List Str
  inSections : Bool
  firstLine : Bool
  coloned : Bool

/-- `line.starts_with('[') && line.ends_with(']')` (src/lib.rs:65, 83). -/
def isHeader (line : Str) : Bool := startsWith line c!"[" && endsWith line c!"]"

/-- One round of the loop (src/lib.rs:57-122). -/
def step (st : State) (rawLine : Str) : State :=
  let line := replace ['\uFEFF'] [] (trim rawLine)
  if line.isEmpty then st
  else if !st.inSections then
    if isHeader line then { st with inSections := true, builder := st.builder ++ [line] }
    else
      { st with
        builder := if st.firstLine && startsWith line c!"osu file format v" then st.builder ++ [line] else st.builder
        firstLine := false }
  else if isHeader line then
    { st with builder := sortAndPush st.inner st.builder ++ [line], inner := [], coloned := true }
  else if contains c!":" line then
    let line := filterLine true false line
    if st.coloned then { st with inner := st.inner ++ [line] } else { st with builder := st.builder ++ [line] }
  else { st with coloned := false, builder := st.builder ++ st.inner ++ [line], inner := [] }

/-- `osu_str_trimmer` (src/lib.rs:44-127). -/
def osuStrTrimmer (s : Str) : Str :=
  let st := (lines s).foldl step ⟨[], [], false, true, true⟩
  join ['\n'] (sortAndPush st.inner st.builder)

/-- `osu_str_eq` (src/lib.rs:130-135). -/
def osuStrEq (left right : Str) : Bool := osuStrTrimmer left == osuStrTrimmer right

end Osu.Trimmer
