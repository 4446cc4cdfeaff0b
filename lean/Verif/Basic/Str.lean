/-
Text primitives of Rust's `str`, over `List Char`.

These model the parts of Rust's standard library that the crate calls
(`str::lines`, `trim`, `join`, `contains`, `replace`, `char::is_whitespace`).
The standard library is outside /repo; its documented behaviour is assumed (DESIGN.md section 3).
-/

namespace Osu

/-- Text: a list of Unicode scalar values, as in a Rust `str`. -/
abbrev Str := List Char

/-- `c!"abc"` is the text `['a', 'b', 'c']`. -/
syntax:max "c!" str : term

macro_rules
  | `(c! $s:str) => do
    let cs := s.getString.toList.map fun c => Lean.Syntax.mkCharLit c
    `(([$(cs.toArray),*] : List Char))

/-- Rust `char::is_whitespace`: the Unicode `White_Space` property. -/
def isWs (c : Char) : Bool :=
  let n := c.toNat
  (9 ≤ n && n ≤ 13) || n == 32 || n == 0x85 || n == 0xA0 || n == 0x1680 ||
  (0x2000 ≤ n && n ≤ 0x200A) || n == 0x2028 || n == 0x2029 || n == 0x202F || n == 0x205F || n == 0x3000

/-- `str::trim_start`. -/
def trimStart (s : Str) : Str := s.dropWhile isWs

/-- `str::trim_end`. -/
def trimEnd (s : Str) : Str := (s.reverse.dropWhile isWs).reverse

/-- `str::trim`. -/
def trim (s : Str) : Str := trimEnd (trimStart s)

/-- Split at every `'\n'`; the result is never empty (`"a\n"` gives `["a", ""]`). -/
def splitNL : Str → List Str
  | [] => [[]]
  | c :: s =>
    if c = '\n' then [] :: splitNL s
    else match splitNL s with
      | [] => [[c]]
      | l :: ls => (c :: l) :: ls

/-- Remove one trailing carriage return. -/
def stripCR (l : Str) : Str := if l.getLast? = some '\r' then l.dropLast else l

/-- `lines`, given the pieces between line feeds. -/
def linesOf : List Str → List Str
  | [] => []
  | [l] => if l = [] then [] else [l]
  | l :: l' :: ls => stripCR l :: linesOf (l' :: ls)

/-- Rust `str::lines`: lines end at `\n` or `\r\n`; a final line ending is optional and does not
start a further line; a bare `\r` at the very end of the text is kept. -/
def lines (s : Str) : List Str := linesOf (splitNL s)

/-- Rust `[T]::join(sep)`. -/
def join (sep : Str) : List Str → Str
  | [] => []
  | [x] => x
  | x :: y :: r => x ++ sep ++ join sep (y :: r)

/-- `str::starts_with`. -/
def startsWith (s pat : Str) : Bool := pat.isPrefixOf s

/-- `str::ends_with`. -/
def endsWith (s pat : Str) : Bool := pat.isSuffixOf s

/-- `str::strip_prefix`. -/
def stripPrefix (pat s : Str) : Option Str :=
  if pat.isPrefixOf s then some (s.drop pat.length) else none

/-- `str::contains(&str)`. -/
def contains (pat : Str) : Str → Bool
  | [] => pat.isEmpty
  | c :: s => pat.isPrefixOf (c :: s) || contains pat s

/-- `str::replace` for a non-empty pattern; `k` counts characters of a match still to be skipped. -/
def replaceAux (pat to : Str) : Nat → Str → Str
  | _, [] => []
  | k + 1, _ :: s => replaceAux pat to k s
  | 0, c :: s =>
    if pat.isPrefixOf (c :: s) then to ++ replaceAux pat to (pat.length - 1) s
    else c :: replaceAux pat to 0 s

/-- `str::replace(pat, to)`: left to right, non overlapping; the empty pattern matches at every
character boundary. -/
def replace (pat to s : Str) : Str :=
  if pat.isEmpty then to ++ s.flatMap (fun c => c :: to)
  else replaceAux pat to 0 s

/-- UTF-8 length in bytes (`str::len`). -/
def byteLen (s : Str) : Nat := (s.map Char.utf8Size).sum

/-- `" ".repeat(n)`. -/
def spaces (n : Nat) : Str := List.replicate n ' '

end Osu
