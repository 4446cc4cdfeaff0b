/-
Specification of key/value text, independent of the parser.
-/
import Verif.Proof.Str

namespace Osu

/-- A `key: value` line. -/
structure KVLine where
  key : Str
  ws : Str
  value : Str
  deriving DecidableEq, Repr

/-- The text of the line. -/
def KVLine.text (l : KVLine) : Str := l.key ++ ':' :: (l.ws ++ l.value)

/-- An unindented line: the key has no colon and no line feed and does not begin with white space, the
separator is blanks or tabs, the value has no line break and does not begin with a blank. -/
structure KVLine.OK (l : KVLine) : Prop where
  key : AllC (fun c => !(c == ':' || c == '\n')) l.key
  keyHead : HeadNot Parser.isMultispace l.key
  ws : AllC Parser.isSpace l.ws
  value : AllC (fun c => !(c == '\r' || c == '\n')) l.value
  valueHead : HeadNot Parser.isSpace l.value

/-- Line endings of a text file. -/
def IsEol (e : Str) : Prop := e = ['\n'] ∨ e = ['\r', '\n']

/-- The text of a section made of such lines. -/
def kvText (eol : Str) (ls : List KVLine) : Str := join eol (ls.map KVLine.text)

/-- Any text as `key: value` entries, each with the line breaks and blanks after it, followed by `r`. -/
inductive KVEntries : Str → List (KVLine × Str) → Str → Prop
  | nil (r : Str) : KVEntries r [] r
  | cons {l : KVLine} {gap s : Str} {es : List (KVLine × Str)} {r : Str}
      (hk : AllC (fun c => !(c == ':' || c == '\n')) l.key) (hw : AllC Parser.isSpace l.ws)
      (hv : AllC (fun c => !(c == '\r' || c == '\n')) l.value) (hh : HeadNot Parser.isSpace l.value)
      (hg : AllC Parser.isMultispace gap) (hb : HeadNot (fun c => !(c == '\r' || c == '\n')) gap)
      (hs : HeadNot Parser.isMultispace s) (he : gap = [] → s = []) (h : KVEntries s es r) :
      KVEntries (l.text ++ (gap ++ s)) ((l, gap) :: es) r

/-- The first line of the text has no colon. -/
def NoEntry (r : Str) : Prop := ∀ a b, r = a ++ ':' :: b → '\n' ∈ a

/-- `s` consists of the entries `es` and the rest `r`. -/
def KVSplits (s : Str) (es : List (KVLine × Str)) (r : Str) : Prop := KVEntries s es r ∧ NoEntry r

/-- The number of lines the code counts for the entries. -/
def kvCount (es : List (KVLine × Str)) : Nat := (es.map fun e => (lines e.2).length).sum

end Osu
