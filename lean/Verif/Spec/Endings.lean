/-
Specification of line endings: the same text with LF or CRLF at the end of each line.
-/
import Verif.Basic.Str

namespace Osu

/-- The two texts differ only in whether their lines end with `\n` or `\r\n`; there is no other `\r`. -/
inductive SameText : Str → Str → Prop
  | nil : SameText [] []
  | char {c : Char} {s t : Str} (h1 : c ≠ '\r') (h2 : c ≠ '\n') (h : SameText s t) : SameText (c :: s) (c :: t)
  | feed {e e' s t : Str} (h1 : e = ['\n'] ∨ e = ['\r', '\n']) (h2 : e' = ['\n'] ∨ e' = ['\r', '\n']) (h : SameText s t) :
      SameText (e ++ s) (e' ++ t)

/-- The text with `\r\n` for every `\n`. -/
def toCRLF (s : Str) : Str := s.flatMap fun c => if c = '\n' then ['\r', '\n'] else [c]

end Osu
