/-
Specification of splitting a text at a separator character.
-/
import Verif.Basic.Str

namespace Osu

/-- Split at every `c`; never empty (`"1,,2"` gives `["1", "", "2"]`, `""` gives `[""]`). -/
def splitOnC (c : Char) : Str → List Str
  | [] => [[]]
  | d :: s =>
    if d = c then [] :: splitOnC c s
    else match splitOnC c s with
      | [] => [[d]]
      | l :: ls => (d :: l) :: ls

example : splitOnC ',' c!"1,,23" = [c!"1", c!"", c!"23"] := by decide

end Osu
