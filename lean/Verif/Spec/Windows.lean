/-
Specification of paths on Windows: spellings that mean the same, and file names.
-/
import Verif.Spec.Frames

namespace Osu

/-- The characters that separate. -/
def Slash (c : Char) : Prop := c = '/' ∨ c = '\\'

/-- A path that does not start with two separators. -/
def Local (p : Str) : Prop := ∀ c d r, p = c :: d :: r → Slash c → ¬Slash d

/-- The path starts with a drive: a letter and a colon. -/
def OnDrive (p : Str) : Prop := ∃ d r, Char.isAlpha d = true ∧ p = d :: ':' :: r

/-- A change of the spelling of a path. -/
inductive WinStep : Str → Str → Prop
  | slash (a b : Str) : WinStep (a ++ '\\' :: b) (a ++ '/' :: b)
  | double (a b : Str) : WinStep (a ++ '/' :: '/' :: b) (a ++ '/' :: b)
  | dot (a b : Str) : WinStep (a ++ '/' :: '.' :: '/' :: b) (a ++ '/' :: b)
  | lastDot (a : Str) : WinStep (a ++ ['/', '.']) (a ++ ['/'])
  | last (a : Str) (h : a ≠ []) (hd : ∀ d, a = [d, ':'] → Char.isAlpha d = false) : WinStep (a ++ ['/']) a
  | drive (d : Char) (r : Str) (h : Char.isAlpha d = true) : WinStep (d :: ':' :: r) (d.toUpper :: ':' :: r)

/-- Two spellings of a path, none on the way starting with two separators. -/
inductive SameWin : Str → Str → Prop
  | refl (p : Str) : SameWin p p
  | step {p q r : Str} (h : WinStep p q) (hq : Local q) (t : SameWin q r) : SameWin p r
  | back {p q r : Str} (h : WinStep q p) (hq : Local q) (t : SameWin q r) : SameWin p r

/-- What can follow the file name of a path: nothing, or separators and single dots after separators. -/
inductive WinTail : Str → Prop
  | nil : WinTail []
  | slash {c : Char} {t : Str} (hc : Slash c) (h : WinTail t) : WinTail (c :: t)
  | dot {c : Char} {t : Str} (hc : Slash c) (h : WinTail t) : WinTail (c :: '.' :: t)

/-- What can precede the file name of a path: nothing, a drive, or anything that ends with a separator. -/
inductive WinDir : Str → Str → Prop
  | nil {name : Str} (h : ¬OnDrive name) : WinDir [] name
  | drive {d : Char} {name : Str} (h : Char.isAlpha d = true) : WinDir [d, ':'] name
  | dir {c : Char} {a name : Str} (hc : Slash c) : WinDir (a ++ [c]) name

/-- `path` is a directory, a name and a tail. -/
inductive NamedWin : Str → Str → Prop
  | mk {dir name tail : Str} (hd : WinDir dir name) (hn : ∀ c ∈ name, ¬Slash c) (h0 : name ≠ [])
      (h1 : name ≠ c!".") (h2 : name ≠ c!"..") (ht : WinTail tail) : NamedWin (dir ++ name ++ tail) name

end Osu
