/-
Specification of the file names of the frames of an animation.
-/
import Verif.Spec.HitObjects

namespace Osu

/-- What can follow the file name of a path: nothing, or slashes and single dots after slashes. -/
inductive PathTail : Str → Prop
  | nil : PathTail []
  | slash {t : Str} (h : PathTail t) : PathTail ('/' :: t)
  | dot {t : Str} (h : PathTail t) : PathTail ('/' :: '.' :: t)

/-- `path` is a directory (empty or ending with a slash), a name and a tail. -/
inductive NamedPath : Str → Str → Prop
  | mk {dir name tail : Str} (hd : dir = [] ∨ ∃ d, dir = d ++ ['/']) (hn : lacks '/' name) (h0 : name ≠ [])
      (h1 : name ≠ c!".") (h2 : name ≠ c!"..") (ht : PathTail tail) : NamedPath (dir ++ name ++ tail) name

/-- A name and where the number of a frame goes: in front of the last dot, or at the end if there is no dot except
maybe at the start. -/
inductive FrameSlot : Str → Str → Str → Prop
  | ext {stem ext : Str} (hs : stem ≠ []) (he : lacks '.' ext) : FrameSlot (stem ++ '.' :: ext) stem ('.' :: ext)
  | plain {name : Str} (h : lacks '.' name) : FrameSlot name name []
  | hidden {name : Str} (h : lacks '.' name) : FrameSlot ('.' :: name) ('.' :: name) []

end Osu
