/-
Equality of file paths: `PartialEq` of `FilePath` (src/osu_file/types.rs:201-203, derived) and of `AudioFilename`
(src/osu_file/general/mod.rs:24) is that of `PathBuf`, which compares the components of the paths (std, Unix; assumed).
-/
import Verif.Model.Sprites

namespace Osu
open SB

/-- What `Path::components` (std, Unix) yields: whether there is a root, whether there is a `.` at the start, and the names
(`..` among them). Empty parts are left out, and `.` anywhere else. -/
structure PathParts where
  root : Bool
  here : Bool
  names : List Str
  deriving DecidableEq, Repr

/-- `Path::components`. -/
def pathParts (p : Str) : PathParts :=
  ⟨startsWith p ['/'], (splitOnC '/' p).head? = some c!".", (splitOnC '/' p).filter fun x => x ≠ [] ∧ x ≠ c!"."⟩

/-- `==` of paths. -/
def pathEq (p q : Str) : Bool := pathParts p = pathParts q

/-- `==` of objects (src/osu_file/events/storyboard/sprites.rs:236-242, 267-270, 284-289, derived), for the types of objects;
`eq` is that of `rust_decimal`. -/
def SB.ObjectType.same {D : Type} (eq : D → D → Bool) : ObjectType D → ObjectType D → Bool
  | .sprite p, .sprite q => pathEq p q
  | .animation n d l p, .animation n' d' l' p' => decide (n = n') && eq d d' && decide (l = l') && pathEq p p'
  | _, _ => false

end Osu
