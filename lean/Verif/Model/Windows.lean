/-
Paths in a build for Windows. The code of the library is the same (src/osu_file/types.rs:201-247,
src/osu_file/general/mod.rs:24, src/osu_file/events/storyboard/sprites.rs:244-282), `Path` of std is another one (assumed): `\`
separates like `/`, and a letter with a colon at the start is a drive. Paths that start with two separators (network, device
and verbatim paths such as `\\server\share`, `\\?\C:`) have other prefixes, which are not modelled: the definitions below are
those of the code only for the other paths.
-/
import Verif.Model.Paths
import Verif.Model.Constructors

namespace Osu
open SB

/-- `is_sep_byte` (std, Windows). -/
def winSep (c : Char) : Bool := c = '/' || c = '\\'

/-- The parts of a text between separators. -/
def splitWin : Str → List Str
  | [] => [[]]
  | d :: s =>
    if winSep d then [] :: splitWin s
    else match splitWin s with
      | [] => [[d]]
      | l :: ls => (d :: l) :: ls

/-- `parse_drive` (std, Windows): the letter of the drive, in upper case, and the rest of the path. -/
def winDrive : Str → Option Char × Str
  | d :: ':' :: r => if d.isAlpha then (some d.toUpper, r) else (none, d :: ':' :: r)
  | p => (none, p)

/-- What `Path::components` (std, Windows) yields: the drive, and the parts of the rest. -/
structure WinParts where
  drive : Option Char
  parts : PathParts
  deriving DecidableEq, Repr

/-- `Path::components`. -/
def winParts (p : Str) : WinParts :=
  let (d, r) := winDrive p
  ⟨d, r.head?.any winSep, (splitWin r).head? = some c!".", (splitWin r).filter fun x => x ≠ [] ∧ x ≠ c!"."⟩

/-- `==` of paths. -/
def winEq (p q : Str) : Bool := winParts p = winParts q

/-- `Path::file_name`: the last component, if it is a name other than `..`. -/
def winFileName (p : Str) : Option Str :=
  match (winParts p).parts.names.getLast? with
  | none => none
  | some x => if x = c!".." then none else some x

/-- `Path::is_absolute`: there is a drive and a separator after it. -/
def winAbsolute (p : Str) : Bool := (winParts p).drive.isSome && (winParts p).parts.root

/-- `Animation::frame_file_names` (src/osu_file/events/storyboard/sprites.rs:244-265); `none` is a panic. -/
def frameFileNamesWin (path : Str) (frameCount : Nat) : Option (List Str) :=
  match winFileName path with
  | none => none
  | some name =>
    match extension name with
    | some ext =>
      if endsWith name ('.' :: ext) then
        let stem := name.take (name.length - (ext.length + 1))
        some ((List.range frameCount).map fun i => stem ++ natToStr i ++ '.' :: ext)
      else none
    | none => some ((List.range frameCount).map fun i => name ++ natToStr i)

/-- `Sprite::new` (src/osu_file/events/storyboard/sprites.rs:272-282); `none` is `FilePathNotRelative`. -/
def SB.Sprite.newWin {D : Type} (filepath : FilePath) : Option (ObjectType D) :=
  if winAbsolute filepath then none else some (.sprite filepath)

end Osu
