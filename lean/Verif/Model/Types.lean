/-
`src/osu_file/types.rs`: file paths (the error type is in `Verif.Model.Error`).
-/
import Verif.Basic.Dec

namespace Osu

/-- `FilePath` (src/osu_file/types.rs:201-203). A `PathBuf`, modelled as its text. Simplified: paths are
compared as text here, `PathBuf` compares components (`a//b == a/b`), so equality here is finer. -/
abbrev FilePath := Str

/-- `FilePath::to_string` (src/osu_file/types.rs:220-239), always `Some`. -/
def FilePath.toStr (p : FilePath) : Str :=
  let quotes := contains [' '] p && !(startsWith p ['"'] && endsWith p ['"'])
  if quotes then '"' :: (p ++ ['"']) else p

end Osu
