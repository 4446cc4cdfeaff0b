/-
`src/osu_file/types.rs`: messages of errors with a line index.
-/
import Verif.Basic.Num

namespace Osu

/-- `Display for Error<E>` (src/osu_file/types.rs:156-163); `shw` is `Display` of the inner error. (`usize` addition;
overflow is not modelled.) -/
def LErr.shw {E : Type} (shw : E → Str) (e : LErr E) : Str :=
  c!"Line " ++ natToStr (e.line + 1) ++ c!", " ++ shw e.error

/-- `Error::display_error_with_line` (src/osu_file/types.rs:56-63). -/
def LErr.shwWithLine {E : Type} (shw : E → Str) (e : LErr E) (input : Str) : Str :=
  c!"Line " ++ natToStr (e.line + 1) ++ c!": " ++ (lines input)[e.line]?.getD [] ++ c!", " ++ shw e.error

/-- `Error::new_from_result` (src/osu_file/types.rs:83-90). -/
def newFromResult {E α : Type} (r : Res E α) (k : Nat) : Res (LErr E) α := r.mapErr fun e => ⟨k, e⟩

/-- `Error::error_into`, `Error::error_result_into` (src/osu_file/types.rs:107-127). -/
def errorResultInto {E E2 α : Type} (into : E → E2) (r : Res (LErr E) α) : Res (LErr E2) α :=
  r.mapErr fun e => ⟨e.line, into e.error⟩

end Osu
