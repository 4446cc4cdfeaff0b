/-
Results of library calls: a value, an error value, or a panic.
-/
import Verif.Basic.Str

namespace Osu

/-- Result of a Rust call: `Ok`, `Err`, or a panic (unwinding). -/
inductive Res (ε : Type) (α : Type) where
  | ok (a : α)
  | err (e : ε)
  | panic
  deriving DecidableEq, Repr

namespace Res
variable {ε ε' α β : Type}

def bind (r : Res ε α) (f : α → Res ε β) : Res ε β :=
  match r with
  | ok a => f a
  | err e => err e
  | panic => panic

instance : Monad (Res ε) where
  pure := ok
  bind := bind

def mapErr (f : ε → ε') : Res ε α → Res ε' α
  | ok a => ok a
  | err e => err (f e)
  | panic => panic

def isOk : Res ε α → Bool
  | ok _ => true
  | _ => false

def isErr : Res ε α → Bool
  | err _ => true
  | _ => false

@[simp] theorem bind_ok (a : α) (f : α → Res ε β) : (ok a >>= f) = f a := rfl
@[simp] theorem bind_err (e : ε) (f : α → Res ε β) : (err e >>= f) = err e := rfl
@[simp] theorem bind_panic (f : α → Res ε β) : ((panic : Res ε α) >>= f) = panic := rfl
@[simp] theorem pure_eq (a : α) : (pure a : Res ε α) = ok a := rfl
@[simp] theorem mapErr_ok (f : ε → ε') (a : α) : mapErr f (ok a) = ok a := rfl
@[simp] theorem mapErr_err (f : ε → ε') (e : ε) : (mapErr f (err e) : Res ε' α) = err (f e) := rfl
@[simp] theorem mapErr_panic (f : ε → ε') : (mapErr f (panic : Res ε α)) = panic := rfl

end Res

/-- `Error<E>` of src/osu_file/types.rs:39-44: an error with a line index (`usize` as `Nat`). -/
structure LErr (E : Type) where
  line : Nat
  error : E
  deriving DecidableEq, Repr

/-- `Error::processing_line` (src/osu_file/types.rs:132-143): adds the section's offset to the index
and converts the error. (`usize` addition; overflow is not modelled, a text has fewer than 2^64 lines.) -/
def processingLine {E E2 α : Type} (into : E → E2) (r : Res (LErr E) α) (k : Nat) : Res (LErr E2) α :=
  r.mapErr fun e => ⟨e.line + k, into e.error⟩

/-- `Error::new_from_result_into` (src/osu_file/types.rs:94-105). -/
def newFromResultInto {E E2 α : Type} (into : E → E2) (r : Res E α) (k : Nat) : Res (LErr E2) α :=
  r.mapErr fun e => ⟨k, into e⟩

end Osu
