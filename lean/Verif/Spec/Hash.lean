/-
A hasher: any state, changed in any way by the calls.
-/
import Verif.Model.Hash

namespace Osu

/-- `Hasher` of std: how a call changes the state, and the hash in the end. -/
structure AnyHasher (D : Type) where
  State : Type
  init : State
  call : State → HCall D → State
  finish : State → UInt64

/-- The hash made of calls. -/
def AnyHasher.hash {D : Type} (h : AnyHasher D) (calls : List (HCall D)) : UInt64 := h.finish (calls.foldl h.call h.init)

end Osu
