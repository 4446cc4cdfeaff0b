/-
Specification of a sequence of flag operations: what each bit is at the end.
-/

namespace Osu

/-- The value a sequence of optional settings ends with. -/
def lastSet {α : Type} (init : Bool) (get : α → Option Bool) : List α → Bool
  | [] => init
  | o :: os => lastSet ((get o).getD init) get os

end Osu
