/-
`src/osu_file/editor/mod.rs`.
-/
import Verif.Model.General

namespace Osu

/-- The fields of `Editor` (src/osu_file/editor/mod.rs:65-80). -/
inductive EKey where
  | bookmarks | distanceSpacing | beatDivisor | gridSize | timelineZoom | currentTime
  deriving DecidableEq, Repr

/-- Field order of the struct (src/osu_file/editor/mod.rs:65-80). -/
def EKey.all : List EKey :=
  [.bookmarks, .distanceSpacing, .beatDivisor, .gridSize, .timelineZoom, .currentTime]

/-- Field type names (src/osu_file/editor/mod.rs:65-80). -/
def EKey.name : EKey → Str
  | bookmarks => c!"Bookmarks"
  | distanceSpacing => c!"DistanceSpacing"
  | beatDivisor => c!"BeatDivisor"
  | gridSize => c!"GridSize"
  | timelineZoom => c!"TimelineZoom"
  | currentTime => c!"CurrentTime"

/-- Wrapped types (src/osu_file/editor/mod.rs:15-63). -/
@[reducible] def EKey.Val (D : Type) : EKey → Type
  | bookmarks => List Int32
  | distanceSpacing => Decimal D
  | beatDivisor => Decimal D
  | gridSize => Int32
  | timelineZoom => Decimal D
  | currentTime => Int32

/-- `from_str` of each field type (src/osu_file/editor/mod.rs:15-63). -/
def EKey.parse {D : Type} [DecLib D] : (k : EKey) → Nat → Str → Res FieldErr (Option (k.Val D))
  | bookmarks, _, s => parseBookmarks s >>= fun l => .ok (some l)
  | distanceSpacing, _, s => decField s
  | beatDivisor, _, s => decField s
  | gridSize, _, s => intField s
  | timelineZoom, _, s => decField s
  | currentTime, _, s => intField s

/-- `to_string` of each field type (src/osu_file/editor/mod.rs:15-63). -/
def EKey.shw {D : Type} [DecLib D] : (k : EKey) → Nat → k.Val D → Option Str
  | bookmarks, _, x => some (bookmarksToStr x)
  | distanceSpacing, _, x => some (Decimal.toStr x)
  | beatDivisor, _, x => some (Decimal.toStr x)
  | gridSize, _, x => some (i32ToStr x)
  | timelineZoom, _, x => some (Decimal.toStr x)
  | currentTime, v, x => if v ≠ 10 then none else some (i32ToStr x)

/-- The `Editor` section (src/osu_file/editor/mod.rs:65-83), spacing `" "`. -/
def Editor (D : Type) [DecLib D] : Schema where
  Key := EKey
  keys := EKey.all
  name := EKey.name
  Val := EKey.Val D
  Err := FieldErr
  parse := EKey.parse
  shw := EKey.shw
  spacing := fun _ _ => [' ']

end Osu
