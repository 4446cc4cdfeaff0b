/-
The orders of the limited numbers: `#[derive(PartialOrd, Ord)]`, which compares the field; `None` is below every `Some` (std).
-/
import Verif.Model.HitObjects
import Verif.Model.TimingPoints

namespace Osu

/-- `Ord for ComboSkipCount` (src/osu_file/hitobjects/types.rs:22-23). -/
def HO.ComboSkipCount.cmp (a b : HO.ComboSkipCount) : Ordering := compare a.val b.val

/-- `Ord for Volume` of hit samples (src/osu_file/hitobjects/types.rs:200-202). -/
def HO.Volume.cmp (a b : HO.Volume) : Ordering :=
  match a.val, b.val with
  | none, none => .eq
  | none, some _ => .lt
  | some _, none => .gt
  | some x, some y => compare x y

/-- `Ord for Volume` of timing points (src/osu_file/timingpoints/types.rs:204-205). -/
def TP.Volume.cmp (a b : TP.Volume) : Ordering := compare a.val b.val

end Osu
