/-
Specification of the values that cannot be saved: the times that are written 24 lower in versions 3 and 4.
-/
import Verif.Model.OsuFile

namespace Osu
open Ev
variable {D : Type}

/-- The times of an event that are moved in versions 3 and 4. -/
def eventTimes : Event D → List Int32
  | .video x => [x.startTime]
  | .break_ x => [x.startTime, x.endTime]
  | .colourTransformation x => [x.startTime]
  | _ => []

/-- The times of a hit object. -/
def objectTimes (o : HitObject D) : List (Decimal D) :=
  o.time :: match o.params with
    | .spinner e => [e]
    | .hold e => [e]
    | _ => []

/-- The times of the events of a file that are moved in versions 3 and 4. -/
def fileMoments [DecLib D] (f : OsuFile D) : List Int32 := (f.events.getD []).flatMap eventTimes

/-- The times of the timing points and hit objects of a file. -/
def fileClocks [DecLib D] (f : OsuFile D) : List (Decimal D) :=
  (f.timingPoints.getD []).map (·.time) ++ (f.hitobjects.getD []).flatMap objectTimes

/-- A number from which 24 cannot be taken. -/
def Stuck [DecLib D] (x : Decimal D) : Prop := ∃ d, x = .left d ∧ DecLib.sub24 d = none

/-- A time of an event from which 24 cannot be taken: one of the lowest 24. -/
def TooEarly (t : Int32) : Prop := t.toInt < -2147483624

end Osu
