/-
The constructors, the derived quantities, the getters and the setters of a timing point
(`src/osu_file/timingpoints/mod.rs:95-261`).
-/
import Verif.Model.TimingPoints
import Verif.Basic.DecArith

namespace Osu
namespace TimingPoint
variable {D : Type} [DecLib D]

section
variable [DecArith D]
open DecArith

/-- `TimingPoint::beat_duration_ms_to_bpm` (src/osu_file/timingpoints/mod.rs:97-101). `none` is a panic of
rust_decimal. -/
def beatDurationMsToBpm (d : D) : Option D := (div (ofI32 1) d).bind fun q => mul q (ofI32 60000)

/-- `TimingPoint::bpm_to_beat_duration_ms` (src/osu_file/timingpoints/mod.rs:104-106). -/
def bpmToBeatDurationMs (bpm : D) : Option D := (div bpm (ofI32 60000)).bind fun q => div (ofI32 1) q

/-- `From<i32> for Decimal` (src/osu_file/types.rs:329-333). -/
def timeOfInt (n : Int32) : Decimal D := .left (ofI32 n)

/-- `TimingPoint::new_inherited` (src/osu_file/timingpoints/mod.rs:109-130). -/
def newInherited (time : Int32) (multiplier : D) (meter : Int32) (ss : TP.SampleSet) (si : TP.SampleIndex)
    (vol : TP.Volume) (eff : TP.Effects) : Option (TimingPoint D) :=
  (div (ofI32 1) multiplier).bind fun q =>
  (mul q (ofI32 (-100))).map fun b =>
    ⟨timeOfInt time, .left b, meter, ss, si, vol, some false, some eff⟩

/-- `TimingPoint::new_uninherited` (src/osu_file/timingpoints/mod.rs:133-152). -/
def newUninherited (time : Int32) (beatDurationMs : Decimal D) (meter : Int32) (ss : TP.SampleSet)
    (si : TP.SampleIndex) (vol : TP.Volume) (eff : TP.Effects) : TimingPoint D :=
  ⟨timeOfInt time, beatDurationMs, meter, ss, si, vol, some true, some eff⟩

/-- `TimingPoint::calc_bpm` (src/osu_file/timingpoints/mod.rs:156-170). The outer `none` is a panic of
rust_decimal, the inner one the result `None`. -/
def calcBpm (t : TimingPoint D) : Option (Option D) :=
  match t.uninherited with
  | some u =>
    if u then
      match t.beatLength with
      | .left value => (beatDurationMsToBpm value).map some
      | .right _ => some none
    else some none
  | none => some none

/-- `TimingPoint::calc_slider_velocity_multiplier` (src/osu_file/timingpoints/mod.rs:173-189). -/
def calcMultiplier (t : TimingPoint D) : Option (Option D) :=
  match t.uninherited with
  | some u =>
    if u then some none
    else
      match t.beatLength with
      | .left value => ((div value (ofI32 (-100))).bind fun q => div (ofI32 1) q).map some
      | .right _ => some none
  | none => some none

/-- `TimingPoint::set_time` (src/osu_file/timingpoints/mod.rs:198-200). -/
def setTime (n : Int32) (t : TimingPoint D) : TimingPoint D := { t with time := timeOfInt n }

end

omit [DecLib D]

/-- `TimingPoint::set_meter` (src/osu_file/timingpoints/mod.rs:208-210). -/
def setMeter (n : Int32) (t : TimingPoint D) : TimingPoint D := { t with meter := n }

/-- `TimingPoint::set_sample_set` (src/osu_file/timingpoints/mod.rs:218-220). -/
def setSampleSet (s : TP.SampleSet) (t : TimingPoint D) : TimingPoint D := { t with sampleSet := s }

/-- Writing through `TimingPoint::sample_index_mut` (src/osu_file/timingpoints/mod.rs:228-230). -/
def setSampleIndex (i : TP.SampleIndex) (t : TimingPoint D) : TimingPoint D := { t with sampleIndex := i }

/-- `TimingPoint::set_volume` (src/osu_file/timingpoints/mod.rs:238-240). -/
def setVolume (v : TP.Volume) (t : TimingPoint D) : TimingPoint D := { t with volume := v }

/-- `TimingPoint::uninherited` (src/osu_file/timingpoints/mod.rs:243-245). -/
def isUninherited (t : TimingPoint D) : Bool := t.uninherited.getD true

/-- `TimingPoint::set_uninherited` (src/osu_file/timingpoints/mod.rs:248-250). -/
def setUninherited (u : Bool) (t : TimingPoint D) : TimingPoint D := { t with uninherited := some u }

/-- Writing through `TimingPoint::effects_mut` (src/osu_file/timingpoints/mod.rs:258-260). -/
def setEffects (e : Option TP.Effects) (t : TimingPoint D) : TimingPoint D := { t with effects := e }

end TimingPoint
end Osu
