/-
`src/osu_file/timingpoints/mod.rs` and `src/osu_file/timingpoints/types.rs`.
-/
import Verif.Model.Lines
import Verif.Basic.Dec

namespace Osu
namespace TP

/-- `SampleSet` (src/osu_file/timingpoints/types.rs:6-20). -/
inductive SampleSet where
  | beatmapDefault | normal | soft | drum
  | other (n : Int32)
  deriving DecidableEq, Repr

/-- `VersionedFrom<Integer> for SampleSet` (src/osu_file/timingpoints/types.rs:22-34), always `Some`. -/
def SampleSet.ofInt (n : Int32) : SampleSet :=
  if n = 0 then .beatmapDefault else if n = 1 then .normal else if n = 2 then .soft
  else if n = 3 then .drum else .other n

/-- `VersionedFrom<SampleSet> for Integer` (src/osu_file/timingpoints/types.rs:36-48), always `Some`. -/
def SampleSet.toInt : SampleSet → Int32
  | beatmapDefault => 0 | normal => 1 | soft => 2 | drum => 3 | other n => n

/-- `SampleSet::from_str` (src/osu_file/timingpoints/types.rs:50-59). -/
def SampleSet.parse (s : Str) : Res IntErr SampleSet := (parseI32 s).bind fun n => .ok (.ofInt n)

/-- `SampleSet::to_string` (src/osu_file/timingpoints/types.rs:61-69). -/
def SampleSet.shw (x : SampleSet) : Str := i32ToStr x.toInt

/-- `Effects` (src/osu_file/timingpoints/types.rs:75-76). -/
structure Effects where
  bits : UInt32
  deriving DecidableEq, Repr

namespace Effects

/-- `Effects::from_str` (src/osu_file/timingpoints/types.rs:78-90). -/
def parse (s : Str) : Res IntErr Effects := (parseU32 s).bind fun n => .ok ⟨n⟩

/-- `Effects::to_string` (src/osu_file/timingpoints/types.rs:98-102). -/
def shw (e : Effects) : Str := u32ToStr e.bits

/-- `clear_unused_bits` (src/osu_file/timingpoints/types.rs:107-109). -/
def clearUnusedBits (e : Effects) : Effects := ⟨e.bits &&& 9⟩

/-- `kiai_time_enabled` (src/osu_file/timingpoints/types.rs:111-113). -/
def kiai (e : Effects) : Bool := e.bits &&& 1 == 1

/-- `no_first_barline_in_taiko_mania` (src/osu_file/timingpoints/types.rs:115-117). -/
def noBarline (e : Effects) : Bool := e.bits &&& 8 == 8

/-- `set_kiai_time_enabled` (src/osu_file/timingpoints/types.rs:119-125). -/
def setKiai (e : Effects) (v : Bool) : Effects := if v then ⟨e.bits ||| 1⟩ else ⟨e.bits &&& ~~~ 1⟩

/-- `set_no_first_barline_in_taiko_mania` (src/osu_file/timingpoints/types.rs:127-133). -/
def setNoBarline (e : Effects) (v : Bool) : Effects := if v then ⟨e.bits ||| 8⟩ else ⟨e.bits &&& ~~~ 8⟩

/-- `Effects::new` (src/osu_file/timingpoints/types.rs:135-144). -/
def new (kiai noBarline : Bool) : Effects :=
  let e : UInt32 := 0
  let e := if kiai then e ||| 1 else e
  let e := if noBarline then e ||| 8 else e
  ⟨e⟩

end Effects

/-- `SampleIndex` (src/osu_file/timingpoints/types.rs:148-155). `Index` holds a `NonZeroU32`; the type
invariant is `SampleIndex.Valid`. -/
inductive SampleIndex where
  | osuDefaultHitsounds
  | index (n : UInt32)
  deriving DecidableEq, Repr

/-- The invariant of `NonZeroU32`. -/
def SampleIndex.Valid : SampleIndex → Prop
  | osuDefaultHitsounds => True
  | index n => n ≠ 0

/-- `VersionedFrom<u32> for SampleIndex` (src/osu_file/timingpoints/types.rs:168-178), always `Some`. -/
def SampleIndex.ofU32 (n : UInt32) : SampleIndex := if n = 0 then .osuDefaultHitsounds else .index n

/-- `SampleIndex::from_str` (src/osu_file/timingpoints/types.rs:157-166). -/
def SampleIndex.parse (s : Str) : Res IntErr SampleIndex := (parseU32 s).bind fun n => .ok (.ofU32 n)

/-- `VersionedFrom<SampleIndex> for Integer` (src/osu_file/timingpoints/types.rs:180-189): the cast
`as Integer` wraps. -/
def SampleIndex.toInt : SampleIndex → Int32
  | osuDefaultHitsounds => 0
  | index n => n.toInt32

/-- `SampleIndex::to_string` (src/osu_file/timingpoints/types.rs:191-195). -/
def SampleIndex.shw (x : SampleIndex) : Str := i32ToStr x.toInt

/-- `Volume` (src/osu_file/timingpoints/types.rs:203-205). -/
structure Volume where
  val : Int32
  deriving DecidableEq, Repr

/-- `Volume::from_str` (src/osu_file/timingpoints/types.rs:207-219). -/
def Volume.parse (s : Str) : Res IntErr Volume := (parseI32 s).bind fun n => .ok ⟨n⟩

/-- `Volume::to_string` (src/osu_file/timingpoints/types.rs:227-231). -/
def Volume.shw (v : Volume) : Str := i32ToStr v.val

end TP

/-- `ParseTimingPointError` (src/osu_file/timingpoints/error.rs:13-58). -/
inductive TPErr where
  | invalidTime | missingBeatLength | missingMeter | invalidMeter | missingSampleSet | invalidSampleSet
  | missingSampleIndex | invalidSampleIndex | missingVolume | invalidVolume | missingEffects
  | invalidEffects | missingUninherited | invalidUninherited
  deriving DecidableEq, Repr

/-- `TimingPoint` (src/osu_file/timingpoints/mod.rs:79-93). -/
structure TimingPoint (D : Type) where
  time : Decimal D
  beatLength : Decimal D
  meter : Int32
  sampleSet : TP.SampleSet
  sampleIndex : TP.SampleIndex
  volume : TP.Volume
  uninherited : Option Bool
  effects : Option TP.Effects
  deriving DecidableEq, Repr

namespace TimingPoint
open Parser
variable {D : Type} [DecLib D]

/-- `volume_fallback` (src/osu_file/timingpoints/mod.rs:272). -/
def volumeFallback : TP.Volume := ⟨100⟩

/-- `sample_index_fallback` (src/osu_file/timingpoints/mod.rs:271). -/
def sampleIndexFallback : TP.SampleIndex := .ofU32 1

/-- Uninherited and effects (src/osu_file/timingpoints/mod.rs:370-396). -/
def tailP (version : Nat) : Parser TPErr (Option Bool × Option TP.Effects) :=
  alt [
    (preceded (guardP (version ≤ 5)) (context .invalidUninherited (mapRes rest parseZeroOneBool))).map
      fun u => (some u, none),
    (context .invalidUninherited (mapRes commaField parseZeroOneBool)).bind fun u =>
      (preceded (context .missingEffects comma)
        (context .invalidEffects (restType TP.Effects.parse))).bind fun e =>
      ret (some u, some e)]

/-- Volume and what follows (src/osu_file/timingpoints/mod.rs:341-404). -/
def volumeP (version : Nat) : Parser TPErr (TP.Volume × Option Bool × Option TP.Effects) :=
  alt [
    (preceded (guardP (version ≤ 4)) (context .invalidVolume (cut (restType TP.Volume.parse)))).map
      fun v => (v, none, none),
    (context .invalidVolume (restType TP.Volume.parse)).map fun v => (v, none, none),
    (context .invalidVolume (commaFieldType TP.Volume.parse)).bind fun v =>
      (preceded (context .missingUninherited comma) (tailP version)).bind fun t =>
      ret (v, t.1, t.2)]

/-- Sample index and what follows (src/osu_file/timingpoints/mod.rs:325-412). -/
def indexP (version : Nat) : Parser TPErr (TP.SampleIndex × TP.Volume × Option Bool × Option TP.Effects) :=
  alt [
    (preceded (guardP (version ≤ 4)) (context .invalidSampleIndex (restType TP.SampleIndex.parse))).map
      fun i => (i, volumeFallback, none, none),
    (context .invalidSampleIndex (commaFieldType TP.SampleIndex.parse)).bind fun i =>
      (preceded (context .missingVolume comma) (volumeP version)).bind fun t =>
      ret (i, t)]

/-- Beat length and what follows (src/osu_file/timingpoints/mod.rs:296-430). -/
def bodyP (version : Nat) : Parser TPErr
    (Decimal D × Int32 × TP.SampleSet × TP.SampleIndex × TP.Volume × Option Bool × Option TP.Effects) :=
  alt [
    (preceded (guardP (version ≤ 3)) (restType Decimal.parse)).map
      fun b => (b, 4, .normal, sampleIndexFallback, volumeFallback, none, none),
    (commaFieldType Decimal.parse).bind fun b =>
      (preceded (context .missingMeter comma) (context .invalidMeter (commaFieldType parseI32))).bind fun m =>
      (preceded (context .missingSampleSet comma)
        (context .invalidSampleSet (commaFieldType TP.SampleSet.parse))).bind fun ss =>
      (preceded (context .missingSampleIndex comma) (indexP version)).bind fun t =>
      ret (b, m, ss, t)]

/-- The parser of `TimingPoint::from_str` (src/osu_file/timingpoints/mod.rs:276-431). -/
def parser (version : Nat) : Parser TPErr (TimingPoint D) :=
  (mapP (context .invalidTime (commaFieldType Decimal.parse)) (Decimal.shiftUp version)).bind fun time =>
  (preceded (context .missingBeatLength comma) (bodyP version)).bind fun
    (b, m, ss, i, v, u, e) => ret ⟨time, b, m, ss, i, v, u, e⟩

/-- `TimingPoint::from_str` (src/osu_file/timingpoints/mod.rs:265-444), always `Some` on success. -/
def parse (version : Nat) (s : Str) : Res TPErr (TimingPoint D) := (parser version s).toRes

/-- The fields after the time (src/osu_file/timingpoints/mod.rs:460-478). -/
def tailFields (version : Nat) (t : TimingPoint D) : List Str :=
  [t.beatLength.toStr] ++
  (if version > 3 then [i32ToStr t.meter, t.sampleSet.shw, t.sampleIndex.shw] else []) ++
  (if version > 4 then
    [t.volume.shw] ++
    (match t.uninherited with
      | some u => [boolToStr u]
      | none => if t.effects.isSome then [[]] else []) ++
    (match t.effects with
      | some e => [e.shw]
      | none => [])
   else [])

/-- `TimingPoint::to_string` (src/osu_file/timingpoints/mod.rs:446-482). `none` is the overflow panic of
rust_decimal in `value - 24`. -/
def shw (version : Nat) (t : TimingPoint D) : Option Str :=
  (t.time.toStrShifted version).map fun time => join [','] (time :: tailFields version t)

end TimingPoint

/-- `TimingPoints::from_str` (src/osu_file/timingpoints/mod.rs:27-59). `TimingPoint::from_str` never gives
`Ok(None)`, so the branch on `first()` always yields all points. -/
def TimingPoints.parse {D : Type} [DecLib D] (version : Nat) (s : Str) :
    Res (LErr TPErr) (List (TimingPoint D)) := parseLines (TimingPoint.parse version) s

/-- `TimingPoints::to_string` (src/osu_file/timingpoints/mod.rs:61-71). -/
def TimingPoints.shw {D : Type} [DecLib D] (version : Nat) (l : List (TimingPoint D)) : Option Str :=
  printLinesP (TimingPoint.shw version) l

end Osu
