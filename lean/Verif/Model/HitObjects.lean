/-
`src/osu_file/hitobjects/mod.rs` and `src/osu_file/hitobjects/types.rs`.
-/
import Verif.Model.Lines
import Verif.Basic.Dec

namespace Osu
namespace HO

/-- `ComboSkipCount` (src/osu_file/hitobjects/types.rs:22-23). -/
structure ComboSkipCount where
  val : UInt8
  deriving DecidableEq, Repr

/-- `VersionedTryFrom<u8> for ComboSkipCount` and `ComboSkipCount::new`
(src/osu_file/hitobjects/types.rs:26-28, 41-52); `none` is `ComboSkipCountTooHigh`. -/
def ComboSkipCount.new (n : UInt8) : Option ComboSkipCount := if n > 7 then none else some ⟨n⟩

/-- `ComboSkipCount::set` (src/osu_file/hitobjects/types.rs:34-38): new value and success. -/
def ComboSkipCount.set (c : ComboSkipCount) (n : UInt8) : ComboSkipCount × Bool :=
  match ComboSkipCount.new n with
  | some c' => (c', true)
  | none => (c, false)

/-- `SampleSet` (src/osu_file/hitobjects/types.rs:140-154). -/
inductive SampleSet where
  | noCustom | normal | soft | drum
  | other (n : UInt64)
  deriving DecidableEq, Repr

/-- `VersionedFrom<SampleSet> for usize` (src/osu_file/hitobjects/types.rs:156-166). -/
def SampleSet.code : SampleSet → UInt64
  | noCustom => 0 | normal => 1 | soft => 2 | drum => 3 | other n => n

/-- The match of `SampleSet::from_str` (src/osu_file/hitobjects/types.rs:187-197). -/
def SampleSet.ofCode (n : UInt64) : SampleSet :=
  if n = 0 then .noCustom else if n = 1 then .normal else if n = 2 then .soft
  else if n = 3 then .drum else .other n

/-- `SampleSet::to_string` (src/osu_file/hitobjects/types.rs:174-182). -/
def SampleSet.shw (x : SampleSet) : Str := usizeToStr x.code

/-- `SampleSet::from_str` (src/osu_file/hitobjects/types.rs:184-198). -/
def SampleSet.parse (s : Str) : Res IntErr SampleSet := (parseUsize s).bind fun n => .ok (.ofCode n)

/-- `ParseColonSetError` (src/osu_file/hitobjects/error.rs:18-30). -/
inductive ColonSetErr where
  | invalidFirstItem | missingSeparator | invalidSecondItem
  deriving DecidableEq, Repr

/-- `EdgeSet` (src/osu_file/hitobjects/types.rs:60-67). -/
structure EdgeSet where
  normalSet : SampleSet
  additionSet : SampleSet
  deriving DecidableEq, Repr

open Parser in
/-- `EdgeSet::from_str` (src/osu_file/hitobjects/types.rs:69-94). -/
def EdgeSet.parse (s : Str) : Res ColonSetErr EdgeSet :=
  let p : Parser ColonSetErr EdgeSet :=
    (terminated (context .invalidFirstItem (mapRes (Parser.takeWhile fun c => !(c == ':')) SampleSet.parse))
      (context .missingSeparator (tag [':']))).bind fun a =>
    (context .invalidFirstItem (restType SampleSet.parse)).bind fun b => ret ⟨a, b⟩
  (p s).toRes

/-- `EdgeSet::to_string` (src/osu_file/hitobjects/types.rs:96-104). -/
def EdgeSet.shw (e : EdgeSet) : Str := e.normalSet.shw ++ [':'] ++ e.additionSet.shw

/-- `CurvePoint` (src/osu_file/hitobjects/types.rs:106-108). -/
structure CurvePoint (D : Type) where
  pos : Position D
  deriving DecidableEq, Repr

section
variable {D : Type} [DecLib D]

open Parser in
/-- `CurvePoint::from_str` (src/osu_file/hitobjects/types.rs:110-132). -/
def CurvePoint.parse (s : Str) : Res ColonSetErr (CurvePoint D) :=
  let p : Parser ColonSetErr (CurvePoint D) :=
    (terminated (context .invalidFirstItem (mapRes (Parser.takeWhile fun c => !(c == ':')) Decimal.parse))
      (context .missingSeparator (tag [':']))).bind fun x =>
    (context .invalidFirstItem (restType Decimal.parse)).bind fun y => ret ⟨⟨x, y⟩⟩
  (p s).toRes

/-- `CurvePoint::to_string` (src/osu_file/hitobjects/types.rs:134-138). -/
def CurvePoint.shw (c : CurvePoint D) : Str := c.pos.x.toStr ++ [':'] ++ c.pos.y.toStr

end

/-- `Volume` (src/osu_file/hitobjects/types.rs:200-202). -/
structure Volume where
  val : Option UInt8
  deriving DecidableEq, Repr

/-- `ParseVolumeError` and `VolumeSetError` (src/osu_file/hitobjects/error.rs:148-169). -/
inductive VolumeErr where
  | tooHigh | tooLow
  | parseInt (e : IntErr)
  deriving DecidableEq, Repr

/-- `Volume::new` (src/osu_file/hitobjects/types.rs:225-237). -/
def Volume.new : Option UInt8 → Res VolumeErr Volume
  | some v => if v = 0 then .err .tooLow else if v > 100 then .err .tooHigh else .ok ⟨some v⟩
  | none => .ok ⟨none⟩

/-- `Volume::set_volume` (src/osu_file/hitobjects/types.rs:246-255): new value and success. -/
def Volume.setVolume (x : Volume) (v : UInt8) : Volume × Bool :=
  if v = 0 then (x, false) else if v > 100 then (x, false) else (⟨some v⟩, true)

/-- `Volume::set_use_timing_point_volume` (src/osu_file/hitobjects/types.rs:263-265). -/
def Volume.setUseTimingPointVolume (_ : Volume) : Volume := ⟨none⟩

/-- `Volume::from_str` (src/osu_file/hitobjects/types.rs:268-278). -/
def Volume.parse (s : Str) : Res VolumeErr Volume :=
  match parseU8 s with
  | .err e => .err (.parseInt e)
  | .panic => .panic
  | .ok v => Volume.new (if v = 0 then none else some v)

/-- `VersionedFrom<Volume> for Integer` (src/osu_file/hitobjects/types.rs:210-219), as text. The value is a
`u8` widened to `i32`. -/
def Volume.shw (v : Volume) : Str :=
  match v.val with
  | some n => u8ToStr n
  | none => ['0']

/-- `HitSound` (src/osu_file/hitobjects/types.rs:280-291). -/
structure HitSound where
  normal : Bool
  whistle : Bool
  finish : Bool
  clap : Bool
  deriving DecidableEq, Repr

/-- The bit mask of `HitSound::to_string` (src/osu_file/hitobjects/types.rs:293-312), an `i32`. -/
def HitSound.mask (h : HitSound) : Nat :=
  let m := 0
  let m := if h.normal then m ||| 1 else m
  let m := if h.whistle then m ||| 2 else m
  let m := if h.finish then m ||| 4 else m
  if h.clap then m ||| 8 else m

/-- `HitSound::to_string` (src/osu_file/hitobjects/types.rs:293-312). -/
def HitSound.shw (h : HitSound) : Str := natToStr h.mask

/-- `VersionedFrom<u8> for HitSound` (src/osu_file/hitobjects/types.rs:371-385). -/
def HitSound.ofU8 (n : UInt8) : HitSound :=
  ⟨n.toNat.testBit 0, n.toNat.testBit 1, n.toNat.testBit 2, n.toNat.testBit 3⟩

/-- `HitSound::from_str` (src/osu_file/hitobjects/types.rs:363-369). -/
def HitSound.parse (s : Str) : Res IntErr HitSound := (parseU8 s).bind fun n => .ok (.ofU8 n)

/-- `HitSound::normal()` (src/osu_file/hitobjects/types.rs:325-331). -/
def HitSound.isNormal (h : HitSound) : Bool :=
  if !h.normal && !h.whistle && !h.finish && !h.clap then true else h.normal

/-- `set_normal` (src/osu_file/hitobjects/types.rs:346-348). -/
def HitSound.setNormal (h : HitSound) (b : Bool) : HitSound := { h with normal := b }
/-- `set_whistle` (src/osu_file/hitobjects/types.rs:350-352). -/
def HitSound.setWhistle (h : HitSound) (b : Bool) : HitSound := { h with whistle := b }
/-- `set_finish` (src/osu_file/hitobjects/types.rs:354-356). -/
def HitSound.setFinish (h : HitSound) (b : Bool) : HitSound := { h with finish := b }
/-- `set_clap` (src/osu_file/hitobjects/types.rs:358-360). -/
def HitSound.setClap (h : HitSound) (b : Bool) : HitSound := { h with clap := b }

/-- `CurveType` (src/osu_file/hitobjects/types.rs:387-399). -/
inductive CurveType where
  | bezier | centripetal | linear | perfectCircle
  deriving DecidableEq, Repr

/-- `CurveType::from_str` (src/osu_file/hitobjects/types.rs:401-413); the only error is `UnknownVariant`. -/
def CurveType.parse (s : Str) : Res Unit CurveType :=
  if s = c!"B" then .ok .bezier else if s = c!"C" then .ok .centripetal
  else if s = c!"L" then .ok .linear else if s = c!"P" then .ok .perfectCircle
  else .err ()

/-- `CurveType::to_string` (src/osu_file/hitobjects/types.rs:415-426). -/
def CurveType.shw : CurveType → Str
  | bezier => c!"B" | centripetal => c!"C" | linear => c!"L" | perfectCircle => c!"P"

/-- `SampleIndex` (src/osu_file/hitobjects/types.rs:428-433). `Index` holds a `NonZeroUsize`. -/
inductive SampleIndex where
  | timingPoint
  | index (n : UInt64)
  deriving DecidableEq, Repr

/-- The invariant of `NonZeroUsize`. -/
def SampleIndex.Valid : SampleIndex → Prop
  | timingPoint => True
  | index n => n ≠ 0

/-- `VersionedFrom<usize> for SampleIndex` (src/osu_file/hitobjects/types.rs:441-451). -/
def SampleIndex.ofCode (n : UInt64) : SampleIndex := if n = 0 then .timingPoint else .index n

/-- `VersionedFrom<SampleIndex> for usize` (src/osu_file/hitobjects/types.rs:453-462). -/
def SampleIndex.code : SampleIndex → UInt64
  | timingPoint => 0
  | index n => n

/-- `SampleIndex::to_string` (src/osu_file/hitobjects/types.rs:464-468). -/
def SampleIndex.shw (x : SampleIndex) : Str := usizeToStr x.code

/-- `SampleIndex::from_str` (src/osu_file/hitobjects/types.rs:470-479). -/
def SampleIndex.parse (s : Str) : Res IntErr SampleIndex := (parseUsize s).bind fun n => .ok (.ofCode n)

/-- `HitSample` (src/osu_file/hitobjects/types.rs:481-490). -/
structure HitSample where
  normalSet : SampleSet
  additionSet : SampleSet
  index : SampleIndex
  volume : Volume
  filename : Str
  deriving DecidableEq, Repr

/-- `ParseHitSampleError` (src/osu_file/hitobjects/error.rs:123-135). -/
inductive HitSampleErr where
  | invalidSampleSet | invalidIndex | invalidVolume | missingSeparator
  deriving DecidableEq, Repr

/-- `VersionedDefault for HitSample` (src/osu_file/hitobjects/types.rs:619-629). -/
def HitSample.default : HitSample := ⟨.noCustom, .noCustom, .timingPoint, ⟨none⟩, []⟩

namespace HitSample
open Parser

/-- `field()` (src/osu_file/hitobjects/types.rs:496): up to the next colon. -/
def field : Parser HitSampleErr Str := Parser.takeWhile fun c => !(c == ':')

/-- `field_separator()` (src/osu_file/hitobjects/types.rs:497). -/
def sep : Parser HitSampleErr Str := tag [':']

/-- `sample_set()` (src/osu_file/hitobjects/types.rs:498-506). -/
def sampleSetP : Parser HitSampleErr (Option SampleSet) :=
  context .invalidSampleSet ((mapRes field SampleSet.parse).map some)

/-- The three alternatives of the fields after the first
(src/osu_file/hitobjects/types.rs:514-524, 526-542, 544-560, 562-572). -/
def optField {α : Type} (p : Parser HitSampleErr (Option α)) : Parser HitSampleErr (Option α) :=
  alt [
    (preceded sep nothing).map fun _ => none,
    nothing.map fun _ => none,
    preceded (context .missingSeparator sep) p]

/-- The parser of `HitSample::from_str` (src/osu_file/hitobjects/types.rs:508-590). -/
def parser : Parser HitSampleErr HitSample :=
  alt [
    nothing.map fun _ => HitSample.default,
    (alt [nothing.map fun _ => none, sampleSetP]).bind fun a =>
    (optField sampleSetP).bind fun b =>
    (optField (context .invalidIndex ((mapRes field SampleIndex.parse).map some))).bind fun i =>
    (optField (context .invalidVolume ((mapRes field Volume.parse).map some))).bind fun v =>
    (optField (field.map some)).bind fun f =>
    ret ⟨a.getD .noCustom, b.getD .noCustom, i.getD .timingPoint, v.getD ⟨none⟩, f.getD []⟩]

/-- `HitSample::from_str` (src/osu_file/hitobjects/types.rs:492-594). -/
def parse (s : Str) : Res HitSampleErr HitSample := (parser s).toRes

/-- `HitSample::to_string` (src/osu_file/hitobjects/types.rs:596-617). -/
def shw (version : Nat) (h : HitSample) : Option Str :=
  if 3 ≤ version ∧ version ≤ 9 then none
  else if 10 ≤ version ∧ version ≤ 11 then
    some (h.normalSet.shw ++ [':'] ++ h.additionSet.shw ++ [':'] ++ h.index.shw)
  else
    some (h.normalSet.shw ++ [':'] ++ h.additionSet.shw ++ [':'] ++ h.index.shw ++ [':'] ++ h.volume.shw ++
      [':'] ++ h.filename)

end HitSample

end HO

/-- `ParseHitObjectError` (src/osu_file/hitobjects/error.rs:34-119). -/
inductive HOErr where
  | invalidHitSound | missingHitSound | missingHitSample | invalidHitSample | invalidX | missingX
  | invalidY | missingY | missingObjType | invalidObjType | missingTime | invalidTime | invalidCurveType
  | missingCurveType | invalidCurvePoint | missingCurvePoint | invalidEdgeSound | missingEdgeSound
  | invalidEdgeSet | missingEdgeSet | invalidSlidesCount | missingSlidesCount | invalidLength
  | missingLength | invalidEndTime | missingEndTime | unknownObjType
  deriving DecidableEq, Repr

/-- `SlideParams` (src/osu_file/hitobjects/mod.rs:583-593). -/
structure SlideParams (D : Type) where
  curveType : HO.CurveType
  curvePoints : List (HO.CurvePoint D)
  slides : Int32
  length : Decimal D
  edgeSounds : List HO.HitSound
  edgeSoundsShort : Bool
  edgeSets : List HO.EdgeSet
  edgeSetsShort : Bool
  deriving DecidableEq, Repr

/-- `HitObjectParams` (src/osu_file/hitobjects/mod.rs:574-581). -/
inductive HOParams (D : Type) where
  | hitCircle
  | slider (p : SlideParams D)
  | spinner (endTime : Decimal D)
  | hold (endTime : Decimal D)
  deriving DecidableEq, Repr

/-- `HitObject` (src/osu_file/hitobjects/mod.rs:78-97). -/
structure HitObject (D : Type) where
  position : Position D
  time : Decimal D
  params : HOParams D
  newCombo : Bool
  comboSkip : HO.ComboSkipCount
  hitsound : HO.HitSound
  hitsample : Option HO.HitSample
  deriving DecidableEq, Repr

namespace HitObject
open Parser
variable {D : Type} [DecLib D]

/-- The number of `type_to_string` (src/osu_file/hitobjects/mod.rs:100-118). -/
def typeByte (o : HitObject D) : UInt8 :=
  let b : UInt8 := match o.params with
    | .hitCircle => 1
    | .slider _ => 2
    | .spinner _ => 8
    | .hold _ => 128
  let b := if o.newCombo then b ||| 4 else b
  b ||| (o.comboSkip.val <<< 4)

/-- `(obj_type >> 4 & 0b111) as u8` (src/osu_file/hitobjects/mod.rs:225-230): arithmetic shift, low bits. -/
def skipOf (t : Int32) : UInt8 := UInt8.ofNat (((t.toInt / 16) % 8).toNat)

/-- The hit sample parser of circles, sliders and spinners (src/osu_file/hitobjects/mod.rs:174-186). -/
def hitsampleP : Parser HOErr (Option HO.HitSample) :=
  alt [
    nothing.map fun _ => none,
    (preceded (context .missingHitSample comma)
      (context .invalidHitSample (mapRes rest HO.HitSample.parse))).map some]

/-- The fields common to all objects (src/osu_file/hitobjects/mod.rs:188-222). -/
def headP (version : Nat) : Parser HOErr (Position D × Decimal D × Int32 × HO.HitSound) :=
  (context .invalidX (commaFieldType Decimal.parse)).bind fun x =>
  (preceded (context .missingY comma) (context .invalidY (commaFieldType Decimal.parse))).bind fun y =>
  (mapP (preceded (context .missingTime comma) (context .invalidTime (commaFieldType Decimal.parse)))
    (Decimal.shiftUp version)).bind fun time =>
  (preceded (context .missingObjType comma) (context .invalidObjType (commaFieldType parseI32))).bind fun t =>
  (preceded (context .missingHitSound comma)
    (context .invalidHitSound (commaFieldType HO.HitSound.parse))).bind fun hs =>
  ret (⟨x, y⟩, time, t, hs)

/-- Curve type and points of a slider (src/osu_file/hitobjects/mod.rs:264-298). In version 3 the first point
is dropped. -/
def curveP (version : Nat) : Parser HOErr (HO.CurveType × List (HO.CurvePoint D)) :=
  alt [
    (preceded (context .missingCurveType comma)
      (context .invalidCurveType (commaFieldType HO.CurveType.parse))).map fun c => (c, []),
    (preceded (context .missingCurveType comma)
      (context .invalidCurveType (mapRes (takeTill fun c => c == '|') HO.CurveType.parse))).bind fun c =>
    (preceded (context .missingCurvePoint (char '|'))
      (context .invalidCurvePoint ((pipeVec HO.CurvePoint.parse).map fun v =>
        if version = 3 ∧ v ≠ [] then v.tail else v))).bind fun ps =>
    ret (c, ps)]

/-- Edge sets and hit sample (src/osu_file/hitobjects/mod.rs:323-336). -/
def edgeSetP : Parser HOErr (List HO.EdgeSet × Option HO.HitSample × Bool) :=
  alt [
    nothing.map fun _ => ([], none, true),
    (preceded (context .missingEdgeSet comma)
      (context .invalidEdgeSet (pipeVec HO.EdgeSet.parse))).bind fun es =>
    hitsampleP.bind fun h => ret (es, h, false)]

/-- Edge sounds and what follows (src/osu_file/hitobjects/mod.rs:313-349). -/
def edgeP : Parser HOErr (List HO.HitSound × List HO.EdgeSet × Option HO.HitSample × Bool × Bool) :=
  alt [
    nothing.map fun _ => ([], [], none, true, true),
    (preceded (context .missingEdgeSound comma)
      (context .invalidEdgeSound (pipeVec HO.HitSound.parse))).bind fun ss =>
    edgeSetP.bind fun t => ret (ss, t.1, t.2.1, false, t.2.2)]

/-- The slider branch (src/osu_file/hitobjects/mod.rs:246-350). -/
def sliderP (version : Nat) : Parser HOErr (SlideParams D × Option HO.HitSample) :=
  (curveP version).bind fun c =>
  (preceded (context .missingSlidesCount comma)
    (context .invalidSlidesCount (commaFieldType parseI32))).bind fun n =>
  (preceded (context .missingLength comma)
    (context .invalidLength (commaFieldType Decimal.parse))).bind fun len =>
  edgeP.bind fun e =>
  ret (⟨c.1, c.2, n, len, e.1, e.2.2.2.1, e.2.1, e.2.2.2.2⟩, e.2.2.1)

/-- The spinner branch (src/osu_file/hitobjects/mod.rs:370-400). -/
def spinnerP (version : Nat) : Parser HOErr (Decimal D × Option HO.HitSample) :=
  (mapP (preceded (context .missingEndTime comma)
    (context .invalidEndTime (commaFieldType Decimal.parse))) (Decimal.shiftUp version)).bind fun t =>
  hitsampleP.bind fun h => ret (t, h)

/-- The hold branch (src/osu_file/hitobjects/mod.rs:401-446): end time up to the next colon. -/
def holdP (version : Nat) : Parser HOErr (Decimal D × Option HO.HitSample) :=
  (preceded (context .missingEndTime comma)
    (mapP (context .invalidEndTime (mapRes (takeUntil [':']) Decimal.parse)) (Decimal.shiftUp version))).bind fun t =>
  (alt [
    nothing.map fun _ => none,
    (preceded (context .missingHitSample (char ':'))
      (context .invalidHitSample (mapRes rest HO.HitSample.parse))).map some]).bind fun h =>
  ret (t, h)

/-- The branches on the object type (src/osu_file/hitobjects/mod.rs:224-449), after the common fields.
The `?` of the source converts the parser error at each step. -/
def finish (version : Nat) (pos : Position D) (time : Decimal D) (t : Int32) (hs : HO.HitSound) (s : Str) :
    Res HOErr (HitObject D) :=
  let nc := nthBit t 2
  match HO.ComboSkipCount.new (skipOf t) with
  | none => .panic
  | some sk =>
    if nthBit t 0 then
      (hitsampleP s).toRes >>= fun h => .ok ⟨pos, time, .hitCircle, nc, sk, hs, h⟩
    else if nthBit t 1 then
      (sliderP version s).toRes >>= fun p => .ok ⟨pos, time, .slider p.1, nc, sk, hs, p.2⟩
    else if nthBit t 3 then
      (spinnerP version s).toRes >>= fun p => .ok ⟨pos, time, .spinner p.1, nc, sk, hs, p.2⟩
    else if nthBit t 7 then
      (holdP version s).toRes >>= fun p => .ok ⟨pos, time, .hold p.1, nc, sk, hs, p.2⟩
    else .err .unknownObjType

/-- `HitObject::from_str` (src/osu_file/hitobjects/mod.rs:166-453), always `Some` on success. -/
def parse (version : Nat) (s : Str) : Res HOErr (HitObject D) :=
  match headP version s with
  | .ok r (pos, time, t, hs) => finish version pos time t hs r
  | .error e => (PRes.error e : PRes HOErr (HitObject D)).toRes
  | .failure e => (PRes.failure e : PRes HOErr (HitObject D)).toRes
  | .panic => .panic

/-- `pipe_vec_to_string` (src/helper/mod.rs:10-18). -/
def pipeStr {α : Type} (shw : α → Str) (l : List α) : Str := join ['|'] (l.map shw)

/-- The hit sample as a further field, if there is one and this version prints it
(src/osu_file/hitobjects/mod.rs:511-515 and 555-559). -/
def sampleList (version : Nat) : Option HO.HitSample → List Str
  | some h => (h.shw version).toList
  | none => []

/-- The hit sample behind the colon of a hold note; nothing if there is none
(src/osu_file/hitobjects/mod.rs:545-549). -/
def sampleText (version : Nat) : Option HO.HitSample → Str
  | some h => (h.shw version).getD []
  | none => []

/-- `properties_2` of a slider (src/osu_file/hitobjects/mod.rs:486-515): everything after the curve type. -/
def sliderTail (version : Nat) (pos : Position D) (p : SlideParams D) (hitsample : Option HO.HitSample) : List Str :=
  (if version = 3 then [pipeStr HO.CurvePoint.shw (⟨pos⟩ :: p.curvePoints)]
   else if p.curvePoints ≠ [] then [pipeStr HO.CurvePoint.shw p.curvePoints] else []) ++
  [i32ToStr p.slides, p.length.toStr] ++
  (if p.edgeSounds ≠ [] ∨ p.edgeSoundsShort = false ∨ p.edgeSets ≠ [] ∨ p.edgeSetsShort = false ∨
      hitsample.isSome then [pipeStr HO.HitSound.shw p.edgeSounds] else []) ++
  (if p.edgeSets ≠ [] ∨ p.edgeSetsShort = false ∨ hitsample.isSome then [pipeStr HO.EdgeSet.shw p.edgeSets]
   else []) ++
  sampleList version hitsample

/-- `HitObject::to_string` (src/osu_file/hitobjects/mod.rs:455-572). `none` is the overflow panic of
rust_decimal in `value - 24`. -/
def shw (version : Nat) (o : HitObject D) : Option Str :=
  (o.time.toStrShifted version).bind fun time =>
  let props := [o.position.x.toStr, o.position.y.toStr, time, u8ToStr o.typeByte, o.hitsound.shw]
  let sample := sampleList version o.hitsample
  match o.params with
  | .hitCircle =>
    let s := join [','] (props ++ sample)
    some (if version = 3 then s ++ [','] else s)
  | .slider p =>
    let a := join [','] (props ++ [p.curveType.shw])
    let b := join [','] (sliderTail version o.position p o.hitsample)
    some (if version = 3 ∨ p.curvePoints ≠ [] then a ++ ['|'] ++ b else a ++ [','] ++ b)
  | .spinner e => (e.toStrShifted version).map fun t => join [','] (props ++ [t] ++ sample)
  | .hold e =>
    (e.toStrShifted version).map fun t =>
      join [','] (props ++ [t]) ++ [':'] ++ sampleText version o.hitsample

end HitObject

/-- `HitObjects::from_str` (src/osu_file/hitobjects/mod.rs:33-52). -/
def HitObjects.parse {D : Type} [DecLib D] (version : Nat) (s : Str) :
    Res (LErr HOErr) (List (HitObject D)) := parseLines (HitObject.parse version) s

/-- `HitObjects::to_string` (src/osu_file/hitobjects/mod.rs:54-64). -/
def HitObjects.shw {D : Type} [DecLib D] (version : Nat) (l : List (HitObject D)) : Option Str :=
  printLinesP (HitObject.shw version) l

end Osu
