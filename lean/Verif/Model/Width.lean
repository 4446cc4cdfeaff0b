/-
The code that reads `usize` values, in a build whose `usize` has a largest value `m` of its own choosing: 65535 for 16
bit targets, 4294967295 for 32 bit targets, 18446744073709551615 for 64 bit targets. The other modules of the model
are the case of 64 bits (`Props.Width`, the `_64` theorems); here are the same functions with the width as a
parameter. The numbers themselves stay in `UInt64`, which holds those of every width.
-/
import Verif.Model.HitObjects
import Verif.Model.StoryTypes
import Verif.Model.General
import Verif.Model.NormalEvents

namespace Osu

/-- `str::parse::<usize>` where the largest `usize` is `m`. -/
def parseUsizeW (m : Nat) (s : Str) : Res IntErr UInt64 :=
  (parseUnsigned m s).bind fun n => .ok (UInt64.ofNat n)

namespace HO

/-- `SampleSet::from_str` (src/osu_file/hitobjects/types.rs:184-198). -/
def SampleSet.parseW (m : Nat) (s : Str) : Res IntErr SampleSet := (parseUsizeW m s).bind fun n => .ok (.ofCode n)

open Parser in
/-- `EdgeSet::from_str` (src/osu_file/hitobjects/types.rs:69-94). -/
def EdgeSet.parseW (m : Nat) (s : Str) : Res ColonSetErr EdgeSet :=
  let p : Parser ColonSetErr EdgeSet :=
    (terminated (context .invalidFirstItem (mapRes (Parser.takeWhile fun c => !(c == ':')) (SampleSet.parseW m)))
      (context .missingSeparator (tag [':']))).bind fun a =>
    (context .invalidFirstItem (restType (SampleSet.parseW m))).bind fun b => ret ⟨a, b⟩
  (p s).toRes

/-- `SampleIndex::from_str` (src/osu_file/hitobjects/types.rs:470-479). -/
def SampleIndex.parseW (m : Nat) (s : Str) : Res IntErr SampleIndex :=
  (parseUsizeW m s).bind fun n => .ok (.ofCode n)

namespace HitSample
open Parser

/-- `sample_set()` (src/osu_file/hitobjects/types.rs:498-506). -/
def sampleSetPW (m : Nat) : Parser HitSampleErr (Option SampleSet) :=
  context .invalidSampleSet ((mapRes field (SampleSet.parseW m)).map some)

/-- The parser of `HitSample::from_str` (src/osu_file/hitobjects/types.rs:508-590). -/
def parserW (m : Nat) : Parser HitSampleErr HitSample :=
  alt [
    nothing.map fun _ => HitSample.default,
    (alt [nothing.map fun _ => none, sampleSetPW m]).bind fun a =>
    (optField (sampleSetPW m)).bind fun b =>
    (optField (context .invalidIndex ((mapRes field (SampleIndex.parseW m)).map some))).bind fun i =>
    (optField (context .invalidVolume ((mapRes field Volume.parse).map some))).bind fun v =>
    (optField (field.map some)).bind fun f =>
    ret ⟨a.getD .noCustom, b.getD .noCustom, i.getD .timingPoint, v.getD ⟨none⟩, f.getD []⟩]

/-- `HitSample::from_str` (src/osu_file/hitobjects/types.rs:492-594). -/
def parseW (m : Nat) (s : Str) : Res HitSampleErr HitSample := (parserW m s).toRes

end HitSample
end HO

namespace HitObject
open Parser
variable {D : Type} [DecLib D]

/-- The hit sample parser of circles, sliders and spinners (src/osu_file/hitobjects/mod.rs:174-186). -/
def hitsamplePW (m : Nat) : Parser HOErr (Option HO.HitSample) :=
  alt [
    nothing.map fun _ => none,
    (preceded (context .missingHitSample comma)
      (context .invalidHitSample (mapRes rest (HO.HitSample.parseW m)))).map some]

/-- Edge sets and hit sample (src/osu_file/hitobjects/mod.rs:323-336). -/
def edgeSetPW (m : Nat) : Parser HOErr (List HO.EdgeSet × Option HO.HitSample × Bool) :=
  alt [
    nothing.map fun _ => ([], none, true),
    (preceded (context .missingEdgeSet comma)
      (context .invalidEdgeSet (pipeVec (HO.EdgeSet.parseW m)))).bind fun es =>
    (hitsamplePW m).bind fun h => ret (es, h, false)]

/-- Edge sounds and what follows (src/osu_file/hitobjects/mod.rs:313-349). -/
def edgePW (m : Nat) : Parser HOErr (List HO.HitSound × List HO.EdgeSet × Option HO.HitSample × Bool × Bool) :=
  alt [
    nothing.map fun _ => ([], [], none, true, true),
    (preceded (context .missingEdgeSound comma)
      (context .invalidEdgeSound (pipeVec HO.HitSound.parse))).bind fun ss =>
    (edgeSetPW m).bind fun t => ret (ss, t.1, t.2.1, false, t.2.2)]

/-- The slider branch (src/osu_file/hitobjects/mod.rs:246-350). -/
def sliderPW (m version : Nat) : Parser HOErr (SlideParams D × Option HO.HitSample) :=
  (curveP version).bind fun c =>
  (preceded (context .missingSlidesCount comma)
    (context .invalidSlidesCount (commaFieldType parseI32))).bind fun n =>
  (preceded (context .missingLength comma)
    (context .invalidLength (commaFieldType Decimal.parse))).bind fun len =>
  (edgePW m).bind fun e =>
  ret (⟨c.1, c.2, n, len, e.1, e.2.2.2.1, e.2.1, e.2.2.2.2⟩, e.2.2.1)

/-- The spinner branch (src/osu_file/hitobjects/mod.rs:370-400). -/
def spinnerPW (m version : Nat) : Parser HOErr (Decimal D × Option HO.HitSample) :=
  (mapP (preceded (context .missingEndTime comma)
    (context .invalidEndTime (commaFieldType Decimal.parse))) (Decimal.shiftUp version)).bind fun t =>
  (hitsamplePW m).bind fun h => ret (t, h)

/-- The hold branch (src/osu_file/hitobjects/mod.rs:401-446). -/
def holdPW (m version : Nat) : Parser HOErr (Decimal D × Option HO.HitSample) :=
  (preceded (context .missingEndTime comma)
    (mapP (context .invalidEndTime (mapRes (takeUntil [':']) Decimal.parse)) (Decimal.shiftUp version))).bind fun t =>
  (alt [
    nothing.map fun _ => none,
    (preceded (context .missingHitSample (char ':'))
      (context .invalidHitSample (mapRes rest (HO.HitSample.parseW m)))).map some]).bind fun h =>
  ret (t, h)

/-- The branches on the object type (src/osu_file/hitobjects/mod.rs:224-449), after the common fields. -/
def finishW (m version : Nat) (pos : Position D) (time : Decimal D) (t : Int32) (hs : HO.HitSound) (s : Str) :
    Res HOErr (HitObject D) :=
  let nc := nthBit t 2
  match HO.ComboSkipCount.new (skipOf t) with
  | none => .panic
  | some sk =>
    if nthBit t 0 then
      (hitsamplePW m s).toRes >>= fun h => .ok ⟨pos, time, .hitCircle, nc, sk, hs, h⟩
    else if nthBit t 1 then
      (sliderPW m version s).toRes >>= fun p => .ok ⟨pos, time, .slider p.1, nc, sk, hs, p.2⟩
    else if nthBit t 3 then
      (spinnerPW m version s).toRes >>= fun p => .ok ⟨pos, time, .spinner p.1, nc, sk, hs, p.2⟩
    else if nthBit t 7 then
      (holdPW m version s).toRes >>= fun p => .ok ⟨pos, time, .hold p.1, nc, sk, hs, p.2⟩
    else .err .unknownObjType

/-- `HitObject::from_str` (src/osu_file/hitobjects/mod.rs:166-453), always `Some` on success. -/
def parseW (m version : Nat) (s : Str) : Res HOErr (HitObject D) :=
  match headP version s with
  | .ok r (pos, time, t, hs) => finishW m version pos time t hs r
  | .error e => (PRes.error e : PRes HOErr (HitObject D)).toRes
  | .failure e => (PRes.failure e : PRes HOErr (HitObject D)).toRes
  | .panic => .panic

end HitObject

/-- `HitObjects::from_str` (src/osu_file/hitobjects/mod.rs:33-52). -/
def HitObjects.parseW {D : Type} [DecLib D] (m version : Nat) (s : Str) :
    Res (LErr HOErr) (List (HitObject D)) := parseLines (HitObject.parseW m version) s

namespace SB.TriggerType
variable [UniLib]

/-- The inner `loop` at `field_parse_attempt_index` 3 (src/osu_file/events/storyboard/types.rs:85-91). -/
def try3W (m : Nat) (h : HitSound) (f : Str) : Res TriggerErr (Nat × HitSound) :=
  match parseUsizeW m f with
  | .ok n => .ok (4, { h with customSampleSet := some n })
  | _ => .err .unknownHitSoundType

/-- At index 2 (src/osu_file/events/storyboard/types.rs:80-84). -/
def try2W (m : Nat) (h : HitSound) (f : Str) : Res TriggerErr (Nat × HitSound) :=
  match Addition.parse f with
  | some a => .ok (3, { h with addition := some a })
  | none => try3W m h f

/-- At index 1 (src/osu_file/events/storyboard/types.rs:75-79). -/
def try1W (m : Nat) (h : HitSound) (f : Str) : Res TriggerErr (Nat × HitSound) :=
  match SampleSet.parse f with
  | some a => .ok (2, { h with additionsSampleSet := some a })
  | none => try2W m h f

/-- At index 0 (src/osu_file/events/storyboard/types.rs:70-74). -/
def try0W (m : Nat) (h : HitSound) (f : Str) : Res TriggerErr (Nat × HitSound) :=
  match SampleSet.parse f with
  | some a => .ok (1, { h with sampleSet := some a })
  | none => try1W m h f

/-- The inner `loop` (src/osu_file/events/storyboard/types.rs:68-95); an index above 3 is `unreachable!`. -/
def tryAtW (m i : Nat) (h : HitSound) (f : Str) : Res TriggerErr (Nat × HitSound) :=
  match i with
  | 0 => try0W m h f
  | 1 => try1W m h f
  | 2 => try2W m h f
  | 3 => try3W m h f
  | _ => .panic

/-- `for field in fields` (src/osu_file/events/storyboard/types.rs:67-96). -/
def tryAllW (m i : Nat) (h : HitSound) : List Str → Res TriggerErr HitSound
  | [] => .ok h
  | f :: fs =>
    match tryAtW m i h f with
    | .ok (j, h') => tryAllW m j h' fs
    | .err e => .err e
    | .panic => .panic

/-- The text after `HitSound` (src/osu_file/events/storyboard/types.rs:31-105). -/
def parseHitSoundW (m : Nat) (s : Str) : Res TriggerErr HitSound :=
  if s = [] then .ok {}
  else if (fields s).length > 4 then .err .tooManyHitSoundFields
  else tryAllW m 0 {} (fields s)

/-- `TriggerType::from_str` (src/osu_file/events/storyboard/types.rs:21-110), always `Some`. -/
def parseW (m : Nat) (s : Str) : Res TriggerErr TriggerType :=
  let s := trim s
  if s = c!"Passing" then .ok .passing
  else if s = c!"Failing" then .ok .failing
  else
    match stripPrefix c!"HitSound" s with
    | some r =>
      match parseHitSoundW m r with
      | .ok h => .ok (.hitSound h)
      | .err e => .err e
      | .panic => .panic
    | none => .err .unknownTriggerType

end SB.TriggerType

/-- `Countdown::from_str` (src/osu_file/general/types.rs:37-49). -/
def Countdown.parseW (m version : Nat) (s : Str) : Res FieldErr (Option Countdown) :=
  if 3 ≤ version ∧ version ≤ 4 then .ok none
  else
    match parseUsizeW m s with
    | .err e => .err (.countdownInt e)
    | .panic => .panic
    | .ok n =>
      match Countdown.fromRepr n version with
      | none => .err .countdownUnknown
      | some none => .err .countdownUnknown
      | some (some c) => .ok (some c)

/-- `Mode::from_str` (src/osu_file/general/types.rs:144-172). -/
def Mode.parseW (m version : Nat) (s : Str) : Res FieldErr (Option Mode) :=
  match parseUsizeW m s with
  | .err e => .err (.modeInt e)
  | .panic => .panic
  | .ok n =>
    let m : Option Mode :=
      if n = 0 then some osu else if n = 1 then some taiko
      else if n = 2 then some «catch» else if n = 3 then some mania else none
    match m with
    | none => .err .modeUnknown
    | some m =>
      if 3 ≤ version ∧ version ≤ 4 ∧ m ≠ osu then .ok none
      else if 5 ≤ version ∧ version ≤ 6 ∧ m ≠ osu ∧ m ≠ taiko then .ok none
      else if 7 ≤ version ∧ version ≤ 9 ∧ m = mania then .ok none
      else .ok (some m)

namespace Ev
open Parser

/-- `from_str` through `from_repr` (src/osu_file/events/normal_event/types.rs:67-75, 104-112). -/
def parseReprW {α : Type} (m : Nat) (f : UInt64 → Option α) (s : Str) : Res ReprErr α :=
  match parseUsizeW m s with
  | .ok n => match f n with
    | some a => .ok a
    | none => .err .invalidRepr
  | .err e => .err (.int e)
  | .panic => .panic

/-- `OriginTypeLegacy::from_str` (src/osu_file/events/normal_event/types.rs:67-75). -/
def OriginLegacy.parseW (m : Nat) (s : Str) : Res ReprErr OriginLegacy := parseReprW m OriginLegacy.ofCode s

/-- `LayerLegacy::from_str` (src/osu_file/events/normal_event/types.rs:104-112). -/
def LayerLegacy.parseW (m : Nat) (s : Str) : Res ReprErr LayerLegacy := parseReprW m LayerLegacy.ofCode s

/-- `AudioSample::from_str` (src/osu_file/events/audio_sample/mod.rs:29-93). -/
def AudioSample.parseW (m : Nat) (s : Str) : Res NEErr AudioSample :=
  if s = [] then .err .wrongEventType
  else
    ((preceded (pair (context .wrongEventType (tag c!"Sample")) (context .missingTime comma))
        (context .invalidTime (commaFieldType parseI32))).bind (fun t =>
      (preceded (context .missingLayer comma) (context .invalidLayer
        (mapOpt (context .invalidLayer (commaFieldType (parseUsizeW m))) AudioLayer.ofCode))).bind fun l =>
      (preceded (context .missingFileName comma) commaField).bind fun f =>
      (alt [eof.map fun _ => Volume.default,
        preceded (context .missingVolume comma) (context .invalidVolume (commaFieldType Volume.parse))]).bind fun v =>
      ret (⟨t, l, f, v⟩ : AudioSample)) s).toRes

end Ev

end Osu
