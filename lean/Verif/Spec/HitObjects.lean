/-
Specification of the hit object line: what the comma separated pieces of a line mean, what can be written,
and what is read back from what was written.
-/
import Verif.Model.HitObjects
import Verif.Spec.TimingPoints

namespace Osu
open HO
variable {D : Type} [DecLib D]

/-- Only blanks and tabs. -/
def blanks (s : Str) : Bool := s.all fun c => c == ' ' || c == '\t'

/-- No `c` in the text. -/
def lacks (c : Char) (s : Str) : Bool := s.all fun d => !(d == c)

/-- The pieces of a list without a blank last piece. -/
def dropBlankLast : List Str → List Str
  | [] => []
  | [p] => if blanks p then [] else [p]
  | p :: q :: qs => p :: dropBlankLast (q :: qs)

/-- A field that takes a default if it is missing. -/
def fieldIs {ε α : Type} (f : Str → Res ε α) (dflt : α) : Option Str → α → Prop
  | none, x => x = dflt
  | some p, x => f p = .ok x

/-- `SampleReads ps h`: the colon separated pieces `ps` mean the hit sample `h`. A blank last piece counts as
missing, missing fields have defaults, pieces after the fifth are ignored. -/
structure SampleReads (ps : List Str) (h : HitSample) : Prop where
  normalSet : fieldIs SampleSet.parse .noCustom (dropBlankLast ps)[0]? h.normalSet
  additionSet : fieldIs SampleSet.parse .noCustom (dropBlankLast ps)[1]? h.additionSet
  index : fieldIs SampleIndex.parse .timingPoint (dropBlankLast ps)[2]? h.index
  volume : fieldIs Volume.parse ⟨none⟩ (dropBlankLast ps)[3]? h.volume
  filename : h.filename = ((dropBlankLast ps)[4]?).getD []

/-- A list of items separated by bars; the empty text is the empty list. -/
def PipeReads {ε α : Type} (f : Str → Res ε α) (p : Str) (l : List α) : Prop :=
  (p = [] ∧ l = []) ∨ (lacks '\r' p ∧ lacks '\n' p ∧ (splitOnC '|' p).map f = l.map .ok)

/-- The same at the end of the line, where blanks are the empty list, too. -/
def PipeReadsLast {ε α : Type} (f : Str → Res ε α) (p : Str) (l : List α) : Prop :=
  PipeReads f p l ∨ (blanks p ∧ l = [])

/-- The optional hit sample at the end of a line: everything that is left. -/
def SampleTail (qs : List Str) (o : Option HitSample) : Prop :=
  match qs with
  | [] => o = none
  | q :: qs => ∃ h, SampleReads (splitOnC ':' (join [','] (q :: qs))) h ∧ o = some h

/-- Curve type and points: `B` or `B|x:y|x:y`. In version 3 the first point (the position) is dropped. -/
def CurveReads (v : Nat) (p : Str) (c : CurveType) (pts : List (CurvePoint D)) : Prop :=
  (CurveType.parse p = .ok c ∧ pts = []) ∨
  ∃ a b l, p = a ++ '|' :: b ∧ lacks '|' a ∧ CurveType.parse a = .ok c ∧ PipeReads CurvePoint.parse b l ∧
    pts = if v = 3 then l.tail else l

/-- Edge sounds, edge sets and hit sample at the end of a slider line. -/
inductive EdgeReads : List Str → List HitSound → Bool → List EdgeSet → Bool → Option HitSample → Prop
  | none : EdgeReads [] [] true [] true none
  | sounds {p : Str} {ss : List HitSound} (h : PipeReadsLast HitSound.parse p ss) : EdgeReads [p] ss false [] true none
  | sets {p q : Str} {ss : List HitSound} {es : List EdgeSet} (h : PipeReads HitSound.parse p ss)
      (h' : PipeReadsLast EdgeSet.parse q es) : EdgeReads [p, q] ss false es false none
  | sample {p q r : Str} {rs : List Str} {ss : List HitSound} {es : List EdgeSet} {o : Option HitSample}
      (h : PipeReads HitSound.parse p ss) (h' : PipeReads EdgeSet.parse q es) (ho : SampleTail (r :: rs) o) :
      EdgeReads (p :: q :: r :: rs) ss false es false o

/-- The pieces after the hit sound of a slider. -/
structure SliderReads (v : Nat) (c n l : Str) (es : List Str) (p : SlideParams D) (o : Option HitSample) : Prop where
  curve : CurveReads v c p.curveType p.curvePoints
  slides : parseI32 n = .ok p.slides
  length : p.length = Decimal.ofStr l
  edges : EdgeReads es p.edgeSounds p.edgeSoundsShort p.edgeSets p.edgeSetsShort o

/-- End time and hit sample of a hold note: `end:sample`. -/
def HoldReads (v : Nat) (p : Str) (e : Decimal D) (o : Option HitSample) : Prop :=
  ∃ a b h, p = a ++ ':' :: b ∧ lacks ':' a ∧ TimeReads v a e ∧ SampleReads (splitOnC ':' b) h ∧ o = some h

/-- Bit `k` of the type number (two's complement). -/
def typeBit (n : Int32) (k : Nat) : Prop := (n.toInt / 2 ^ k) % 2 = 1

/-- The fields common to all objects. -/
structure HOHead (v : Nat) (x y t ty hs : Str) (n : Int32) (o : HitObject D) : Prop where
  x : o.position.x = Decimal.ofStr x
  y : o.position.y = Decimal.ofStr y
  time : TimeReads v t o.time
  type : parseI32 ty = .ok n
  newCombo : o.newCombo = true ↔ typeBit n 2
  skip : (o.comboSkip.val.toNat : Int) = (n.toInt / 16) % 8
  hitsound : HitSound.parse hs = .ok o.hitsound

/-- `HOReads v ps o`: in version `v` the pieces `ps` of a line mean the object `o`. -/
inductive HOReads (v : Nat) : List Str → HitObject D → Prop
  | circle {x y t ty hs : Str} {qs : List Str} {n : Int32} {o : HitObject D} (h : HOHead v x y t ty hs n o)
      (h0 : typeBit n 0) (hp : o.params = .hitCircle) (hq : SampleTail qs o.hitsample) :
      HOReads v (x :: y :: t :: ty :: hs :: qs) o
  | slider {x y t ty hs c m l : Str} {qs : List Str} {n : Int32} {o : HitObject D} {p : SlideParams D}
      (h : HOHead v x y t ty hs n o) (h0 : ¬ typeBit n 0) (h1 : typeBit n 1) (hp : o.params = .slider p)
      (hq : SliderReads v c m l qs p o.hitsample) : HOReads v (x :: y :: t :: ty :: hs :: c :: m :: l :: qs) o
  | spinner {x y t ty hs e : Str} {qs : List Str} {n : Int32} {o : HitObject D} {et : Decimal D}
      (h : HOHead v x y t ty hs n o) (h0 : ¬ typeBit n 0) (h1 : ¬ typeBit n 1) (h3 : typeBit n 3)
      (hp : o.params = .spinner et) (he : TimeReads v e et) (hq : SampleTail qs o.hitsample) :
      HOReads v (x :: y :: t :: ty :: hs :: e :: qs) o
  | hold {x y t ty hs q : Str} {qs : List Str} {n : Int32} {o : HitObject D} {et : Decimal D}
      (h : HOHead v x y t ty hs n o) (h0 : ¬ typeBit n 0) (h1 : ¬ typeBit n 1) (h3 : ¬ typeBit n 3) (h7 : typeBit n 7)
      (hp : o.params = .hold et) (hq : HoldReads v (join [','] (q :: qs)) et o.hitsample) :
      HOReads v (x :: y :: t :: ty :: hs :: q :: qs) o

/-! ### What can be written -/

/-- Characters of the first number of a curve point that is text. -/
def pointX (c : Char) : Bool := !(c == ',' || c == '\n' || c == '\r' || c == '|' || c == ':')
/-- Characters of the second number of a curve point that is text. -/
def pointY (c : Char) : Bool := !(c == ',' || c == '\n' || c == '\r' || c == '|')
/-- Characters of a hold note's end time that is text. -/
def holdChar (c : Char) : Bool := !(c == ':' || c == '\n' || c == '\r')

/-- As `TimeWritable`, with the characters `f` for text. -/
def TimeWritableC (f : Char → Bool) (v : Nat) : Decimal D → Prop
  | .right s => (DecLib.parse s : Option D) = none ∧ ∀ c ∈ s, f c = true
  | .left d =>
    if 3 ≤ v ∧ v ≤ 4 then ∃ d', DecLib.sub24 d = some d' ∧ DecLib.canon d' ∧ DecLib.add24 d' = some d
    else DecLib.canon d

/-- `Other` is only used for codes without a name. -/
def HOSetNamed : SampleSet → Prop
  | .other n => n ≠ 0 ∧ n ≠ 1 ∧ n ≠ 2 ∧ n ≠ 3
  | _ => True

/-- The hit sample is not written in these versions. -/
def NoSample (v : Nat) : Prop := 3 ≤ v ∧ v ≤ 9
/-- Only the first three fields of the hit sample are written in these versions. -/
def ShortSample (v : Nat) : Prop := 10 ≤ v ∧ v ≤ 11

instance (v : Nat) : Decidable (NoSample v) := by unfold NoSample; infer_instance
instance (v : Nat) : Decidable (ShortSample v) := by unfold ShortSample; infer_instance

/-- A hit sample that can be written in version `v`. -/
structure SampleWritable (v : Nat) (h : HitSample) : Prop where
  normalSet : HOSetNamed h.normalSet
  additionSet : HOSetNamed h.additionSet
  index : h.index ≠ .index 0
  volume : ¬ ShortSample v → ∀ n, h.volume.val = some n → 1 ≤ n.toNat ∧ n.toNat ≤ 100
  filename : ¬ ShortSample v → (∀ c ∈ h.filename, holdChar c = true) ∧ (h.filename = [] ∨ blanks h.filename = false)

/-- Slider parameters that can be written in version `v`, at a position. -/
structure SliderWritable (v : Nat) (pos : Position D) (p : SlideParams D) : Prop where
  points : ∀ c ∈ p.curvePoints, DecWritable pointX c.pos.x ∧ DecWritable pointY c.pos.y
  position : v = 3 → DecWritable pointY pos.x ∧ DecWritable pointY pos.y
  length : DecWritable fieldChar p.length
  sets : ∀ e ∈ p.edgeSets, HOSetNamed e.normalSet ∧ HOSetNamed e.additionSet

/-- The kind-specific part. -/
def ParamsWritable (v : Nat) (pos : Position D) : HOParams D → Prop
  | .hitCircle => True
  | .slider p => SliderWritable v pos p
  | .spinner e => TimeWritable v e
  | .hold e => TimeWritableC holdChar v e

/-- A hit object that can be written in version `v` and read again. -/
structure HOWritable (v : Nat) (o : HitObject D) : Prop where
  x : DecWritable fieldChar o.position.x
  y : DecWritable fieldChar o.position.y
  time : TimeWritable v o.time
  skip : o.comboSkip.val.toNat ≤ 7
  params : ParamsWritable v o.position o.params
  hitsample : ¬ NoSample v → ∀ h, o.hitsample = some h → SampleWritable v h

/-- The hit sample is one that version `v` can express in full. -/
def SampleExpressible (v : Nat) (h : HitSample) : Prop :=
  ¬ NoSample v ∧ (ShortSample v → h.volume = ⟨none⟩ ∧ h.filename = [])

/-- A writable object in the form the parser of version `v` produces: hold notes (and version 3 circles) have
a hit sample, the hit sample has no part the version does not write, and a list of a slider that is marked
as left out is empty and nothing follows it. -/
structure HOExpressible (v : Nat) (o : HitObject D) : Prop extends HOWritable v o where
  circle : o.params = .hitCircle → v = 3 → o.hitsample = some HitSample.default
  sample : (o.params = .hitCircle → v ≠ 3) → (∀ e, o.params ≠ .hold e) → ∀ h, o.hitsample = some h → SampleExpressible v h
  hold : ∀ e, o.params = .hold e → ∃ h, o.hitsample = some h ∧ (SampleExpressible v h ∨ (NoSample v ∧ h = HitSample.default))
  sounds : ∀ p, o.params = .slider p → p.edgeSoundsShort = true → p.edgeSounds = [] ∧ p.edgeSetsShort = true
  sets : ∀ p, o.params = .slider p → p.edgeSetsShort = true → p.edgeSets = [] ∧ o.hitsample = none

/-- The hit sample as it is read back from what version `v` writes. -/
def sampleBack (v : Nat) (h : HitSample) : Option HitSample :=
  if NoSample v then none
  else if ShortSample v then some { h with volume := ⟨none⟩, filename := [] }
  else some h

/-- The object that is read back from what version `v` writes: version 3 circles have a default hit sample,
hold notes always have a hit sample, the two "shorthand" flags of a slider say whether the lists were left
out, and the hit sample depends on the version. -/
def hoBack (v : Nat) (o : HitObject D) : HitObject D :=
  let sample := o.hitsample.bind (sampleBack v)
  match o.params with
  | .hitCircle => { o with hitsample := if v = 3 then some HitSample.default else sample }
  | .slider p =>
    let sets := p.edgeSets ≠ [] ∨ p.edgeSetsShort = false ∨ o.hitsample.isSome
    let sounds := p.edgeSounds ≠ [] ∨ p.edgeSoundsShort = false ∨ sets
    { o with
      params := .slider { p with edgeSoundsShort := !decide sounds, edgeSetsShort := !decide sets }
      hitsample := sample }
  | .spinner _ => { o with hitsample := sample }
  | .hold _ => { o with hitsample := some (sample.getD HitSample.default) }

end Osu
