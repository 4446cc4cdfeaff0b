/-
Specification of the text written for timing points, hit objects, commands, events, colours and variables: the pieces of
the line, from left to right.
-/
import Verif.Spec.Names
import Verif.Model.Osb
import Verif.Model.Colours

namespace Osu

/-- A piece of a written line. -/
inductive Piece (D : Type) where
  /-- A text as it is. -/
  | text (s : Str)
  /-- An integer in its usual spelling. -/
  | int (n : Int)
  /-- A number, or the text kept in its place. -/
  | number (x : Decimal D)
  /-- The time of a timing point or hit object: a number is written 24 lower in versions 3 and 4. -/
  | clock (v : Nat) (x : Decimal D)
  /-- The time of an event, written 24 lower in versions 3 and 4. -/
  | moment (v : Nat) (t : Int32)
  /-- A path: in quotes if it has a blank and is not in quotes. -/
  | path (p : FilePath)

variable {D : Type} [DecLib D]

/-- The text of a piece. -/
inductive TokSpelt : Piece D → Str → Prop
  | text (s : Str) : TokSpelt (.text s) s
  | int {n : Int} {s : Str} (h : PlainInt s n) : TokSpelt (.int n) s
  | number (d : D) : TokSpelt (.number (.left d)) (DecLib.shw d)
  | numberText (s : Str) : TokSpelt (.number (.right s)) s
  | clock {v : Nat} (d : D) (hv : v ≠ 3 ∧ v ≠ 4) : TokSpelt (.clock v (.left d)) (DecLib.shw d)
  | clockOld {v : Nat} {d d' : D} (hv : v = 3 ∨ v = 4) (h : DecLib.sub24 d = some d') : TokSpelt (.clock v (.left d)) (DecLib.shw d')
  | clockText (v : Nat) (s : Str) : TokSpelt (.clock v (.right s)) s
  | moment {v : Nat} {t n : Int32} {s : Str} (ht : OldTime v n t) (h : PlainInt s n.toInt) : TokSpelt (.moment v t) s
  | path (p : FilePath) : TokSpelt (.path p) (quotePath p)

/-- The pieces one after the other. -/
inductive Spelt : List (Piece D) → Str → Prop
  | nil : Spelt [] []
  | cons {t : Piece D} {ts : List (Piece D)} {a b : Str} (h : TokSpelt t a) (hs : Spelt ts b) : Spelt (t :: ts) (a ++ b)

/-- Columns with a character between them. -/
def glue (c : Char) : List (List (Piece D)) → List (Piece D)
  | [] => []
  | [x] => x
  | x :: y :: r => x ++ .text [c] :: glue c (y :: r)

/-- A flag. -/
def flagTok (b : Bool) : Piece D := .text (if b then c!"1" else c!"0")

/-- An optional integer: nothing if it is missing. -/
def optTok : Option Int32 → List (Piece D)
  | none => []
  | some n => [.int n.toInt]

/-! ### Timing points -/

/-- The numbers of the sample sets of timing points. -/
def pointSetNo : TP.SampleSet → Int
  | .beatmapDefault => 0 | .normal => 1 | .soft => 2 | .drum => 3 | .other n => n.toInt

/-- The line of a timing point. -/
def pointToks (v : Nat) (t : TimingPoint D) : List (Piece D) :=
  glue ',' ([[.clock v t.time], [.number t.beatLength]] ++
    (if 4 ≤ v then [[.int t.meter.toInt], [.int (pointSetNo t.sampleSet)], [.int (pointIndexNo t.sampleIndex)]] else []) ++
    if 5 ≤ v then [.int t.volume.val.toInt] :: (match t.uninherited, t.effects with
      | none, none => []
      | some u, none => [[flagTok u]]
      | none, some e => [[], [.int e.bits.toNat]]
      | some u, some e => [[flagTok u], [.int e.bits.toNat]]) else [])

/-! ### Hit objects -/

/-- The numbers of the sample sets of hit objects. -/
def objectSetNo : HO.SampleSet → Nat
  | .noCustom => 0 | .normal => 1 | .soft => 2 | .drum => 3 | .other n => n.toNat

/-- The numbers of the sample indices of hit objects. -/
def objectIndexNo : HO.SampleIndex → Nat
  | .timingPoint => 0 | .index n => n.toNat

/-- A hit sample: three numbers in versions 10 and 11, later also volume and file name. -/
def sampleToks (v : Nat) (h : HO.HitSample) : List (Piece D) :=
  glue ':' ([[.int (objectSetNo h.normalSet)], [.int (objectSetNo h.additionSet)], [.int (objectIndexNo h.index)]] ++
    if v = 10 ∨ v = 11 then [] else [[.int ((h.volume.val.map UInt8.toNat).getD 0)], [.text h.filename]])

/-- The column of the hit sample: there is none before version 10. -/
def sampleCol (v : Nat) : Option HO.HitSample → List (List (Piece D))
  | none => []
  | some h => if NoSample v then [] else [sampleToks v h]

/-- A curve point. -/
def curvePointToks (p : Position D) : List (Piece D) := glue ':' [[.number p.x], [.number p.y]]

/-- The letters of the curve types. -/
def curveLetter : HO.CurveType → Str
  | .bezier => c!"B" | .centripetal => c!"C" | .linear => c!"L" | .perfectCircle => c!"P"

/-- The columns of a slider: curve, number of slides, length, and as far as they are needed edge sounds and edge sets. In
version 3 the position is written as the first point of the curve. -/
def sliderCols (v : Nat) (pos : Position D) (p : SlideParams D) (sample : Bool) : List (List (Piece D)) :=
  let sets := !p.edgeSets.isEmpty || !p.edgeSetsShort || sample
  let sounds := !p.edgeSounds.isEmpty || !p.edgeSoundsShort || sets
  [glue '|' ([.text (curveLetter p.curveType)] ::
      ((if v = 3 then [pos] else []) ++ p.curvePoints.map HO.CurvePoint.pos).map curvePointToks),
    [.int p.slides.toInt], [.number p.length]] ++
  (if sounds then [glue '|' (p.edgeSounds.map fun h => [.int (hitSoundNo h)])] else []) ++
  if sets then [glue '|' (p.edgeSets.map fun e => glue ':' [[.int (objectSetNo e.normalSet)], [.int (objectSetNo e.additionSet)]])] else []

/-- The columns all hit objects have. -/
def headCols (v : Nat) (o : HitObject D) : List (List (Piece D)) :=
  [[.number o.position.x], [.number o.position.y], [.clock v o.time], [.int (objectTypeNo o)], [.int (hitSoundNo o.hitsound)]]

/-- The line of a hit object. In version 3 a circle has a comma at the end. -/
def objectToks (v : Nat) (o : HitObject D) : List (Piece D) :=
  match o.params with
  | .hitCircle => glue ',' (headCols v o ++ sampleCol v o.hitsample) ++ if v = 3 then [.text c!","] else []
  | .slider p => glue ',' (headCols v o ++ sliderCols v o.position p o.hitsample.isSome ++ sampleCol v o.hitsample)
  | .spinner e => glue ',' (headCols v o ++ [[.clock v e]] ++ sampleCol v o.hitsample)
  | .hold e => glue ',' (headCols v o ++ [[.clock v e, .text c!":"] ++ (sampleCol v o.hitsample).flatten])

/-! ### Commands -/

open SB in
/-- The number of an easing: its place in the table. -/
def easingNo : Easing → Int
  | .other n => n.toInt
  | e => easings.idxOf e

open SB in
/-- The words of the hit sound of a trigger. -/
def hitSoundToks (h : SB.HitSound) : List (Piece D) :=
  [.text c!"HitSound"] ++
  (match h.sampleSet with | none => [] | some a => [.text ((triggerSets.lookup a).getD [])]) ++
  (match h.additionsSampleSet with | none => [] | some a => [.text ((triggerSets.lookup a).getD [])]) ++
  (match h.addition with | none => [] | some a => [.text ((triggerAdditions.lookup a).getD [])]) ++
  (match h.customSampleSet with | none => [] | some n => [.int n.toNat])

open SB in
/-- A trigger type. -/
def triggerToks : TriggerType → List (Piece D)
  | .passing => [.text c!"Passing"]
  | .failing => [.text c!"Failing"]
  | .hitSound h => hitSoundToks h

/-- Columns up to the last that is there. -/
def colsToLast : List (Option Int32) → List (List (Piece D))
  | [] => []
  | x :: xs => if (x :: xs).all Option.isNone then [] else optTok x :: colsToLast xs

open SB in
/-- The line of a command, without indentation and nested commands. -/
def commandToks : Command D → List (Piece D)
  | .mk st p =>
    let timed (letter : Str) (e : Easing) (et : Option Int32) (vals : List (List (Piece D))) : List (Piece D) :=
      glue ',' ([[.text letter], [.int (easingNo e)], optTok st, optTok et] ++ vals)
    let numbers (xs : List (Decimal D)) := xs.map fun x => [Piece.number x]
    let pairs (c : ContinuingFields (Decimal D)) := numbers ([c.start.1, c.start.2] ++ c.continuing.flatMap fun x => x.1 :: x.2.toList)
    match p with
    | .fade e et x xs => timed c!"F" e et (numbers (x :: xs))
    | .moveX e et x xs => timed c!"MX" e et (numbers (x :: xs))
    | .moveY e et x xs => timed c!"MY" e et (numbers (x :: xs))
    | .scale e et x xs => timed c!"S" e et (numbers (x :: xs))
    | .rotate e et x xs => timed c!"R" e et (numbers (x :: xs))
    | .move e et c => timed c!"M" e et (pairs c)
    | .vectorScale e et c => timed c!"V" e et (pairs c)
    | .colour e et c => timed c!"C" e et
        (([c.start.1, c.start.2.1, c.start.2.2] ++ c.continuing.flatMap fun x => x.1 :: (x.2.1.toList ++ x.2.2.toList)).map
          fun n => [Piece.int n.toNat])
    | .parameter e et x xs => timed c!"P" e et ((x :: xs).map fun x => [Piece.text ((parameterLetters.lookup x).getD [])])
    | .loop n _ => glue ',' [[.text c!"L"], optTok st, [.int n.toNat]]
    | .trigger t et g _ => glue ',' ([[.text c!"T"], triggerToks t] ++ colsToLast [st, et, g])

/-! ### Events -/

open Ev SB

/-- The optional position of an event. -/
def positionCols : Option (Position D) → List (List (Piece D))
  | none => []
  | some p => [[.number p.x], [.number p.y]]

/-- The columns of a sprite or animation of the old kind. -/
def legacyCols (header : Str) (x : SpriteLegacy D) : List (List (Piece D)) :=
  [[.text header], [.int (legacyLayers.idxOf x.layer)], [.int (legacyOrigins.idxOf x.origin)], [.path x.fileName]] ++
    positionCols x.position

/-- The origin of a storyboard object: a name, or a number if it is to be short or has no name. -/
def originTok (o : Origin) : Piece D :=
  match o.type with
  | .inl t => if o.shorthand then .int (originTypes.idxOf t) else .text ((originNames.lookup t).getD [])
  | .inr n => .int n.toInt

/-- The first line of an event. -/
def eventToks (v : Nat) : Event D → List (Piece D)
  | .comment s => [.text c!"//", .text s]
  | .background b => glue ',' ([[.text c!"0"], [.int b.startTime.toInt], [.path b.fileName]] ++ positionCols b.position)
  | .video b => glue ',' ([[.text (if b.shortHand then c!"1" else c!"Video")], [.moment v b.startTime], [.path b.fileName]] ++
      positionCols b.position)
  | .break_ b => glue ',' [[.text (if b.shortHand then c!"2" else c!"Break")], [.moment v b.startTime], [.moment v b.endTime]]
  | .colourTransformation c => glue ',' [[.text c!"3"], [.moment v c.startTime], [.int c.red.toNat], [.int c.green.toNat],
      [.int c.blue.toNat]]
  | .spriteLegacy x => glue ',' (legacyCols c!"4" x)
  | .animationLegacy x => glue ',' (legacyCols c!"5" x)
  | .sampleLegacy x => glue ',' ([[.text c!"6"], [.number x.time], [.int (legacyLayers.idxOf x.layer)], [.path x.fileName]] ++
      (x.volume.map fun n => [Piece.int n.val.toNat]).toList)
  | .object o =>
    let common (header : Str) (f : FilePath) : List (List (Piece D)) :=
      [[.text header], [.text ((layerNames.lookup o.layer).getD [])], [originTok o.origin], [.path f], [.number o.position.x],
        [.number o.position.y]]
    match o.objectType with
    | .sprite f => glue ',' (common c!"Sprite" f)
    | .animation n d l f => glue ',' (common c!"Animation" f ++
        [[.int n.toNat], [.number (.left d)], [.text ((loopNames.lookup l).getD [])]])
  | .audioSample a => glue ',' [[.text c!"Sample"], [.int a.time.toInt], [.int (audioLayers.idxOf a.layer)], [.path a.filepath],
      [.int a.volume.val.toNat]]

/-! ### Colours and variables -/

/-- The line of a colour. -/
def colourToks : Colour → List (Piece D)
  | .combo n c => [.text c!"Combo", .int n.toInt, .text c!" : "] ++ rgb c
  | .sliderTrackOverride c => [.text c!"SliderTrackOverride", .text c!" : "] ++ rgb c
  | .sliderBorder c => [.text c!"SliderBorder", .text c!" : "] ++ rgb c
where
  rgb (c : Rgb) : List (Piece D) := glue ',' [[.int c.red.toNat], [.int c.green.toNat], [.int c.blue.toNat]]

/-- The line of a variable. -/
def variableToks (x : Variable) : List (Piece D) := [.text c!"$", .text x.name, .text c!"=", .text x.value]

/-! ### Sections -/

/-- The lines of an event: its first line, and one line for each of its commands, depth first, with as many blanks as its
level. -/
def eventLines (v : Nat) (e : Event D) : List (List (Piece D)) :=
  eventToks v e :: (SB.listing 1 (cmdsOf e)).map fun x => .text (List.replicate x.1 ' ') :: commandToks x.2

/-- The lines of the events; colour transformations have none in version 14. -/
def eventsToks (v : Nat) (evs : List (Event D)) : List (Piece D) :=
  glue '\n' ((evs.filter (writtenIn v)).flatMap (eventLines v))

end Osu
