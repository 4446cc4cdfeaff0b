/-
Specification of the error reported for a hit object line that is refused, and of the lines that panic.
-/
import Verif.Spec.FaultsCmds
import Verif.Spec.HitObjects

namespace Osu
open HO

/-- A list of readable items separated by bars. -/
def barList {ε α : Type} (f : Str → Res ε α) (p : Str) : Bool :=
  p.isEmpty || (lacks '\r' p && lacks '\n' p && (splitOnC '|' p).all (readable f))

/-- A piece of only blanks and tabs, or another one. -/
def orSpaces (ok : Str → Bool) (p : Str) : Bool := blanks p || ok p

/-- The text before the first bar is a curve type. -/
def curveName (p : Str) : Bool := readable CurveType.parse (p.takeWhile fun c => !(c == '|'))

/-- The text after the first bar is a list of points. -/
def curvePoints (D : Type) [DecLib D] (p : Str) : Bool :=
  barList (CurvePoint.parse : Str → Res _ (CurvePoint D)) ((p.dropWhile fun c => !(c == '|')).drop 1)

/-- The curve. An unreadable point is reported as a missing slides count. -/
def curveColumn (D : Type) [DecLib D] (q : Str) : Column HOErr :=
  ⟨.missingCurveType, if curveName q then .missingSlidesCount else .invalidCurveType,
    fun p => curveName p && curvePoints D p, false⟩

/-- Edge sounds, edge sets and hit sample. Unreadable edge sounds are reported as missing edge sets, unreadable edge
sets as a missing hit sample. -/
def edgeColumns : List Str → List (Column HOErr)
  | [] => []
  | [_] => [⟨.missingEdgeSound, .missingEdgeSet, orSpaces (barList HitSound.parse), false⟩]
  | [_, _] => [⟨.missingEdgeSound, .missingEdgeSet, barList HitSound.parse, false⟩,
      ⟨.missingEdgeSet, .missingHitSample, orSpaces (barList EdgeSet.parse), false⟩]
  | _ => [⟨.missingEdgeSound, .missingEdgeSet, barList HitSound.parse, false⟩,
      ⟨.missingEdgeSet, .missingHitSample, barList EdgeSet.parse, false⟩,
      ⟨.missingHitSample, .invalidHitSample, readable HitSample.parse, true⟩]

/-- The optional hit sample. -/
def sampleColumns (qs : List Str) : List (Column HOErr) :=
  if qs = [] then [] else [⟨.missingHitSample, .invalidHitSample, readable HitSample.parse, true⟩]

def sliderColumns (D : Type) [DecLib D] (qs : List Str) : List (Column HOErr) :=
  [curveColumn D (qs.headD []), ⟨.missingSlidesCount, .invalidSlidesCount, readable parseI32, false⟩,
    freeColumn .missingLength] ++ edgeColumns (qs.drop 3)

def spinnerColumns (qs : List Str) : List (Column HOErr) := freeColumn .missingEndTime :: sampleColumns (qs.drop 1)

/-- End time and hit sample of a hold note: a colon is needed. -/
def holdColumns (qs : List Str) : List (Column HOErr) :=
  [⟨.missingEndTime, if lacks ':' (join [','] qs) then .invalidEndTime else .invalidHitSample,
    fun t => !lacks ':' t && readable HitSample.parse ((t.dropWhile fun c => !(c == ':')).drop 1), true⟩]

/-- The kinds of hit objects. -/
inductive HOKind where
  | circle | slider | spinner | hold
  deriving DecidableEq, Repr

instance (n : Int32) (k : Nat) : Decidable (typeBit n k) := by unfold typeBit; infer_instance

/-- The kind for a type number: the first of the bits 0, 1, 3 and 7 that is set. -/
def hoKind (n : Int32) : Option HOKind :=
  if typeBit n 0 then some .circle else if typeBit n 1 then some .slider
  else if typeBit n 3 then some .spinner else if typeBit n 7 then some .hold else none

/-- The columns after the hit sound. -/
def kindColumns (D : Type) [DecLib D] (qs : List Str) : HOKind → List (Column HOErr)
  | .circle => sampleColumns qs
  | .slider => sliderColumns D qs
  | .spinner => spinnerColumns qs
  | .hold => holdColumns qs

/-- The columns of all objects. -/
def hoHeadColumns : List (Column HOErr) :=
  [freeColumn .missingX, freeColumn .missingY, freeColumn .missingTime,
    ⟨.missingObjType, .invalidObjType, readable parseI32, false⟩,
    ⟨.missingHitSound, .invalidHitSound, readable HitSound.parse, false⟩]

/-- The kind of the object on a line with the pieces `ps`. -/
def pieceKind (ps : List Str) : Option HOKind :=
  match ps[3]?.map parseI32 with
  | some (.ok n) => hoKind n
  | _ => none

/-- The error of a line with the pieces `ps`, if it has one. -/
def hoFault (D : Type) [DecLib D] (ps : List Str) : Option HOErr :=
  match firstFault hoHeadColumns ps with
  | some e => some e
  | none =>
    match pieceKind ps with
    | some k => firstFault (kindColumns D (ps.drop 5) k) (ps.drop 5)
    | none => some .unknownObjType

/-- The lines that panic: the time overflows; or everything up to the hit sound is fine and the end time of a
spinner or hold note overflows. -/
inductive HOPanics (D : Type) [DecLib D] (v : Nat) : List Str → Prop
  | time {x y t : Str} {ps : List Str} (h : TimeOverflows D v t) : HOPanics D v (x :: y :: t :: ps)
  | spinner {ps es : List Str} {e : Str} (hh : firstFault hoHeadColumns ps = none)
      (hk : pieceKind ps = some .spinner) (he : ps.drop 5 = e :: es) (h : TimeOverflows D v e) : HOPanics D v ps
  | hold {ps : List Str} {a b : Str} (hh : firstFault hoHeadColumns ps = none)
      (hk : pieceKind ps = some .hold) (he : join [','] (ps.drop 5) = a ++ ':' :: b) (ha : lacks ':' a)
      (h : TimeOverflows D v a) : HOPanics D v ps

end Osu
