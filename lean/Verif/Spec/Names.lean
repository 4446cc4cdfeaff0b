/-
Specification of the names, letters and numbers that stand for the variants of the enumerations in the text.
-/
import Verif.Spec.Fields
import Verif.Spec.Events
import Verif.Spec.HitObjects

namespace Osu

/-! ### Names and letters -/

/-- The letters of the curve types. -/
def curveLetters : List (HO.CurveType × Str) :=
  [(.bezier, c!"B"), (.centripetal, c!"C"), (.linear, c!"L"), (.perfectCircle, c!"P")]

/-- The letters of the parameters of storyboard objects. -/
def parameterLetters : List (SB.Parameter × Str) :=
  [(.imageFlipHorizontal, c!"H"), (.imageFlipVertical, c!"V"), (.useAdditiveColourBlending, c!"A")]

/-- The names of the layers of storyboard objects. -/
def layerNames : List (SB.Layer × Str) :=
  [(.background, c!"Background"), (.fail, c!"Fail"), (.pass, c!"Pass"), (.foreground, c!"Foreground"), (.overlay, c!"Overlay")]

/-- The names of the origins of storyboard objects. -/
def originNames : List (SB.OriginType × Str) :=
  [(.topLeft, c!"TopLeft"), (.centre, c!"Centre"), (.centreLeft, c!"CentreLeft"), (.topRight, c!"TopRight"),
   (.bottomCentre, c!"BottomCentre"), (.topCentre, c!"TopCentre"), (.custom, c!"Custom"), (.centreRight, c!"CentreRight"),
   (.bottomLeft, c!"BottomLeft"), (.bottomRight, c!"BottomRight")]

/-- The names of the loop types of animations. -/
def loopNames : List (SB.LoopType × Str) := [(.loopForever, c!"LoopForever"), (.loopOnce, c!"LoopOnce")]

/-- The names of the sample sets in the hit sound of a trigger. -/
def triggerSets : List (SB.SampleSet × Str) :=
  [(.all, c!"All"), (.normal, c!"Normal"), (.soft, c!"Soft"), (.drum, c!"Drum")]

/-- The names of the additions in the hit sound of a trigger. -/
def triggerAdditions : List (SB.Addition × Str) := [(.whistle, c!"Whistle"), (.finish, c!"Finish"), (.clap, c!"Clap")]

/-! ### Numbers -/

/-- The easings in the order of their numbers. -/
def easings : List SB.Easing :=
  [.linear, .easingOut, .easingIn, .quadIn, .quadOut, .quadInOut, .cubicIn, .cubicOut, .cubicInOut, .quartIn, .quartOut,
   .quartInOut, .quintIn, .quintOut, .quintInOut, .sineIn, .sineOut, .sineInOut, .expoIn, .expoOut, .expoInOut, .circIn,
   .circOut, .circInOut, .elasticIn, .elasticOut, .elasticHalfOut, .elasticQuarterOut, .elasticInOut, .backIn, .backOut,
   .backInOut, .bounceIn, .bounceOut, .bounceInOut]

/-- The sample sets of timing points in the order of their numbers. -/
def pointSets : List TP.SampleSet := [.beatmapDefault, .normal, .soft, .drum]

/-- The sample sets of hit objects in the order of their numbers. -/
def objectSets : List HO.SampleSet := [.noCustom, .normal, .soft, .drum]

/-- The entry of a table with the number, or something else if there is none. -/
def byNumber {α : Type} (table : List α) (other : α) (n : Int) : α :=
  if 0 ≤ n then (table[n.toNat]?).getD other else other

/-- The number of an entry of a table. -/
def NumberOf {α : Type} (table : List α) (a : α) (n : Int) : Prop := ∃ i : Nat, table[i]? = some a ∧ n = i

/-- The number written for the sample index of a timing point: up to `i32::MAX` the index, above it 2^32 less. -/
def pointIndexNo : TP.SampleIndex → Int
  | .osuDefaultHitsounds => 0
  | .index n => if n.toNat ≤ 2147483647 then n.toNat else (n.toNat : Int) - 4294967296

/-- The number of the hit sounds: normal counts 1, whistle 2, finish 4, clap 8. -/
def hitSoundNo (h : HO.HitSound) : Nat := h.normal.toNat + 2 * h.whistle.toNat + 4 * h.finish.toNat + 8 * h.clap.toNat

/-- The number of the type of a hit object: circle 1, slider 2, spinner 8, hold note 128; a new combo counts 4, each skipped
combo colour 16. -/
def objectTypeNo {D : Type} (o : HitObject D) : Nat :=
  (match o.params with | .hitCircle => 1 | .slider _ => 2 | .spinner _ => 8 | .hold _ => 128) +
    4 * o.newCombo.toNat + 16 * o.comboSkip.val.toNat

end Osu
