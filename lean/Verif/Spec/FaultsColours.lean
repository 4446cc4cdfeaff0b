/-
Specification of the colour lines: the grammar of the accepted ones, and the error reported for the others.
-/
import Verif.Spec.Faults
import Verif.Spec.HitObjects
import Verif.Model.Colours

namespace Osu
open Parser

/-- Three numbers separated by commas, with blanks and tabs around the numbers except after the last; the first two
are plain digits. -/
inductive RgbReads : Str → Rgb → Prop
  | mk {b0 b1 b2 b3 b4 r g b : Str} {c : Rgb} (h0 : blanks b0) (h1 : blanks b1) (h2 : blanks b2) (h3 : blanks b3)
      (h4 : blanks b4) (hr : r.all isDig) (hg : g.all isDig) (er : parseU8 r = .ok c.red)
      (eg : parseU8 g = .ok c.green) (eb : parseU8 b = .ok c.blue) :
      RgbReads (b0 ++ r ++ b1 ++ ',' :: (b2 ++ g ++ b3 ++ ',' :: (b4 ++ b))) c

/-- The name of an entry, and what the entry is. -/
inductive ColourName : Str → (Rgb → Colour) → Prop
  | combo {n : Str} {k : Int32} (h : n.all isDig) (e : parseI32 n = .ok k) : ColourName (c!"Combo" ++ n) (.combo k)
  | track : ColourName c!"SliderTrackOverride" .sliderTrackOverride
  | border : ColourName c!"SliderBorder" .sliderBorder
  | borderLower : ColourName c!"Sliderborder" .sliderBorder

/-- A name, blanks, a colon and the numbers. -/
inductive ColourReads : Str → Colour → Prop
  | mk {name b t : Str} {f : Rgb → Colour} {c : Rgb} (hn : ColourName name f) (hb : blanks b) (ht : RgbReads t c) :
      ColourReads (name ++ b ++ ':' :: t) (f c)

/-- The text after blanks and tabs. -/
def skipSp (s : Str) : Str := s.dropWhile fun c => c == ' ' || c == '\t'

/-- The digits at the start, after blanks and tabs. -/
def leadDigits (s : Str) : Str := (skipSp s).takeWhile isDig

/-- What follows them and further blanks and tabs. -/
def pastDigits (s : Str) : Str := skipSp ((skipSp s).dropWhile isDig)

/-- The text after a comma or colon. -/
def after (c : Char) : Str → Option Str
  | [] => none
  | d :: s => if d = c then some s else none

/-- The error of the numbers of a colour. -/
def rgbFault (s : Str) : Option RgbErr :=
  if readable parseU8 (leadDigits s) = false then some .invalidRed
  else match after ',' (pastDigits s) with
    | none => some .missingGreen
    | some t =>
      if readable parseU8 (leadDigits t) = false then some .invalidGreen
      else match after ',' (pastDigits t) with
        | none => some .missingBlue
        | some u => if readable parseU8 (skipSp u) then none else some .invalidBlue

/-- The error of what follows the name of a colour. -/
def colonFault (s : Str) : Option ColourErr :=
  match after ':' (skipSp s) with
  | none => some .invalidColonSeparator
  | some t => (rgbFault t).map .rgb

/-- The error of a colour line without blanks around it. -/
def colourFault (s : Str) : Option ColourErr :=
  if (c!"Combo").isPrefixOf s then
    if readable parseI32 ((s.drop 5).takeWhile isDig) then colonFault ((s.drop 5).dropWhile isDig)
    else some .invalidComboCount
  else if (c!"SliderTrackOverride").isPrefixOf s then colonFault (s.drop 19)
  else if (c!"SliderBorder").isPrefixOf s || (c!"Sliderborder").isPrefixOf s then colonFault (s.drop 12)
  else some .unknownColourType

end Osu
