/-
Specification of the fields of the key/value sections: their names, what their values mean and how they are written.
-/
import Verif.Spec.KV
import Verif.Props.Numbers
import Verif.Model.Editor
import Verif.Model.Metadata
import Verif.Model.Difficulty

namespace Osu
open Parser

/-- The usual spelling of a natural number: digits without leading zeros. -/
def PlainNat (s : Str) (n : Nat) : Prop :=
  s ≠ [] ∧ AllC isDig s ∧ decVal s = n ∧ (s.head? = some '0' → s = ['0'])

/-- The usual spelling of an integer. -/
def PlainInt (s : Str) (n : Int) : Prop :=
  (0 ≤ n ∧ PlainNat s n.natAbs) ∨ (n < 0 ∧ ∃ d, s = '-' :: d ∧ PlainNat d n.natAbs)

/-- What a field of a key/value section can hold. -/
inductive FVal (D : Type) where
  | text (s : Str)
  | int (n : Int32)
  | flag (b : Bool)
  | number (x : Decimal D)
  | ints (l : List Int32)
  | words (l : List Str)
  | countdown (x : Countdown)
  | sampleSet (x : GSampleSet)
  | mode (x : Mode)
  | overlay (x : OverlayPosition)

/-- The kinds of fields. -/
inductive FKind where
  | text | integer | flag | number | integers | words | countdown | sampleSet | mode | overlay

/-- A field: its name in the file, its kind, and the versions in which it is written. -/
structure FField where
  name : Str
  kind : FKind
  written : Nat → Prop

/-- Texts and the integers they spell, one by one. -/
inductive Spelled (R : Str → Int → Prop) : List Str → List Int32 → Prop
  | nil : Spelled R [] []
  | cons {s ss} {n : Int32} {ns} (h : R s n.toInt) (t : Spelled R ss ns) : Spelled R (s :: ss) (n :: ns)

/-- The numbers of the countdowns. -/
def countdownNo : Countdown → Nat
  | .noCountdown => 0 | .normal => 1 | .half => 2 | .double => 3

/-- The numbers of the game modes. -/
def modeNo : Mode → Nat
  | .osu => 0 | .taiko => 1 | .catch => 2 | .mania => 3

/-- The versions in which there is the game mode. -/
def ModeKnown (v : Nat) : Mode → Prop
  | .osu => True
  | .taiko => ¬ (3 ≤ v ∧ v ≤ 4)
  | .catch => ¬ (3 ≤ v ∧ v ≤ 6)
  | .mania => ¬ (3 ≤ v ∧ v ≤ 9)

/-- The names of the sample sets. -/
def sampleSetName : GSampleSet → Str
  | .normal => c!"Normal" | .soft => c!"Soft" | .drum => c!"Drum" | .none => c!"None"

/-- The names of the overlay positions. -/
def overlayName : OverlayPosition → Str
  | .noChange => c!"NoChange" | .below => c!"Below" | .above => c!"Above"

/-- The text `s` is a value of a field of the kind, and what it means: `none` when the version has no such value. -/
def FMeans {D : Type} [DecLib D] (v : Nat) (s : Str) (o : Option (FVal D)) : FKind → Prop
  | .text => o = some (.text s)
  | .integer => ∃ n : Int32, IsNumeral s n.toInt ∧ o = some (.int n)
  | .flag => (IsNumeral s 0 ∧ o = some (.flag false)) ∨ (IsNumeral s 1 ∧ o = some (.flag true))
  | .number => (∃ d : D, DecLib.parse s = some d ∧ o = some (.number (.left d))) ∨
      ((DecLib.parse s : Option D) = none ∧ o = some (.number (.right s)))
  | .integers => (s = [] ∧ o = some (.ints [])) ∨
      ∃ ps l, s = join [','] ps ∧ ps ≠ [] ∧ Spelled IsNumeral ps l ∧ o = some (.ints l)
  | .words => ∃ l, l ≠ [] ∧ (∀ w ∈ l, ' ' ∉ w) ∧ s = join [' '] l ∧ o = some (.words l)
  | .countdown => ((3 ≤ v ∧ v ≤ 4) ∧ o = none) ∨
      (¬ (3 ≤ v ∧ v ≤ 4) ∧ ∃ c, IsUNumeral s (countdownNo c) ∧ o = some (.countdown c))
  | .sampleSet => (v = 3 ∧ o = none) ∨ (v ≠ 3 ∧ ∃ x, s = sampleSetName x ∧ o = some (.sampleSet x))
  | .mode => ∃ m, IsUNumeral s (modeNo m) ∧
      ((ModeKnown v m ∧ o = some (.mode m)) ∨ (¬ ModeKnown v m ∧ o = none))
  | .overlay => ((3 ≤ v ∧ v ≤ 13) ∧ o = none) ∨
      (¬ (3 ≤ v ∧ v ≤ 13) ∧ ∃ x, s = overlayName x ∧ o = some (.overlay x))

/-- The text written for a value. -/
def FShows {D : Type} [DecLib D] (t : Str) : FVal D → Prop
  | .text s => t = s
  | .int n => PlainInt t n.toInt
  | .flag b => t = if b then ['1'] else ['0']
  | .number (.left d) => t = DecLib.shw d
  | .number (.right s) => t = s
  | .ints l => ∃ ps, t = join [','] ps ∧ Spelled PlainInt ps l
  | .words l => t = join [' '] l
  | .countdown c => PlainNat t (countdownNo c)
  | .sampleSet x => t = sampleSetName x
  | .mode m => PlainNat t (modeNo m)
  | .overlay x => t = overlayName x

/-- A section as its fields in the order of the file, each with what it holds. -/
abbrev FView (D : Type) := List (FField × Option (FVal D))

/-- The entries of a text give the section: the keys are names of fields, none twice; a field named by an entry holds what
the value means, any other field holds nothing. -/
def FReads {D : Type} [DecLib D] (v : Nat) (es : List (KVLine × Str)) (view : FView D) : Prop :=
  (es.map fun e => e.1.key).Nodup ∧ (∀ e ∈ es, ∃ p ∈ view, p.1.name = e.1.key) ∧
  ∀ p ∈ view, (∃ e ∈ es, e.1.key = p.1.name ∧ FMeans v e.1.value p.2 p.1.kind) ∨
    ((∀ e ∈ es, e.1.key ≠ p.1.name) ∧ p.2 = none)

/-- The lines written for a section: one for each field that holds something and is written in the version, with the name,
a colon, a space depending on the value, and the value. -/
inductive FLines {D : Type} [DecLib D] (v : Nat) (space : Str → Str) : FView D → List Str → Prop
  | nil : FLines v space [] []
  | skip {f : FField} {o : Option (FVal D)} {view ls} (h : o = none ∨ ¬ f.written v) (t : FLines v space view ls) :
      FLines v space ((f, o) :: view) ls
  | line {f : FField} {x : FVal D} {view ls s} (hw : f.written v) (hs : FShows s x) (t : FLines v space view ls) :
      FLines v space ((f, some x) :: view) ((f.name ++ ':' :: (space s ++ s)) :: ls)

/-- The text of a section. -/
def FWritten {D : Type} [DecLib D] (v : Nat) (space : Str → Str) (view : FView D) (t : Str) : Prop :=
  ∃ ls, FLines v space view ls ∧ t = join ['\n'] ls

/-- Written in every version. -/
def always : Nat → Prop := fun _ => True

section
variable {D : Type} [DecLib D]

/-- The fields of the General section. -/
def generalView (g : (General D).Section) : FView D :=
  [(⟨c!"AudioFilename", .text, always⟩, (g .audioFilename).map .text),
   (⟨c!"AudioLeadIn", .integer, always⟩, (g .audioLeadIn).map .int),
   (⟨c!"AudioHash", .text, fun v => v ≤ 13⟩, (g .audioHash).map .text),
   (⟨c!"PreviewTime", .integer, always⟩, (g .previewTime).map .int),
   (⟨c!"Countdown", .countdown, fun v => ¬ (3 ≤ v ∧ v ≤ 4)⟩, (g .countdown).map .countdown),
   (⟨c!"SampleSet", .sampleSet, fun v => v ≠ 3⟩, (g .sampleSet).map .sampleSet),
   (⟨c!"StackLeniency", .number, always⟩, (g .stackLeniency).map .number),
   (⟨c!"Mode", .mode, always⟩, (g .mode).map .mode),
   (⟨c!"LetterboxInBreaks", .flag, always⟩, (g .letterboxInBreaks).map .flag),
   (⟨c!"StoryFireInFront", .flag, always⟩, (g .storyFireInFront).map .flag),
   (⟨c!"UseSkinSprites", .flag, always⟩, (g .useSkinSprites).map .flag),
   (⟨c!"AlwaysShowPlayfield", .flag, always⟩, (g .alwaysShowPlayfield).map .flag),
   (⟨c!"OverlayPosition", .overlay, fun v => ¬ (3 ≤ v ∧ v ≤ 13)⟩, (g .overlayPosition).map .overlay),
   (⟨c!"SkinPreference", .text, always⟩, (g .skinPreference).map .text),
   (⟨c!"EpilepsyWarning", .flag, always⟩, (g .epilepsyWarning).map .flag),
   (⟨c!"CountdownOffset", .integer, always⟩, (g .countdownOffset).map .int),
   (⟨c!"SpecialStyle", .flag, always⟩, (g .specialStyle).map .flag),
   (⟨c!"WidescreenStoryboard", .flag, always⟩, (g .widescreenStoryboard).map .flag),
   (⟨c!"SamplesMatchPlaybackRate", .flag, always⟩, (g .samplesMatchPlaybackRate).map .flag),
   (⟨c!"EditorBookmarks", .integers, fun v => v ≤ 5⟩, (g .editorBookmarks).map .ints),
   (⟨c!"EditorDistanceSpacing", .number, fun v => v ≤ 5⟩, (g .editorDistanceSpacing).map .number)]

/-- The fields of the Editor section. -/
def editorView (g : (Editor D).Section) : FView D :=
  [(⟨c!"Bookmarks", .integers, always⟩, (g .bookmarks).map .ints),
   (⟨c!"DistanceSpacing", .number, always⟩, (g .distanceSpacing).map .number),
   (⟨c!"BeatDivisor", .number, always⟩, (g .beatDivisor).map .number),
   (⟨c!"GridSize", .integer, always⟩, (g .gridSize).map .int),
   (⟨c!"TimelineZoom", .number, always⟩, (g .timelineZoom).map .number),
   (⟨c!"CurrentTime", .integer, fun v => v = 10⟩, (g .currentTime).map .int)]

variable (D) in
/-- The fields of the Metadata section. -/
def metadataView (g : Metadata.Section) : FView D :=
  [(⟨c!"Title", .text, always⟩, (g .title).map .text),
   (⟨c!"TitleUnicode", .text, always⟩, (g .titleUnicode).map .text),
   (⟨c!"Artist", .text, always⟩, (g .artist).map .text),
   (⟨c!"ArtistUnicode", .text, always⟩, (g .artistUnicode).map .text),
   (⟨c!"Creator", .text, always⟩, (g .creator).map .text),
   (⟨c!"Version", .text, always⟩, (g .version).map .text),
   (⟨c!"Source", .text, always⟩, (g .source).map .text),
   (⟨c!"Tags", .words, always⟩, (g .tags).map .words),
   (⟨c!"BeatmapID", .integer, always⟩, (g .beatmapID).map .int),
   (⟨c!"BeatmapSetID", .integer, always⟩, (g .beatmapSetID).map .int)]

/-- The fields of the Difficulty section. -/
def difficultyView (g : (Difficulty D).Section) : FView D :=
  [(⟨c!"HPDrainRate", .number, always⟩, (g .hpDrainRate).map .number),
   (⟨c!"CircleSize", .number, always⟩, (g .circleSize).map .number),
   (⟨c!"OverallDifficulty", .number, always⟩, (g .overallDifficulty).map .number),
   (⟨c!"ApproachRate", .number, always⟩, (g .approachRate).map .number),
   (⟨c!"SliderMultiplier", .number, always⟩, (g .sliderMultiplier).map .number),
   (⟨c!"SliderTickRate", .number, always⟩, (g .sliderTickRate).map .number)]

end

/-- Between colon and value of a Difficulty field: a blank only in the versions 3 and 4 and only before these values. -/
def difficultySpace (v : Nat) (t : Str) : Str :=
  if (v = 3 ∨ v = 4) ∧ (t = c!"SliderTickRate" ∨ t = c!"SliderMultipler") then [' '] else []

end Osu
