/-
Other spellings of the same text or value: texts are `Alike` if they are the same except for numbers and paths between
separators, which are only equal; `respell d p` puts `d x` for every number `x` and `p q` for every path `q` of a value and
leaves the rest as it is.
-/
import Verif.Model.Equality
import Verif.Spec.Events

namespace Osu
open SB Ev
variable {D : Type} (d : D → D) (p : Str → Str)

def Decimal.respell : Decimal D → Decimal D
  | .left x => .left (d x)
  | .right s => .right s

def Position.respell (q : Position D) : Position D := ⟨q.x.respell d, q.y.respell d⟩

def TimingPoint.respell (t : TimingPoint D) : TimingPoint D :=
  { t with time := t.time.respell d, beatLength := t.beatLength.respell d }

def HOParams.respell : HOParams D → HOParams D
  | .hitCircle => .hitCircle
  | .slider s => .slider { s with curvePoints := s.curvePoints.map fun c => ⟨c.pos.respell d⟩, length := s.length.respell d }
  | .spinner e => .spinner (e.respell d)
  | .hold e => .hold (e.respell d)

def HitObject.respell (o : HitObject D) : HitObject D :=
  { o with position := o.position.respell d, time := o.time.respell d, params := o.params.respell d }

def pairsRespell (c : ContinuingFields (Decimal D)) : ContinuingFields (Decimal D) :=
  ⟨(c.start.1.respell d, c.start.2.respell d), c.continuing.map fun a => (a.1.respell d, a.2.map (Decimal.respell d))⟩

mutual
def SB.Command.respell : Command D → Command D
  | .mk t q => .mk t (propsRespell q)
def SB.propsRespell : CmdProps D (Command D) → CmdProps D (Command D)
  | .fade e t s c => .fade e t (s.respell d) (c.map (Decimal.respell d))
  | .move e t c => .move e t (pairsRespell d c)
  | .moveX e t s c => .moveX e t (s.respell d) (c.map (Decimal.respell d))
  | .moveY e t s c => .moveY e t (s.respell d) (c.map (Decimal.respell d))
  | .scale e t s c => .scale e t (s.respell d) (c.map (Decimal.respell d))
  | .vectorScale e t c => .vectorScale e t (pairsRespell d c)
  | .rotate e t s c => .rotate e t (s.respell d) (c.map (Decimal.respell d))
  | .loop n c => .loop n (cmdsRespell c)
  | .trigger k t g c => .trigger k t g (cmdsRespell c)
  | .colour e t c => .colour e t c
  | .parameter e t q c => .parameter e t q c
def SB.cmdsRespell : List (Command D) → List (Command D)
  | [] => []
  | c :: cs => c.respell :: cmdsRespell cs
end

def SB.ObjectType.respell : ObjectType D → ObjectType D
  | .sprite q => .sprite (p q)
  | .animation n x l q => .animation n (d x) l (p q)

def Ev.Event.respell : Event D → Event D
  | .comment s => .comment s
  | .background b => .background
      { b with fileName := p b.fileName, position := b.position.map (Position.respell d), commands := cmdsRespell d b.commands }
  | .video b => .video
      { b with fileName := p b.fileName, position := b.position.map (Position.respell d), commands := cmdsRespell d b.commands }
  | .break_ b => .break_ b
  | .colourTransformation b => .colourTransformation b
  | .spriteLegacy b => .spriteLegacy
      { b with fileName := p b.fileName, position := b.position.map (Position.respell d), commands := cmdsRespell d b.commands }
  | .animationLegacy b => .animationLegacy
      { b with fileName := p b.fileName, position := b.position.map (Position.respell d), commands := cmdsRespell d b.commands }
  | .sampleLegacy b => .sampleLegacy
      { b with time := b.time.respell d, fileName := p b.fileName, commands := cmdsRespell d b.commands }
  | .object o => .object
      { o with position := o.position.respell d, objectType := o.objectType.respell d p, commands := cmdsRespell d o.commands }
  | .audioSample a => .audioSample { a with filepath := p a.filepath }

def Osb.respell (o : Osb D) : Osb D := { o with events := o.events.map (List.map (Event.respell d p)) }

/-- In a file there are also numbers and a path among the fields of the sections. -/
def GKey.respell : (k : GKey) → k.Val D → k.Val D
  | .audioFilename, x => p x
  | .stackLeniency, x => Decimal.respell d x
  | .editorDistanceSpacing, x => Decimal.respell d x
  | .editorBookmarks, x | .audioLeadIn, x | .previewTime, x | .countdownOffset, x | .audioHash, x | .skinPreference, x
  | .countdown, x | .sampleSet, x | .mode, x | .overlayPosition, x | .letterboxInBreaks, x | .storyFireInFront, x
  | .useSkinSprites, x | .alwaysShowPlayfield, x | .epilepsyWarning, x | .specialStyle, x | .widescreenStoryboard, x
  | .samplesMatchPlaybackRate, x => x

def EKey.respell : (k : EKey) → k.Val D → k.Val D
  | .distanceSpacing, x | .beatDivisor, x | .timelineZoom, x => Decimal.respell d x
  | .bookmarks, x | .gridSize, x | .currentTime, x => x

variable [DecLib D]

def OsuFile.respell (f : OsuFile D) : OsuFile D :=
  { f with
    general := f.general.map fun g k => (g k).map (GKey.respell d p k)
    editor := f.editor.map fun g k => (g k).map (EKey.respell d k)
    osb := f.osb.map (Osb.respell d p)
    difficulty := f.difficulty.map fun g k => (g k).map (Decimal.respell d)
    events := f.events.map (List.map (Event.respell d p))
    timingPoints := f.timingPoints.map (List.map (TimingPoint.respell d))
    hitobjects := f.hitobjects.map (List.map (HitObject.respell d)) }

/-- The file name of an audio sample, background, and so on has no comma and no end of line in it, that of the audio file no end
of line; so it is with files that were loaded. -/
structure PlainPaths (f : OsuFile D) : Prop where
  audio : ∀ g, f.general = some g → ∀ a : Str, g .audioFilename = some a → '\n' ∉ a
  events : ∀ l, f.events = some l → ∀ e ∈ l, ∀ a, pathOf e = some a → ',' ∉ a ∧ '\n' ∉ a

omit [DecLib D]

/-- Texts made of the same parts, which are separated in the same way, except that parts which are numbers or paths may be spelled
in another way. -/
inductive Alike (D : Type) [DecSame D] [DecLib D] : Str → Str → Prop
  | text (s : Str) : Alike D s s
  | number {x y : Decimal D} (h : x.same y = true) : Alike D x.toStr y.toStr
  | audio {a b : Str} (h : pathEq a b = true) (ha : '\n' ∉ a) (hb : '\n' ∉ b) : Alike D (c!"AudioFilename: " ++ a) (c!"AudioFilename: " ++ b)
  | path {a b : FilePath} (h : pathEq a b = true) (ha : ',' ∉ a ∧ '\n' ∉ a) (hb : ',' ∉ b ∧ '\n' ∉ b) : Alike D a.toStr b.toStr
  | separated {a b a' b' : Str} (c : Char) (hc : c ∈ c!",:| \n") (h : Alike D a b) (h' : Alike D a' b') :
    Alike D (a ++ c :: a') (b ++ c :: b')

end Osu
