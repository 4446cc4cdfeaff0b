/-
Specification of event lines: what the comma separated pieces of a line that starts an event mean, and which
events have a text.
-/
import Verif.Model.Events
import Verif.Spec.Cmds
import Verif.Spec.Split
import Verif.Spec.Tree

namespace Osu
open SB Ev
variable {D : Type} [DecLib D]

/-- In versions 3 and 4 a time in memory is 24 more than the time in the text. -/
def OldTime (v : Nat) (text mem : Int32) : Prop :=
  mem.toInt = text.toInt + if v = 3 ∨ v = 4 then 24 else 0

/-- The layers in the order of their codes. -/
def legacyLayers : List LayerLegacy := [.background, .fail, .pass, .foreground, .overlay, .video]

/-- The origins in the order of their codes. -/
def legacyOrigins : List OriginLegacy :=
  [.topLeft, .centre, .centreLeft, .topRight, .bottomCentre, .topCentre, .custom, .centreRight, .bottomLeft, .bottomRight]

/-- The origins of storyboard objects in the order of their codes. -/
def originTypes : List OriginType :=
  [.topLeft, .centre, .centreLeft, .topRight, .bottomCentre, .topCentre, .custom, .centreRight, .bottomLeft, .bottomRight]

/-- The layers of audio samples in the order of their codes. -/
def audioLayers : List AudioLayer := [.background, .fail, .pass, .foreground]

/-- A piece that is the code of an entry of a table. -/
def CodeReads {α : Type} (table : List α) (s : Str) (a : α) : Prop :=
  ∃ n : UInt64, parseUsize s = .ok n ∧ table[n.toNat]? = some a

/-- A volume piece. -/
def VolReads (s : Str) (v : Volume) : Prop := parseU8 s = .ok v.val ∧ v.val.toNat ≤ 100

/-- An origin piece of a storyboard object: a name or a code. -/
inductive OriginReads : Str → Origin → Prop
  | name (t : OriginType) : OriginReads t.shw ⟨.inl t, false⟩
  | code {s : Str} {n : Int32} {t : OriginType} (h : parseI32 s = .ok n) (h0 : 0 ≤ n.toInt)
      (ht : originTypes[n.toInt.toNat]? = some t) : OriginReads s ⟨.inl t, true⟩
  | other {s : Str} {n : Int32} (h : parseI32 s = .ok n) (hn : n.toInt < 0 ∨ 9 < n.toInt) : OriginReads s ⟨.inr n, true⟩

/-- The optional position at the end of a line. The second coordinate extends to the end of the line. -/
inductive PosReads : List Str → Option (Position D) → Prop
  | none : PosReads [] none
  | some (x y : Str) (ys : List Str) : PosReads (x :: y :: ys) (some ⟨.ofStr x, .ofStr (join [','] (y :: ys))⟩)

/-- The optional volume at the end of a line. -/
inductive VolTail : List Str → Option Volume → Prop
  | none : VolTail [] none
  | some {s : Str} {v : Volume} (h : VolReads s v) : VolTail [s] (some v)

/-- The optional volume of an audio sample; what follows it is ignored. -/
inductive VolOr100 : List Str → Volume → Prop
  | none : VolOr100 [] ⟨100⟩
  | some {s : Str} {v : Volume} {more : List Str} (h : VolReads s v) : VolOr100 (s :: more) v

/-- The optional loop type at the end of a line. -/
inductive LoopTail : List Str → LoopType → Prop
  | none : LoopTail [] .loopForever
  | some (l : LoopType) : LoopTail [l.shw] l

/-- What the comma separated pieces of a line that starts an event mean. -/
inductive EvReads (v : Nat) : List Str → Event D → Prop
  | background {t f : Str} {ps : List Str} {n : Int32} {pos : Option (Position D)} (ht : parseI32 t = .ok n)
      (hp : PosReads ps pos) : EvReads v (c!"0" :: t :: f :: ps) (.background ⟨n, f, pos, []⟩)
  | video {h t f : Str} {ps : List Str} {n n' : Int32} {pos : Option (Position D)} {short : Bool}
      (hh : h = if short then c!"1" else c!"Video") (ht : parseI32 t = .ok n) (hn : OldTime v n n')
      (hp : PosReads ps pos) : EvReads v (h :: t :: f :: ps) (.video ⟨n', f, pos, [], short⟩)
  | break_ {h a b : Str} {n n' m m' : Int32} {short : Bool} (hh : h = if short then c!"2" else c!"Break")
      (ha : parseI32 a = .ok n) (hn : OldTime v n n') (hb : parseI32 b = .ok m) (hm : OldTime v m m') :
      EvReads v [h, a, b] (.break_ ⟨n', m', short⟩)
  | colourTransformation {t x y z : Str} {n n' : Int32} {r g b : UInt8} (ht : parseI32 t = .ok n)
      (hn : OldTime v n n') (hx : parseU8 x = .ok r) (hy : parseU8 y = .ok g) (hz : parseU8 z = .ok b) :
      EvReads v [c!"3", t, x, y, z] (.colourTransformation ⟨n', r, g, b⟩)
  | spriteLegacy {l o f : Str} {ps : List Str} {la : LayerLegacy} {og : OriginLegacy} {pos : Option (Position D)}
      (hl : CodeReads legacyLayers l la) (ho : CodeReads legacyOrigins o og) (hp : PosReads ps pos) :
      EvReads v (c!"4" :: l :: o :: f :: ps) (.spriteLegacy ⟨la, og, f, pos, []⟩)
  | animationLegacy {l o f : Str} {ps : List Str} {la : LayerLegacy} {og : OriginLegacy} {pos : Option (Position D)}
      (hl : CodeReads legacyLayers l la) (ho : CodeReads legacyOrigins o og) (hp : PosReads ps pos) :
      EvReads v (c!"5" :: l :: o :: f :: ps) (.animationLegacy ⟨la, og, f, pos, []⟩)
  | sampleLegacy {t l f : Str} {ps : List Str} {la : LayerLegacy} {vol : Option Volume}
      (hl : CodeReads legacyLayers l la) (hv : VolTail ps vol) :
      EvReads v (c!"6" :: t :: l :: f :: ps) (.sampleLegacy ⟨.ofStr t, la, f, vol, []⟩)
  | sprite {l : Layer} {o f x y : Str} {more : List Str} {og : Origin} (ho : OriginReads o og) :
      EvReads v (c!"Sprite" :: l.shw :: o :: f :: x :: y :: more)
        (.object ⟨l, og, ⟨.ofStr x, .ofStr y⟩, .sprite f, []⟩)
  | animation {l : Layer} {o f x y c d : Str} {ps : List Str} {og : Origin} {n : UInt32} {delay : D} {lt : LoopType}
      (ho : OriginReads o og) (hc : parseU32 c = .ok n) (hd : DecLib.parse d = some delay) (hl : LoopTail ps lt) :
      EvReads v (c!"Animation" :: l.shw :: o :: f :: x :: y :: c :: d :: ps)
        (.object ⟨l, og, ⟨.ofStr x, .ofStr y⟩, .animation n delay lt f, []⟩)
  | audioSample {t l f : Str} {ps : List Str} {n : Int32} {la : AudioLayer} {vol : Volume} (ht : parseI32 t = .ok n)
      (hl : CodeReads audioLayers l la) (hv : VolOr100 ps vol) :
      EvReads v (c!"Sample" :: t :: l :: f :: ps) (.audioSample ⟨n, la, f, vol⟩)

/-! ### The whole section -/

/-- The first line of an event: a comment, or the pieces of another event. -/
inductive HeadReads (v : Nat) : Str → Event D → Prop
  | comment (s : Str) : HeadReads v (c!"//" ++ s) (.comment s)
  | event {l : Str} {e : Event D} (h : EvReads v (splitOnC ',' l) e) : HeadReads v l e

/-- The number of blanks and underscores at the start of a line. -/
def indentOf (l : Str) : Nat := (l.takeWhile fun c => c == ' ' || c == '_').length

/-- The line can be cut after as many bytes as there are characters up to its first comma. -/
def HeaderCuts (l : Str) : Prop :=
  ',' ∈ l → ∃ a b, l = a ++ b ∧ byteLen a = (l.takeWhile fun c => !(c == ',')).length + 1

/-- A command line and its level and command. -/
def CmdLineReads [UniLib] (l : Str) (x : Nat × Command D) : Prop :=
  1 ≤ x.1 ∧ indentOf l = x.1 ∧ HeaderCuts l ∧ CmdReads (splitOnC ',' (l.dropWhile fun c => c == ' ' || c == '_')) x.2

/-- Command lines and their levels and commands. -/
inductive CmdLines (R : Str → Nat × Command D → Prop) : List Str → List (Nat × Command D) → Prop
  | nil : CmdLines R [] []
  | cons {l : Str} {x : Nat × Command D} {ls : List Str} {xs : List (Nat × Command D)} (h : R l x)
      (hs : CmdLines R ls xs) : CmdLines R (l :: ls) (x :: xs)

/-- The lines of a section: for each event a first line, followed by one line for each of its commands in depth
first order. -/
inductive SectionReads (v : Nat) (R : Str → Nat × Command D → Prop) : List Str → List (Event D) → Prop
  | nil : SectionReads v R [] []
  | cons {h : Str} {cls ls : List Str} {e : Event D} {evs : List (Event D)} (hh : HeadReads v h (e.setCommands []))
      (hc : CmdLines R cls (SB.listing 1 (e.commands.getD []))) (hs : SectionReads v R ls evs) :
      SectionReads v R (h :: (cls ++ ls)) (e :: evs)

/-! ### Events with a text -/

/-- A path without commas and line breaks. -/
def PathWritableC (cr : Bool) (p : FilePath) : Prop := ∀ c ∈ p, fieldC cr c = true

/-- A path that can be written between commas in a text without carriage returns. -/
abbrev PathWritable : FilePath → Prop := PathWritableC false

/-- A path that has no blank, or has quotes around it. -/
def PathPlain (p : FilePath) : Prop := ' ' ∉ p ∨ (p.head? = some '"' ∧ p.getLast? = some '"')

instance (p : FilePath) : Decidable (PathPlain p) := by unfold PathPlain; infer_instance

/-- A path with quotes around it if it needs them. -/
def quotePath (p : FilePath) : FilePath := if PathPlain p then p else '"' :: (p ++ ['"'])

/-- A position at the end of a line. -/
def PosWritableC (cr : Bool) : Option (Position D) → Prop
  | none => True
  | some p => FieldDecC cr p.x ∧ DecWritable (lastC cr) p.y

/-- A position at the end of a line without carriage returns. -/
abbrev PosWritable : Option (Position D) → Prop := PosWritableC false

/-- A time that can be written: in versions 3 and 4 it must be possible to take off 24. -/
def TimeFits (v : Nat) (t : Int32) : Prop := ∃ n, OldTime v n t

/-- An origin as read: names only for the known origins, and codes above 9 only without a name. -/
def OriginWritable (o : Origin) : Prop :=
  match o.type with
  | .inl _ => True
  | .inr n => o.shorthand = true ∧ (n.toInt < 0 ∨ 9 < n.toInt)

/-- An object type that can be written. -/
def ObjWritable (cr : Bool) : ObjectType D → Prop
  | .sprite f => PathWritableC cr f
  | .animation _ d _ f => DecLib.canon d ∧ PathWritableC cr f

/-- The first line of an event can be written in version `v` and read back; `cr`: carriage returns inside the
line are allowed. -/
def HeadWritableC (cr : Bool) (v : Nat) : Event D → Prop
  | .comment s => ∀ c ∈ s, lastC cr c = true
  | .background b => PathWritableC cr b.fileName ∧ PosWritableC cr b.position
  | .video b => TimeFits v b.startTime ∧ PathWritableC cr b.fileName ∧ PosWritableC cr b.position
  | .break_ b => TimeFits v b.startTime ∧ TimeFits v b.endTime
  | .colourTransformation c => v < 14 ∧ TimeFits v c.startTime
  | .spriteLegacy x | .animationLegacy x => PathWritableC cr x.fileName ∧ PosWritableC cr x.position
  | .sampleLegacy x => FieldDecC cr x.time ∧ PathWritableC cr x.fileName ∧ ∀ vol, x.volume = some vol → vol.val.toNat ≤ 100
  | .object o => OriginWritable o.origin ∧ FieldDecC cr o.position.x ∧ FieldDecC cr o.position.y ∧ ObjWritable cr o.objectType
  | .audioSample a => PathWritableC cr a.filepath ∧ a.volume.val.toNat ≤ 100

/-- The first line of an event can be written in version `v` without carriage returns and read back. -/
abbrev HeadWritable (v : Nat) : Event D → Prop := HeadWritableC false v

/-- Colour transformations are not written in version 14. -/
def writtenIn (v : Nat) : Event D → Bool
  | .colourTransformation _ => decide (v < 14)
  | _ => true

/-- The path of an event. -/
def pathOf : Event D → Option FilePath
  | .background b => some b.fileName
  | .video b => some b.fileName
  | .spriteLegacy x | .animationLegacy x => some x.fileName
  | .sampleLegacy x => some x.fileName
  | .object o => match o.objectType with
    | .sprite f => some f
    | .animation _ _ _ f => some f
  | .audioSample a => some a.filepath
  | _ => none

/-- The event with another path. -/
def withPath (f : FilePath) : Event D → Event D
  | .background b => .background { b with fileName := f }
  | .video b => .video { b with fileName := f }
  | .spriteLegacy x => .spriteLegacy { x with fileName := f }
  | .animationLegacy x => .animationLegacy { x with fileName := f }
  | .sampleLegacy x => .sampleLegacy { x with fileName := f }
  | .object o => match o.objectType with
    | .sprite _ => .object { o with objectType := .sprite f }
    | .animation n d l _ => .object { o with objectType := .animation n d l f }
  | .audioSample a => .audioSample { a with filepath := f }
  | e => e

/-- The event with quotes around its path if the path needs them. -/
def quoted (e : Event D) : Event D :=
  match pathOf e with
  | some f => withPath (quotePath f) e
  | none => e

/-- The commands of an event. -/
def cmdsOf (e : Event D) : List (Command D) := e.commands.getD []

/-- An event that can be written in version `v` and read back: its first line and all its commands; `cr`:
carriage returns inside the lines are allowed. -/
def EvWritableC (cr : Bool) (v : Nat) (e : Event D) : Prop :=
  HeadWritableC cr v e ∧ ∀ x ∈ SB.listing 1 (cmdsOf e), CmdWritableC cr x.2

/-- An event that can be written in version `v` without carriage returns and read back. -/
abbrev EvWritable (v : Nat) (e : Event D) : Prop := EvWritableC false v e

/-- An event whose pieces can be written in version `v` and read back. -/
abbrev EvFits (v : Nat) (e : Event D) : Prop := EvWritableC true v e

/-! ### Panics -/

/-- The headers that must be followed by a comma or the end of the line. -/
def eventHeaders : List Str := [c!"0", c!"1", c!"2", c!"3", c!"4", c!"5", c!"6", c!"Video", c!"Break"]

/-- The headers of the events whose start time is moved in versions 3 and 4. -/
def movedHeaders : List Str := [c!"1", c!"Video", c!"2", c!"Break", c!"3"]

/-- A time that does not fit after it is moved. -/
def TimeLost (v : Nat) (s : Str) : Prop := ∃ n, parseI32 s = .ok n ∧ ∀ m, ¬OldTime v n m

variable (D) in
/-- The lines that panic instead of starting an event. -/
inductive EvPanics (v : Nat) : Str → Prop
  | header {h t : Str} {c : Char} (hh : h ∈ eventHeaders) (hc : c ≠ ',') : EvPanics v (h ++ c :: t)
  | startTime {l h t : Str} {ps : List Str} (hl : splitOnC ',' l = h :: t :: ps) (hh : h ∈ movedHeaders)
      (ht : TimeLost v t) : EvPanics v l
  | endTime {l h a b : Str} {n n' : Int32} (hl : splitOnC ',' l = [h, a, b]) (hh : h = c!"2" ∨ h = c!"Break")
      (ha : parseI32 a = .ok n) (hn : OldTime v n n') (hb : TimeLost v b) : EvPanics v l
  | loopType {l o f x y c d p : Str} {ps : List Str} {la : Layer} {og : Origin} {n : UInt32} {delay : D}
      (hl : splitOnC ',' l = c!"Animation" :: la.shw :: o :: f :: x :: y :: c :: d :: p :: ps)
      (ho : OriginReads o og) (hc : parseU32 c = .ok n) (hd : DecLib.parse d = some delay)
      (hp : ∀ lt, ¬LoopTail (p :: ps) lt) : EvPanics v l

/-- A line that panics after the events `evs`: a line that starts an event, or a command line for the last
event. -/
inductive LinePanics [UniLib] (v : Nat) (evs : List (Event D)) (l : Str) : Prop
  | event (h0 : indentOf l = 0) (h : EvPanics D v l) : LinePanics v evs l
  | command {e : Event D} (h0 : 1 ≤ indentOf l) (he : evs.getLast? = some e) (hc : e.commands.isSome)
      (h : ¬HeaderCuts l ∨ CmdPanics (splitOnC ',' (l.dropWhile fun c => c == ' ' || c == '_'))) : LinePanics v evs l

end Osu
