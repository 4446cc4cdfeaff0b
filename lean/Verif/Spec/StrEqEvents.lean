/-
Specification of events and storyboard commands that are the same up to blanks in the texts they were read from.
-/
import Verif.Spec.StrEq
import Verif.Spec.Events
import Verif.Spec.File

namespace Osu
open SB Ev
variable {D : Type} [DecLib D]

/-- Further values of a command that takes two at a time. -/
def PairsSame (x y : ContinuingFields (Decimal D)) : Prop :=
  NumSame x.start.1 y.start.1 ∧ NumSame x.start.2 y.start.2 ∧
    Each (fun p q => NumSame p.1 q.1 ∧ OptSame NumSame p.2 q.2) x.continuing y.continuing

/-- Commands (without those inside them) whose decimals may differ in blanks. -/
inductive CmdSame : Command D → Command D → Prop
  | same (c : Command D) : CmdSame c c
  | fade {st et e x y xs ys} (h : NumSame x y) (hs : Each NumSame xs ys) : CmdSame (.mk st (.fade e et x xs)) (.mk st (.fade e et y ys))
  | moveX {st et e x y xs ys} (h : NumSame x y) (hs : Each NumSame xs ys) : CmdSame (.mk st (.moveX e et x xs)) (.mk st (.moveX e et y ys))
  | moveY {st et e x y xs ys} (h : NumSame x y) (hs : Each NumSame xs ys) : CmdSame (.mk st (.moveY e et x xs)) (.mk st (.moveY e et y ys))
  | scale {st et e x y xs ys} (h : NumSame x y) (hs : Each NumSame xs ys) : CmdSame (.mk st (.scale e et x xs)) (.mk st (.scale e et y ys))
  | rotate {st et e x y xs ys} (h : NumSame x y) (hs : Each NumSame xs ys) : CmdSame (.mk st (.rotate e et x xs)) (.mk st (.rotate e et y ys))
  | move {st et e x y} (h : PairsSame x y) : CmdSame (.mk st (.move e et x)) (.mk st (.move e et y))
  | vectorScale {st et e x y} (h : PairsSame x y) : CmdSame (.mk st (.vectorScale e et x)) (.mk st (.vectorScale e et y))

/-- Frame delays read from texts that differ only in blanks. -/
def DelaySame (x y : D) : Prop := ∃ a b, TextSame a b ∧ DecLib.parse a = some x ∧ DecLib.parse b = some y

/-- What a storyboard object shows: paths and delays may differ in blanks. -/
inductive ShowSame : ObjectType D → ObjectType D → Prop
  | sprite {f g : Str} (h : TextSame f g) : ShowSame (.sprite f) (.sprite g)
  | animation {n : UInt32} {lt : LoopType} {x y : D} {f g : Str} (hd : DelaySame x y) (h : TextSame f g) :
      ShowSame (.animation n x lt f) (.animation n y lt g)

/-- Events without commands, whose paths, comments and decimals may differ in blanks. -/
inductive HeadSame : Event D → Event D → Prop
  | same (e : Event D) : HeadSame e e
  | comment {a b : Str} (h : TextSame a b) : HeadSame (.comment a) (.comment b)
  | background {n f g p q} (h : TextSame f g) (hp : OptSame PosSame p q) : HeadSame (.background ⟨n, f, p, []⟩) (.background ⟨n, g, q, []⟩)
  | video {n f g p q b} (h : TextSame f g) (hp : OptSame PosSame p q) : HeadSame (.video ⟨n, f, p, [], b⟩) (.video ⟨n, g, q, [], b⟩)
  | spriteLegacy {l o f g p q} (h : TextSame f g) (hp : OptSame PosSame p q) :
      HeadSame (.spriteLegacy ⟨l, o, f, p, []⟩) (.spriteLegacy ⟨l, o, g, q, []⟩)
  | animationLegacy {l o f g p q} (h : TextSame f g) (hp : OptSame PosSame p q) :
      HeadSame (.animationLegacy ⟨l, o, f, p, []⟩) (.animationLegacy ⟨l, o, g, q, []⟩)
  | sampleLegacy {s t l f g vol} (ht : NumSame s t) (h : TextSame f g) :
      HeadSame (.sampleLegacy ⟨s, l, f, vol, []⟩) (.sampleLegacy ⟨t, l, g, vol, []⟩)
  | object {l o p q x y} (hp : PosSame p q) (h : ShowSame x y) : HeadSame (.object ⟨l, o, p, x, []⟩) (.object ⟨l, o, q, y, []⟩)
  | audioSample {n l f g vol} (h : TextSame f g) : HeadSame (.audioSample ⟨n, l, f, vol⟩) (.audioSample ⟨n, l, g, vol⟩)

/-- All commands of an event, depth first, each without those inside it. -/
def flatCmds (e : Event D) : List (Command D) := (SB.listing 1 (e.commands.getD [])).map Prod.snd

/-- Events that are the same up to blanks and up to which of their loops and triggers hold which of their commands. -/
def EventSame (x y : Event D) : Prop := HeadSame (x.setCommands []) (y.setCommands []) ∧ Each CmdSame (flatCmds x) (flatCmds y)

/-- The lines an event stands for: one for itself, one for each of its commands. -/
def eventRows (e : Event D) : List (Event D ⊕ Command D) := .inl (e.setCommands []) :: (flatCmds e).map .inr

/-- Rows that are the same up to blanks. -/
inductive RowSame : Event D ⊕ Command D → Event D ⊕ Command D → Prop
  | head {x y : Event D} (h : HeadSame x y) : RowSame (.inl x) (.inl y)
  | command {x y : Command D} (h : CmdSame x y) : RowSame (.inr x) (.inr y)

/-- Related members in some order, and in the same order if `ord` holds. -/
def ListSame {α : Type} (ord : Prop) (R : α → α → Prop) (x y : List α) : Prop := EachPerm R x y ∧ (ord → Each R x y)

/-- Files of the same version with the same sections, each the same up to blanks. The lines of sections for which `ord` does not
hold may be in another order. -/
structure FileSame (ord : SName → Prop) (f g : OsuFile D) : Prop where
  version : f.version = g.version
  general : OptSame (fun x y => ViewSame (generalView x) (generalView y)) f.general g.general
  editor : OptSame (fun x y => ViewSame (editorView x) (editorView y)) f.editor g.editor
  metadata : OptSame (fun x y => ViewSame (metadataView D x) (metadataView D y)) f.metadata g.metadata
  difficulty : OptSame (fun x y => ViewSame (difficultyView x) (difficultyView y)) f.difficulty g.difficulty
  events : OptSame (fun x y => EachPerm RowSame (x.flatMap eventRows) (y.flatMap eventRows) ∧ (ord .events → Each EventSame x y)) f.events g.events
  timingPoints : OptSame (ListSame (ord .timingPoints) (PointSame f.version)) f.timingPoints g.timingPoints
  colours : OptSame List.Perm f.colours g.colours
  hitobjects : OptSame (ListSame (ord .hitobjects) (ObjectSame f.version)) f.hitobjects g.hitobjects

/-- The section has a line without a colon, so the comparison looks at the order of its lines. -/
def KeepsOrder (xs : List Sect) (n : SName) : Prop := ∃ x ∈ xs, x.name = n.text ∧ ∃ l ∈ cleanLines x.body, ':' ∉ l

end Osu
