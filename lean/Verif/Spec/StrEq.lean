/-
Specification of values that are the same up to blanks in the texts they were read from.
-/
import Verif.Spec.Fields
import Verif.Spec.HitObjects
import Verif.Spec.Resave

namespace Osu
open HO
variable {D : Type} [DecLib D]

/-- Two lists of the same length with related members at each place. -/
inductive Each {α β : Type} (R : α → β → Prop) : List α → List β → Prop
  | nil : Each R [] []
  | cons {a b as bs} (h : R a b) (t : Each R as bs) : Each R (a :: as) (b :: bs)

/-- Two lists with related members, in another order. -/
def EachPerm {α β : Type} (R : α → β → Prop) (x : List α) (y : List β) : Prop := ∃ z, z.Perm y ∧ Each R x z

/-- Texts that differ only in blanks. -/
def TextSame (a b : Str) : Prop := bareText a = bareText b

/-- Decimals read from texts that differ only in blanks. -/
def NumSame (x y : Decimal D) : Prop := ∃ a b, TextSame a b ∧ x = Decimal.ofStr a ∧ y = Decimal.ofStr b

/-- Times read from texts that differ only in blanks. -/
def TimeSame (v : Nat) (x y : Decimal D) : Prop := ∃ a b, TextSame a b ∧ TimeReads v a x ∧ TimeReads v b y

/-- Both present and related, or both missing. -/
def OptSame {α : Type} (R : α → α → Prop) : Option α → Option α → Prop
  | none, none => True
  | some x, some y => R x y
  | _, _ => False

/-- Values of fields that are the same up to blanks: texts, words and decimals may differ in blanks, all others are equal. -/
inductive FSame : FVal D → FVal D → Prop
  | same (x : FVal D) : FSame x x
  | text {a b : Str} (h : TextSame a b) : FSame (.text a) (.text b)
  | number {x y : Decimal D} (h : NumSame x y) : FSame (.number x) (.number y)
  | words {a b : List Str} (h : TextSame a.flatten b.flatten) : FSame (.words a) (.words b)

/-- Sections with the same fields, each holding the same up to blanks. -/
def ViewSame (x y : FView D) : Prop := Each (fun p q => p.1.name = q.1.name ∧ OptSame FSame p.2 q.2) x y

/-- Timing points whose times and beat lengths may differ in blanks. -/
def PointSame (v : Nat) (x y : TimingPoint D) : Prop :=
  TimeSame v x.time y.time ∧ NumSame x.beatLength y.beatLength ∧
    { x with time := y.time, beatLength := y.beatLength } = y

/-- Positions that may differ in blanks. -/
def PosSame (x y : Position D) : Prop := NumSame x.x y.x ∧ NumSame x.y y.y

/-- Hit samples whose file names may differ in blanks. -/
def SampleSame (x y : HitSample) : Prop := TextSame x.filename y.filename ∧ { x with filename := y.filename } = y

/-- The parts of objects of a kind: decimals may differ in blanks. -/
inductive ParamsSame (v : Nat) : HOParams D → HOParams D → Prop
  | circle : ParamsSame v .hitCircle .hitCircle
  | slider {x y : SlideParams D} (hp : Each (fun p q => PosSame p.pos q.pos) x.curvePoints y.curvePoints)
      (hl : NumSame x.length y.length) (h : { x with curvePoints := y.curvePoints, length := y.length } = y) :
      ParamsSame v (.slider x) (.slider y)
  | spinner {x y : Decimal D} (h : TimeSame v x y) : ParamsSame v (.spinner x) (.spinner y)
  | hold {x y : Decimal D} (h : TimeSame v x y) : ParamsSame v (.hold x) (.hold y)

/-- Hit objects whose decimals and file names may differ in blanks. -/
structure ObjectSame (v : Nat) (x y : HitObject D) : Prop where
  position : PosSame x.position y.position
  time : TimeSame v x.time y.time
  params : ParamsSame v x.params y.params
  hitsample : OptSame SampleSame x.hitsample y.hitsample
  rest : x.newCombo = y.newCombo ∧ x.comboSkip = y.comboSkip ∧ x.hitsound = y.hitsound

end Osu
