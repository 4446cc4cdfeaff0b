/-
Specification of a storyboard command line: what its comma separated pieces mean, and which commands have a
text at all.
-/
import Verif.Model.Cmds
import Verif.Spec.TimingPoints

namespace Osu
open SB
variable {D : Type}

/-- Only white space (or nothing). -/
def BlankField (s : Str) : Prop := ∀ c ∈ s, isWs c = true

/-- The start and end time pieces of a command. Both may be missing, or only the end time. -/
inductive TimesRead : Str → Str → Option Int32 → Option Int32 → Prop
  | none : TimesRead [] [] none none
  | start {a b : Str} {t : Int32} (ha : parseI32 a = .ok t) (hb : BlankField b) : TimesRead a b (some t) none
  | both {a b : Str} {t e : Int32} (ha : parseI32 a = .ok t) (hb : parseI32 b = .ok e) :
      TimesRead a b (some t) (some e)

/-- A list of pieces taken two by two; the last entry may lack its second piece. -/
def twoByTwo {α : Type} : List α → List (α × Option α)
  | [] => []
  | [a] => [(a, none)]
  | a :: b :: r => (a, some b) :: twoByTwo r

/-- A list of pieces taken three by three; the last entry may lack its third, or second and third piece. -/
def threeByThree {α : Type} : List α → List (α × Option α × Option α)
  | [] => []
  | [a] => [(a, none, none)]
  | [a, b] => [(a, some b, none)]
  | a :: b :: c :: r => (a, some b, some c) :: threeByThree r

/-- The optional start time of a loop or trigger that is followed by another piece. -/
inductive StartRead : Str → Option Int32 → Prop
  | none : StartRead [] none
  | some {a : Str} {t : Int32} (ha : parseI32 a = .ok t) : StartRead a (some t)

/-- The optional end time and group number of a trigger. -/
inductive TriggerTail : List Str → Option Int32 → Option Int32 → Prop
  | none : TriggerTail [] none none
  | empty : TriggerTail [[]] none none
  | stop {a : Str} {e : Int32} (ha : parseI32 a = .ok e) : TriggerTail [a] (some e) none
  | both {a b : Str} {e g : Int32} (ha : parseI32 a = .ok e) (hb : parseI32 b = .ok g) :
      TriggerTail [a, b] (some e) (some g)
  | group {b : Str} {g : Int32} (hb : parseI32 b = .ok g) : TriggerTail [[], b] none (some g)

/-- The optional start time, end time and group number of a trigger. A start time piece may only be empty if
another piece follows. -/
inductive TriggerTimes : List Str → Option Int32 → Option Int32 → Option Int32 → Prop
  | none : TriggerTimes [] none none none
  | skip {q : Str} {qs : List Str} {e g : Option Int32} (h : TriggerTail (q :: qs) e g) :
      TriggerTimes ([] :: q :: qs) none e g
  | start {a : Str} {qs : List Str} {t : Int32} {e g : Option Int32} (ha : parseI32 a = .ok t)
      (h : TriggerTail qs e g) : TriggerTimes (a :: qs) (some t) e g

/-- `CmdReads ps c`: the comma separated pieces `ps` of a line (without its indentation) mean the command `c`. -/
inductive CmdReads [DecLib D] [UniLib] : List Str → Command D → Prop
  | fade {e a b x : Str} {n : Int32} {st et : Option Int32} {xs : List Str}
      (he : parseI32 e = .ok n) (ht : TimesRead a b st et) :
      CmdReads (c!"F" :: e :: a :: b :: x :: xs)
        (.mk st (.fade (Easing.ofInt n) et (Decimal.ofStr x) (xs.map Decimal.ofStr)))
  | moveX {e a b x : Str} {n : Int32} {st et : Option Int32} {xs : List Str}
      (he : parseI32 e = .ok n) (ht : TimesRead a b st et) :
      CmdReads (c!"MX" :: e :: a :: b :: x :: xs)
        (.mk st (.moveX (Easing.ofInt n) et (Decimal.ofStr x) (xs.map Decimal.ofStr)))
  | moveY {e a b x : Str} {n : Int32} {st et : Option Int32} {xs : List Str}
      (he : parseI32 e = .ok n) (ht : TimesRead a b st et) :
      CmdReads (c!"MY" :: e :: a :: b :: x :: xs)
        (.mk st (.moveY (Easing.ofInt n) et (Decimal.ofStr x) (xs.map Decimal.ofStr)))
  | scale {e a b x : Str} {n : Int32} {st et : Option Int32} {xs : List Str}
      (he : parseI32 e = .ok n) (ht : TimesRead a b st et) :
      CmdReads (c!"S" :: e :: a :: b :: x :: xs)
        (.mk st (.scale (Easing.ofInt n) et (Decimal.ofStr x) (xs.map Decimal.ofStr)))
  | rotate {e a b x : Str} {n : Int32} {st et : Option Int32} {xs : List Str}
      (he : parseI32 e = .ok n) (ht : TimesRead a b st et) :
      CmdReads (c!"R" :: e :: a :: b :: x :: xs)
        (.mk st (.rotate (Easing.ofInt n) et (Decimal.ofStr x) (xs.map Decimal.ofStr)))
  | move {e a b x y : Str} {n : Int32} {st et : Option Int32} {xs : List Str}
      (he : parseI32 e = .ok n) (ht : TimesRead a b st et) :
      CmdReads (c!"M" :: e :: a :: b :: x :: y :: xs)
        (.mk st (.move (Easing.ofInt n) et
          ⟨(Decimal.ofStr x, Decimal.ofStr y), twoByTwo (xs.map Decimal.ofStr)⟩))
  | vectorScale {e a b x y : Str} {n : Int32} {st et : Option Int32} {xs : List Str}
      (he : parseI32 e = .ok n) (ht : TimesRead a b st et) :
      CmdReads (c!"V" :: e :: a :: b :: x :: y :: xs)
        (.mk st (.vectorScale (Easing.ofInt n) et
          ⟨(Decimal.ofStr x, Decimal.ofStr y), twoByTwo (xs.map Decimal.ofStr)⟩))
  | colour {e a b x y z : Str} {n : Int32} {st et : Option Int32} {r g bl : UInt8} {xs : List Str} {l : List UInt8}
      (he : parseI32 e = .ok n) (ht : TimesRead a b st et)
      (hx : parseU8 x = .ok r) (hy : parseU8 y = .ok g) (hz : parseU8 z = .ok bl) (hl : xs.map parseU8 = l.map .ok) :
      CmdReads (c!"C" :: e :: a :: b :: x :: y :: z :: xs)
        (.mk st (.colour (Easing.ofInt n) et ⟨(r, g, bl), threeByThree l⟩))
  | parameter {e a b x : Str} {n : Int32} {st et : Option Int32} {p : Parameter} {xs : List Str} {l : List Parameter}
      (he : parseI32 e = .ok n) (ht : TimesRead a b st et)
      (hp : Parameter.parse x = .ok p) (hl : xs.map Parameter.parse = l.map .ok) :
      CmdReads (c!"P" :: e :: a :: b :: x :: xs) (.mk st (.parameter (Easing.ofInt n) et p l))
  | loop {a b : Str} {st : Option Int32} {n : UInt32} (ha : StartRead a st) (hb : parseU32 b = .ok n) :
      CmdReads [c!"L", a, b] (.mk st (.loop n []))
  | trigger {x : Str} {qs : List Str} {t : TriggerType} {st et g : Option Int32} (hx : TriggerType.parse x = .ok t)
      (h : TriggerTimes qs st et g) : CmdReads (c!"T" :: x :: qs) (.mk st (.trigger t et g []))

/-- A decimal field that can be written between commas; `cr`: carriage returns in it are allowed. -/
def FieldDecC [DecLib D] (cr : Bool) : Decimal D → Prop := DecWritable (fieldC cr)

/-- A decimal field that can be written between commas. -/
abbrev FieldDec [DecLib D] : Decimal D → Prop := FieldDecC false

/-- The easing has the named constructor if its code has a name. -/
def EasingNamed : Easing → Prop
  | .other n => ¬ (0 ≤ n.toInt ∧ n.toInt ≤ 34)
  | _ => True

/-- A trigger type with a text that means it: an additions sample set needs a sample set before it, and a
custom sample set has one digit. -/
def TriggerWritable : TriggerType → Prop
  | .hitSound h => (h.sampleSet = none → h.additionsSampleSet = none) ∧
      ∀ n, h.customSampleSet = some n → n.toNat < 10
  | _ => True

/-- The text cut into words: a word starts at every upper case or numeric character (and at the start). -/
def WordsOf [UniLib] (r : Str) (ws : List Str) : Prop :=
  ws.flatten = r ∧ (∀ w ∈ ws, ∃ c t, w = c :: t ∧ ∀ d ∈ t, UniLib.upperNum d = false) ∧
    ∀ w ∈ ws.tail, ∃ c t, w = c :: t ∧ UniLib.upperNum c = true

/-- The words that describe a hit sound: in this order an optional sample set, an optional additions sample set,
an optional addition and an optional number. -/
def HitSoundWords (ws : List Str) (h : HitSound) : Prop :=
  (h.sampleSet = none → h.additionsSampleSet = none) ∧ ∃ num : List Str,
    ws = (h.sampleSet.map SampleSet.shw).toList ++ (h.additionsSampleSet.map SampleSet.shw).toList ++
      (h.addition.map Addition.shw).toList ++ num ∧
    ((num = [] ∧ h.customSampleSet = none) ∨ ∃ w n, num = [w] ∧ parseUsize w = .ok n ∧ h.customSampleSet = some n)

/-- What the text of a trigger type means. -/
inductive TriggerReads [UniLib] : Str → TriggerType → Prop
  | passing {s : Str} (h : trim s = c!"Passing") : TriggerReads s .passing
  | failing {s : Str} (h : trim s = c!"Failing") : TriggerReads s .failing
  | hitSound {s r : Str} {ws : List Str} {hs : HitSound} (h : trim s = c!"HitSound" ++ r) (hw : WordsOf r ws)
      (hl : ws.length ≤ 4) (hr : HitSoundWords ws hs) : TriggerReads s (.hitSound hs)

/-- A hit sound with a number that is followed by another word, at most four words in all. -/
def TriggerPanics [UniLib] (s : Str) : Prop :=
  ∃ r ws w more hs, trim s = c!"HitSound" ++ r ∧ WordsOf r (ws ++ w :: more) ∧ (ws ++ w :: more).length ≤ 4 ∧
    HitSoundWords ws hs ∧ hs.customSampleSet ≠ none

/-- The pieces of a command line that panics: a trigger with such a type. -/
def CmdPanics [UniLib] (ps : List Str) : Prop := ∃ x qs, ps = c!"T" :: x :: qs ∧ TriggerPanics x

/-- Only the last entry may be incomplete. -/
def PairsComplete {α : Type} (l : List (α × Option α)) : Prop :=
  ∀ p ∈ l.dropLast, p.2 ≠ none

/-- Only the last entry may be incomplete, and blue needs green. -/
def TriplesComplete {α : Type} (l : List (α × Option α × Option α)) : Prop :=
  (∀ p ∈ l.dropLast, p.2.1 ≠ none ∧ p.2.2 ≠ none) ∧ ∀ p ∈ l, p.2.1 = none → p.2.2 = none

/-- An end time needs a start time. -/
def TimesWritable (st et : Option Int32) : Prop := st = none → et = none

/-- All decimals of the pairs are writable. -/
def PairsWritable [DecLib D] (cr : Bool) (c : ContinuingFields (Decimal D)) : Prop :=
  FieldDecC cr c.start.1 ∧ FieldDecC cr c.start.2 ∧ PairsComplete c.continuing ∧
    ∀ p ∈ c.continuing, FieldDecC cr p.1 ∧ ∀ d, p.2 = some d → FieldDecC cr d

/-- The commands that have a line of text meaning them (nested commands aside); `cr`: carriage returns inside
the line are allowed. -/
def CmdWritableC [DecLib D] (cr : Bool) : Command D → Prop
  | .mk st (.fade e et x xs) | .mk st (.moveX e et x xs) | .mk st (.moveY e et x xs) | .mk st (.scale e et x xs)
  | .mk st (.rotate e et x xs) => EasingNamed e ∧ TimesWritable st et ∧ FieldDecC cr x ∧ ∀ y ∈ xs, FieldDecC cr y
  | .mk st (.move e et c) | .mk st (.vectorScale e et c) => EasingNamed e ∧ TimesWritable st et ∧ PairsWritable cr c
  | .mk st (.colour e et c) => EasingNamed e ∧ TimesWritable st et ∧ TriplesComplete c.continuing
  | .mk st (.parameter e et _ _) => EasingNamed e ∧ TimesWritable st et
  | .mk _ (.loop _ _) => True
  | .mk _ (.trigger t _ _ _) => TriggerWritable t

/-- The commands that have a line of text without carriage returns meaning them (nested commands aside). -/
abbrev CmdWritable [DecLib D] : Command D → Prop := CmdWritableC false

/-- The commands that have a line of text meaning them (nested commands aside). -/
abbrev CmdFits [DecLib D] : Command D → Prop := CmdWritableC true

end Osu
