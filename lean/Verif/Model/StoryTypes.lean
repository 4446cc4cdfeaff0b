/-
`src/osu_file/events/storyboard/types.rs` and `src/osu_file/events/storyboard/cmds/types.rs`.
-/
import Verif.Model.Types

namespace Osu

/-- `char::is_uppercase() || char::is_numeric()` of Rust's standard library. The Unicode tables are not
modelled: the predicate is arbitrary outside ASCII (trusted base, DESIGN.md section 3). -/
class UniLib where
  upperNum : Char → Bool
  upperNum_ascii : ∀ c : Char, c.toNat < 128 →
    upperNum c = ((65 ≤ c.toNat && c.toNat ≤ 90) || (48 ≤ c.toNat && c.toNat ≤ 57))

/-- The tables restricted to ASCII, for examples. -/
@[reducible] def asciiUni : UniLib where
  upperNum c := (65 ≤ c.toNat && c.toNat ≤ 90) || (48 ≤ c.toNat && c.toNat ≤ 57)
  upperNum_ascii _ _ := rfl

namespace SB

/-- `SampleSet` (src/osu_file/events/storyboard/types.rs:135-142). -/
inductive SampleSet where
  | all | normal | soft | drum
  deriving DecidableEq, Repr

/-- `SampleSet::from_str` (src/osu_file/events/storyboard/types.rs:144-156). -/
def SampleSet.parse (s : Str) : Option SampleSet :=
  if s = c!"All" then some .all else if s = c!"Normal" then some .normal
  else if s = c!"Soft" then some .soft else if s = c!"Drum" then some .drum else none

/-- `SampleSet::to_string` (src/osu_file/events/storyboard/types.rs:158-169). -/
def SampleSet.shw : SampleSet → Str
  | all => c!"All" | normal => c!"Normal" | soft => c!"Soft" | drum => c!"Drum"

/-- `Addition` (src/osu_file/events/storyboard/types.rs:171-177). -/
inductive Addition where
  | whistle | finish | clap
  deriving DecidableEq, Repr

/-- `Addition::from_str` (src/osu_file/events/storyboard/types.rs:179-190). -/
def Addition.parse (s : Str) : Option Addition :=
  if s = c!"Whistle" then some .whistle else if s = c!"Finish" then some .finish
  else if s = c!"Clap" then some .clap else none

/-- `Addition::to_string` (src/osu_file/events/storyboard/types.rs:192-202). -/
def Addition.shw : Addition → Str
  | whistle => c!"Whistle" | finish => c!"Finish" | clap => c!"Clap"

/-- Fields of `TriggerType::HitSound` (src/osu_file/events/storyboard/types.rs:11-16). -/
structure HitSound where
  sampleSet : Option SampleSet := none
  additionsSampleSet : Option SampleSet := none
  addition : Option Addition := none
  customSampleSet : Option UInt64 := none
  deriving DecidableEq, Repr

/-- `TriggerType` (src/osu_file/events/storyboard/types.rs:8-19). -/
inductive TriggerType where
  | hitSound (h : HitSound)
  | passing
  | failing
  deriving DecidableEq, Repr

/-- `ParseTriggerTypeError` (src/osu_file/events/storyboard/error.rs); `ParseFieldError` is not produced. -/
inductive TriggerErr where
  | tooManyHitSoundFields | unknownTriggerType | unknownHitSoundType
  deriving DecidableEq, Repr

namespace TriggerType
variable [UniLib]

/-- The loop that cuts the text before every upper case or numeric character but the first
(src/osu_file/events/storyboard/types.rs:43-51), after the first character. -/
def fieldsAux (builder : Str) : Str → List Str
  | [] => [builder]
  | c :: s => if UniLib.upperNum c then builder :: fieldsAux [c] s else fieldsAux (builder ++ [c]) s

/-- `fields` (src/osu_file/events/storyboard/types.rs:39-54). -/
def fields : Str → List Str
  | [] => [[]]
  | c :: s => fieldsAux [c] s

/-- The inner `loop` at `field_parse_attempt_index` 3 (src/osu_file/events/storyboard/types.rs:85-91). -/
def try3 (h : HitSound) (f : Str) : Res TriggerErr (Nat × HitSound) :=
  match parseUsize f with
  | .ok n => .ok (4, { h with customSampleSet := some n })
  | _ => .err .unknownHitSoundType

/-- At index 2 (src/osu_file/events/storyboard/types.rs:80-84). -/
def try2 (h : HitSound) (f : Str) : Res TriggerErr (Nat × HitSound) :=
  match Addition.parse f with
  | some a => .ok (3, { h with addition := some a })
  | none => try3 h f

/-- At index 1 (src/osu_file/events/storyboard/types.rs:75-79). -/
def try1 (h : HitSound) (f : Str) : Res TriggerErr (Nat × HitSound) :=
  match SampleSet.parse f with
  | some a => .ok (2, { h with additionsSampleSet := some a })
  | none => try2 h f

/-- At index 0 (src/osu_file/events/storyboard/types.rs:70-74). -/
def try0 (h : HitSound) (f : Str) : Res TriggerErr (Nat × HitSound) :=
  match SampleSet.parse f with
  | some a => .ok (1, { h with sampleSet := some a })
  | none => try1 h f

/-- The inner `loop` (src/osu_file/events/storyboard/types.rs:68-95); an index above 3 is `unreachable!`. -/
def tryAt (i : Nat) (h : HitSound) (f : Str) : Res TriggerErr (Nat × HitSound) :=
  match i with
  | 0 => try0 h f
  | 1 => try1 h f
  | 2 => try2 h f
  | 3 => try3 h f
  | _ => .panic

/-- `for field in fields` (src/osu_file/events/storyboard/types.rs:67-96). -/
def tryAll (i : Nat) (h : HitSound) : List Str → Res TriggerErr HitSound
  | [] => .ok h
  | f :: fs =>
    match tryAt i h f with
    | .ok (j, h') => tryAll j h' fs
    | .err e => .err e
    | .panic => .panic

/-- The text after `HitSound` (src/osu_file/events/storyboard/types.rs:31-105). -/
def parseHitSound (s : Str) : Res TriggerErr HitSound :=
  if s = [] then .ok {}
  else if (fields s).length > 4 then .err .tooManyHitSoundFields
  else tryAll 0 {} (fields s)

/-- `TriggerType::from_str` (src/osu_file/events/storyboard/types.rs:21-110), always `Some`. -/
def parse (s : Str) : Res TriggerErr TriggerType :=
  let s := trim s
  if s = c!"Passing" then .ok .passing
  else if s = c!"Failing" then .ok .failing
  else
    match stripPrefix c!"HitSound" s with
    | some r =>
      match parseHitSound r with
      | .ok h => .ok (.hitSound h)
      | .err e => .err e
      | .panic => .panic
    | none => .err .unknownTriggerType

omit [UniLib]

/-- `Option::map_or(String::new(), _)` as in src/osu_file/events/storyboard/types.rs:122-125. -/
def optStr {α : Type} (f : α → Str) : Option α → Str
  | none => []
  | some a => f a

/-- `TriggerType::to_string` (src/osu_file/events/storyboard/types.rs:112-133). -/
def shw : TriggerType → Str
  | hitSound h => c!"HitSound" ++ optStr SampleSet.shw h.sampleSet ++ optStr SampleSet.shw h.additionsSampleSet ++
      optStr Addition.shw h.addition ++ optStr usizeToStr h.customSampleSet
  | passing => c!"Passing"
  | failing => c!"Failing"

end TriggerType

/-- `Easing` (src/osu_file/events/storyboard/types.rs:204-243). -/
inductive Easing where
  | linear | easingOut | easingIn | quadIn | quadOut | quadInOut | cubicIn
  | cubicOut | cubicInOut | quartIn | quartOut | quartInOut | quintIn | quintOut
  | quintInOut | sineIn | sineOut | sineInOut | expoIn | expoOut | expoInOut
  | circIn | circOut | circInOut | elasticIn | elasticOut | elasticHalfOut | elasticQuarterOut
  | elasticInOut | backIn | backOut | backInOut | bounceIn | bounceOut | bounceInOut
  | other (n : Int32)
  deriving DecidableEq, Repr

/-- `VersionedFrom<Integer> for Easing` (src/osu_file/events/storyboard/types.rs:245-286), always `Some`. -/
def Easing.ofInt (n : Int32) : Easing :=
  if n = 0 then .linear else if n = 1 then .easingOut else if n = 2 then .easingIn
  else if n = 3 then .quadIn else if n = 4 then .quadOut else if n = 5 then .quadInOut
  else if n = 6 then .cubicIn else if n = 7 then .cubicOut else if n = 8 then .cubicInOut
  else if n = 9 then .quartIn else if n = 10 then .quartOut else if n = 11 then .quartInOut
  else if n = 12 then .quintIn else if n = 13 then .quintOut else if n = 14 then .quintInOut
  else if n = 15 then .sineIn else if n = 16 then .sineOut else if n = 17 then .sineInOut
  else if n = 18 then .expoIn else if n = 19 then .expoOut else if n = 20 then .expoInOut
  else if n = 21 then .circIn else if n = 22 then .circOut else if n = 23 then .circInOut
  else if n = 24 then .elasticIn else if n = 25 then .elasticOut else if n = 26 then .elasticHalfOut
  else if n = 27 then .elasticQuarterOut else if n = 28 then .elasticInOut else if n = 29 then .backIn
  else if n = 30 then .backOut else if n = 31 then .backInOut else if n = 32 then .bounceIn
  else if n = 33 then .bounceOut else if n = 34 then .bounceInOut
  else .other n

/-- `VersionedFrom<Easing> for Integer` (src/osu_file/events/storyboard/types.rs:288-329), always `Some`. -/
def Easing.toInt : Easing → Int32
  | linear => 0 | easingOut => 1 | easingIn => 2 | quadIn => 3 | quadOut => 4
  | quadInOut => 5 | cubicIn => 6 | cubicOut => 7 | cubicInOut => 8 | quartIn => 9
  | quartOut => 10 | quartInOut => 11 | quintIn => 12 | quintOut => 13 | quintInOut => 14
  | sineIn => 15 | sineOut => 16 | sineInOut => 17 | expoIn => 18 | expoOut => 19
  | expoInOut => 20 | circIn => 21 | circOut => 22 | circInOut => 23 | elasticIn => 24
  | elasticOut => 25 | elasticHalfOut => 26 | elasticQuarterOut => 27 | elasticInOut => 28 | backIn => 29
  | backOut => 30 | backInOut => 31 | bounceIn => 32 | bounceOut => 33 | bounceInOut => 34
  | other n => n

/-- `Easing::to_string` (src/osu_file/events/storyboard/types.rs:331-335). -/
def Easing.shw (e : Easing) : Str := i32ToStr e.toInt

/-- `Parameter` (src/osu_file/events/storyboard/types.rs:337-343). -/
inductive Parameter where
  | imageFlipHorizontal | imageFlipVertical | useAdditiveColourBlending
  deriving DecidableEq, Repr

/-- `Parameter::to_string` (src/osu_file/events/storyboard/types.rs:345-355). -/
def Parameter.shw : Parameter → Str
  | imageFlipHorizontal => c!"H" | imageFlipVertical => c!"V" | useAdditiveColourBlending => c!"A"

/-- `Parameter::from_str` (src/osu_file/events/storyboard/types.rs:357-368). -/
def Parameter.parse (s : Str) : Res Unit Parameter :=
  if s = c!"H" then .ok .imageFlipHorizontal else if s = c!"V" then .ok .imageFlipVertical
  else if s = c!"A" then .ok .useAdditiveColourBlending else .err ()

/-- `ContinuingFields<T>` (src/osu_file/events/storyboard/cmds/types.rs:3-7). -/
structure ContinuingFields (α : Type) where
  start : α × α
  continuing : List (α × Option α)
  deriving DecidableEq, Repr

/-- `InvalidSecondFieldOption` and `ContinuingSetError` (src/osu_file/events/storyboard/cmds/error.rs). -/
inductive ContErr where
  | invalidSecondFieldOption | indexOutOfBounds
  deriving DecidableEq, Repr

namespace ContinuingFields
variable {α : Type}

/-- The condition of `ContinuingFields::new`: a missing second field before the end
(src/osu_file/events/storyboard/cmds/types.rs:15-18). -/
def badNew : List (α × Option α) → Bool
  | [] => false
  | [_] => false
  | f :: g :: fs => f.2.isNone || badNew (g :: fs)

/-- `ContinuingFields::new` (src/osu_file/events/storyboard/cmds/types.rs:10-24). -/
def new (start : α × α) (continuing : List (α × Option α)) : Res ContErr (ContinuingFields α) :=
  if badNew continuing then .err .invalidSecondFieldOption else .ok ⟨start, continuing⟩

/-- `push_continuing_fields` (src/osu_file/events/storyboard/cmds/types.rs:38-59). `none` is the overflow
of `self.continuing.len() - 2` for a list of length 1. -/
def push (c : ContinuingFields α) (f : α × Option α) : Option (ContinuingFields α) :=
  match c.continuing.getLast? with
  | none => some { c with continuing := c.continuing ++ [f] }
  | some last =>
    if last.2.isNone then
      if c.continuing.length < 2 then none
      else
        let lastField := match c.continuing[c.continuing.length - 2]? with
          | some g => g.2
          | none => some c.start.2
        some { c with continuing := c.continuing.dropLast ++ [(last.1, lastField)] ++ [f] }
    else some { c with continuing := c.continuing ++ [f] }

/-- `set_continuing_fields` (src/osu_file/events/storyboard/cmds/types.rs:61-78): the error, or the new
value; the panic is the overflow of `self.continuing.len() - 1` for the empty list. -/
def set (c : ContinuingFields α) (index : Nat) (f : α × Option α) : Res ContErr (ContinuingFields α) :=
  if c.continuing.length = 0 then .panic
  else if index ≠ c.continuing.length - 1 ∧ f.2.isNone then .err .invalidSecondFieldOption
  else if index < c.continuing.length then .ok { c with continuing := c.continuing.set index f }
  else .err .indexOutOfBounds

/-- The texts `builder` gets for the continuing fields (src/osu_file/events/storyboard/cmds/types.rs:88-93). -/
def pieces (shw : α → Str) : List (α × Option α) → List Str
  | [] => []
  | (a, none) :: fs => shw a :: pieces shw fs
  | (a, some b) :: fs => shw a :: shw b :: pieces shw fs

/-- `Display for ContinuingFields` (src/osu_file/events/storyboard/cmds/types.rs:81-97). -/
def shw (f : α → Str) (c : ContinuingFields α) : Str :=
  join [','] (f c.start.1 :: f c.start.2 :: pieces f c.continuing)

end ContinuingFields

/-- `Colours` (src/osu_file/events/storyboard/cmds/types.rs:99-103). -/
structure Colours where
  start : UInt8 × UInt8 × UInt8
  continuing : List (UInt8 × Option UInt8 × Option UInt8)
  deriving DecidableEq, Repr

/-- `InvalidColourFieldOption` and `ContinuingRGBSetError` (src/osu_file/events/storyboard/error.rs). -/
inductive ColourErr where
  | green | blue | indexOutOfBounds
  deriving DecidableEq, Repr

namespace Colours

/-- The loop of `Colours::new` (src/osu_file/events/storyboard/cmds/types.rs:110-121): the first complaint. -/
def badNew : List (UInt8 × Option UInt8 × Option UInt8) → Option ColourErr
  | [] => none
  | (_, g, b) :: rest =>
    if rest ≠ [] ∧ g.isNone then some .green
    else if rest ≠ [] ∧ b.isNone then some .blue
    else if g.isNone ∧ b.isSome then some .blue
    else badNew rest

/-- `Colours::new` (src/osu_file/events/storyboard/cmds/types.rs:106-123). -/
def new (start : UInt8 × UInt8 × UInt8) (continuing : List (UInt8 × Option UInt8 × Option UInt8)) :
    Res ColourErr Colours :=
  match badNew continuing with
  | some e => .err e
  | none => .ok ⟨start, continuing⟩

/-- `push_continuing_rgbs` (src/osu_file/events/storyboard/cmds/types.rs:137-166). `none` is the overflow of
`self.continuing.len() - 2` for a list of length 1. -/
def push (c : Colours) (f : UInt8 × Option UInt8 × Option UInt8) : Option Colours :=
  match c.continuing.getLast? with
  | none => some { c with continuing := c.continuing ++ [f] }
  | some (r, g, b) =>
    if g.isNone then
      if c.continuing.length < 2 then none
      else
        let lastField := match c.continuing[c.continuing.length - 2]? with
          | some x => x.2.1
          | none => some c.start.2.1
        some { c with continuing := c.continuing.dropLast ++ [(r, lastField, b)] ++ [f] }
    else if b.isNone then
      if c.continuing.length < 2 then none
      else
        let lastField := match c.continuing[c.continuing.length - 2]? with
          | some x => x.2.2
          | none => some c.start.2.2
        some { c with continuing := c.continuing.dropLast ++ [(r, g, lastField)] ++ [f] }
    else some { c with continuing := c.continuing ++ [f] }

/-- `set_continuing_rgbs` (src/osu_file/events/storyboard/cmds/types.rs:168-195); the panic is the overflow
of `self.continuing.len() - 1` for the empty list. -/
def set (c : Colours) (index : Nat) (f : UInt8 × Option UInt8 × Option UInt8) : Res ColourErr Colours :=
  if c.continuing.length = 0 then .panic
  else
    let isLast := index == c.continuing.length - 1
    if !isLast && f.2.1.isNone then .err .green
    else if (!isLast && f.2.2.isNone) || (f.2.1.isNone && f.2.2.isSome) then .err .blue
    else if index < c.continuing.length then .ok { c with continuing := c.continuing.set index f }
    else .err .indexOutOfBounds

/-- The texts `builder` gets for the continuing colours (src/osu_file/events/storyboard/cmds/types.rs:206-214). -/
def pieces : List (UInt8 × Option UInt8 × Option UInt8) → List Str
  | [] => []
  | (r, g, b) :: fs =>
    u8ToStr r :: ((g.map u8ToStr).toList ++ (b.map u8ToStr).toList ++ pieces fs)

/-- `Colours::to_string` (src/osu_file/events/storyboard/cmds/types.rs:198-218). -/
def shw (c : Colours) : Str :=
  join [','] (u8ToStr c.start.1 :: u8ToStr c.start.2.1 :: u8ToStr c.start.2.2 :: pieces c.continuing)

end Colours

end SB
end Osu
