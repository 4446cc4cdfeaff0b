/-
`src/osu_file/events/storyboard/sprites.rs`: sprites and animations.
-/
import Verif.Model.Cmds
import Verif.Spec.Split

namespace Osu
namespace SB

/-- `Layer` (src/osu_file/events/storyboard/sprites.rs:24-32). -/
inductive Layer where
  | background | fail | pass | foreground | overlay
  deriving DecidableEq, Repr

/-- `Layer::from_str` (src/osu_file/events/storyboard/sprites.rs:34-47), always `Some`. -/
def Layer.parse (s : Str) : Res Unit Layer :=
  if s = c!"Background" then .ok .background else if s = c!"Fail" then .ok .fail
  else if s = c!"Pass" then .ok .pass else if s = c!"Foreground" then .ok .foreground
  else if s = c!"Overlay" then .ok .overlay else .err ()

/-- `Layer::to_string` (src/osu_file/events/storyboard/sprites.rs:49-61). -/
def Layer.shw : Layer → Str
  | background => c!"Background" | fail => c!"Fail" | pass => c!"Pass" | foreground => c!"Foreground"
  | overlay => c!"Overlay"

/-- `OriginType` (src/osu_file/events/storyboard/sprites.rs:300-313). -/
inductive OriginType where
  | topLeft | centre | centreLeft | topRight | bottomCentre | topCentre | custom | centreRight | bottomLeft
  | bottomRight
  deriving DecidableEq, Repr

/-- `VersionedTryFrom<Integer> for OriginType` (src/osu_file/events/storyboard/sprites.rs:421-439). -/
def OriginType.ofInt (n : Int32) : Option OriginType :=
  if n = 0 then some .topLeft else if n = 1 then some .centre else if n = 2 then some .centreLeft
  else if n = 3 then some .topRight else if n = 4 then some .bottomCentre else if n = 5 then some .topCentre
  else if n = 6 then some .custom else if n = 7 then some .centreRight else if n = 8 then some .bottomLeft
  else if n = 9 then some .bottomRight else none

/-- `VersionedFrom<OriginType> for Integer` (src/osu_file/events/storyboard/sprites.rs:441-456). -/
def OriginType.toInt : OriginType → Int32
  | topLeft => 0 | centre => 1 | centreLeft => 2 | topRight => 3 | bottomCentre => 4 | topCentre => 5
  | custom => 6 | centreRight => 7 | bottomLeft => 8 | bottomRight => 9

/-- The names (src/osu_file/events/storyboard/sprites.rs:338-347). -/
def OriginType.shw : OriginType → Str
  | topLeft => c!"TopLeft" | centre => c!"Centre" | centreLeft => c!"CentreLeft" | topRight => c!"TopRight"
  | bottomCentre => c!"BottomCentre" | topCentre => c!"TopCentre" | custom => c!"Custom"
  | centreRight => c!"CentreRight" | bottomLeft => c!"BottomLeft" | bottomRight => c!"BottomRight"

/-- `Origin` (src/osu_file/events/storyboard/sprites.rs:291-298). -/
structure Origin where
  type : OriginType ⊕ Int32
  shorthand : Bool
  deriving DecidableEq, Repr

/-- `Origin::to_string` (src/osu_file/events/storyboard/sprites.rs:324-356). -/
def Origin.shw (o : Origin) : Str :=
  if o.shorthand then
    match o.type with
    | .inl t => i32ToStr t.toInt
    | .inr n => i32ToStr n
  else
    match o.type with
    | .inl t => t.shw
    | .inr n => i32ToStr n

/-- The names accepted by `Origin::from_str` (src/osu_file/events/storyboard/sprites.rs:361-403). -/
def OriginType.ofName (s : Str) : Option OriginType :=
  if s = c!"TopLeft" then some .topLeft else if s = c!"Centre" then some .centre
  else if s = c!"CentreLeft" then some .centreLeft else if s = c!"TopRight" then some .topRight
  else if s = c!"BottomCentre" then some .bottomCentre else if s = c!"TopCentre" then some .topCentre
  else if s = c!"Custom" then some .custom else if s = c!"CentreRight" then some .centreRight
  else if s = c!"BottomLeft" then some .bottomLeft else if s = c!"BottomRight" then some .bottomRight
  else none

/-- `Origin::from_str` (src/osu_file/events/storyboard/sprites.rs:358-419), always `Some`. -/
def Origin.parse (s : Str) : Res IntErr Origin :=
  match OriginType.ofName s with
  | some t => .ok ⟨.inl t, false⟩
  | none =>
    (parseI32 s).bind fun n =>
      match OriginType.ofInt n with
      | some t => .ok ⟨.inl t, true⟩
      | none => .ok ⟨.inr n, true⟩

/-- `LoopType` (src/osu_file/events/storyboard/sprites.rs:458-463). -/
inductive LoopType where
  | loopForever | loopOnce
  deriving DecidableEq, Repr

/-- `LoopType::to_string` (src/osu_file/events/storyboard/sprites.rs:465-474). -/
def LoopType.shw : LoopType → Str
  | loopForever => c!"LoopForever" | loopOnce => c!"LoopOnce"

/-- `LoopType::from_str` (src/osu_file/events/storyboard/sprites.rs:476-486), always `Some`. -/
def LoopType.parse (s : Str) : Res Unit LoopType :=
  if s = c!"LoopForever" then .ok .loopForever else if s = c!"LoopOnce" then .ok .loopOnce else .err ()

/-- `ObjectType`, `Sprite`, `Animation` (src/osu_file/events/storyboard/sprites.rs:236-242, 267-270, 284-289). -/
inductive ObjectType (D : Type) where
  | sprite (filepath : FilePath)
  | animation (frameCount : UInt32) (frameDelay : D) (loopType : LoopType) (filepath : FilePath)
  deriving DecidableEq, Repr

/-- `Object` (src/osu_file/events/storyboard/sprites.rs:63-70). -/
structure Object (D : Type) where
  layer : Layer
  origin : Origin
  position : Position D
  objectType : ObjectType D
  commands : List (Command D)

/-- `ParseObjectError` (src/osu_file/events/storyboard/error.rs). -/
inductive ObjErr where
  | unknownObjectType | missingLayer | invalidLayer | missingOrigin | invalidOrigin | missingFilePath
  | missingPositionX | invalidPositionX | missingPositionY | invalidPositionY | missingFrameCount
  | invalidFrameCount | missingFrameDelay | invalidFrameDelay | missingLoopType | invalidLoopType
  deriving DecidableEq, Repr

namespace Object
variable {D : Type} [DecLib D]

/-- `Object::to_string_cmd` (src/osu_file/events/storyboard/sprites.rs:87-113), always `Some`. -/
def shwCmd (o : Object D) : Str :=
  let pos := o.position.x.toStr ++ [','] ++ o.position.y.toStr
  match o.objectType with
  | .sprite p => c!"Sprite," ++ o.layer.shw ++ [','] ++ o.origin.shw ++ [','] ++ FilePath.toStr p ++ [','] ++ pos
  | .animation n d l p =>
    c!"Animation," ++ o.layer.shw ++ [','] ++ o.origin.shw ++ [','] ++ FilePath.toStr p ++ [','] ++ pos ++ [','] ++
      u32ToStr n ++ [','] ++ DecLib.shw d ++ [','] ++ l.shw

section
open Parser

/-- `str::parse::<rust_decimal::Decimal>`. -/
def decP (s : Str) : Res Unit D :=
  match DecLib.parse s with
  | some d => .ok d
  | none => .err ()

omit [DecLib D] in
/-- `layer`, `origin`, `file_path` (src/osu_file/events/storyboard/sprites.rs:121-145). -/
def headP : Parser ObjErr (Layer × Origin × FilePath) :=
  (preceded (context .missingLayer comma) (context .invalidLayer (commaFieldType Layer.parse))).bind fun l =>
  (preceded (context .missingOrigin comma) (context .invalidOrigin (commaFieldType Origin.parse))).bind fun o =>
  (preceded (context .missingFilePath comma) commaField).bind fun p => ret (l, o, p)

/-- `position` (src/osu_file/events/storyboard/sprites.rs:146-164). -/
def positionP : Parser ObjErr (Position D) :=
  (preceded (context .missingPositionX comma) (context .invalidPositionX (commaFieldType Decimal.parse))).bind fun x =>
  (preceded (context .missingPositionY comma) (context .invalidPositionY (commaFieldType Decimal.parse))).bind fun y =>
  ret ⟨x, y⟩

omit [DecLib D] in
/-- `loop_type` (src/osu_file/events/storyboard/sprites.rs:179-188). -/
def loopTypeP : Parser ObjErr LoopType :=
  alt [preceded (context .missingLoopType comma) (context .invalidLoopType (restType LoopType.parse)),
    nothing.map fun _ => .loopForever]

/-- The sprite branch (src/osu_file/events/storyboard/sprites.rs:191-202). -/
def spriteP : Parser ObjErr (Object D) :=
  preceded (tag c!"Sprite") ((cut (headP.bind fun (l, o, p) => positionP.bind fun pos => ret (l, o, p, pos))).map
    fun (l, o, p, pos) => ⟨l, o, pos, .sprite p, []⟩)

/-- The animation branch (src/osu_file/events/storyboard/sprites.rs:203-228). -/
def animationP : Parser ObjErr (Object D) :=
  (preceded (tag c!"Animation") (cut (headP.bind fun (l, o, p) => positionP.bind fun pos =>
    (preceded (context .missingFrameCount comma) (context .invalidFrameCount (commaFieldType parseU32))).bind fun n =>
    (preceded (context .missingFrameDelay comma) (context .invalidFrameDelay (commaFieldType decP))).bind fun d =>
    loopTypeP.bind fun lt => ret (l, o, p, pos, n, d, lt)))).map
  fun (l, o, p, pos, n, d, lt) => ⟨l, o, pos, .animation n d lt p, []⟩

/-- The parser of `Object::from_str` (src/osu_file/events/storyboard/sprites.rs:190-230). -/
def objectP : Parser ObjErr (Object D) := alt [spriteP, animationP, context .unknownObjectType fail]

/-- `Object::from_str` (src/osu_file/events/storyboard/sprites.rs:116-234), always `Some`. -/
def parse (s : Str) : Res ObjErr (Object D) := (objectP s).toRes

end

end Object

/-- Index of the last `.` of a text, if any. -/
def lastDot : Str → Option Nat
  | [] => none
  | c :: s =>
    match lastDot s with
    | some i => some (i + 1)
    | none => if c = '.' then some 0 else none

/-- `Path::extension` of a file name (std): the text after the last dot, unless there is no dot or the only
dots are leading. -/
def extension (name : Str) : Option Str :=
  if name = c!".." then none
  else match lastDot name with
  | none => none
  | some 0 => none
  | some i => some (name.drop (i + 1))

/-- `Path::file_name` (std, Unix) of a path: its last component, if that is a name. Components are the parts between
slashes; empty parts and `.` are left out (a `.` at the start is a component, but no name), and `..` is no name. -/
def pathFileName (path : Str) : Option Str :=
  match ((splitOnC '/' path).filter fun p => p ≠ [] ∧ p ≠ c!".").getLast? with
  | none => none
  | some p => if p = c!".." then none else some p

/-- `Animation::frame_file_names` (src/osu_file/events/storyboard/sprites.rs:244-265) for an animation with the
path `path` and `frameCount` frames (`none`: the path has no file name and `unwrap` panics). The text is cut by
`strip_suffix(".ext").unwrap()`; `to_string_lossy` is the identity, as the path is text. -/
def frameFileNames (path : Str) (frameCount : Nat) : Option (List Str) :=
  match pathFileName path with
  | none => none
  | some name =>
    match extension name with
    | some ext =>
      if endsWith name ('.' :: ext) then
        let stem := name.take (name.length - (ext.length + 1))
        some ((List.range frameCount).map fun i => stem ++ natToStr i ++ '.' :: ext)
      else none
    | none => some ((List.range frameCount).map fun i => name ++ natToStr i)

end SB
end Osu
