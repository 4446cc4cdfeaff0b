/-
Constructors and conversions of events, storyboard objects and decimals.
-/
import Verif.Model.Events
import Verif.Basic.DecArith

namespace Osu
open SB

namespace Ev

/-- `Video::new` (src/osu_file/events/normal_event/mod.rs:129-139). -/
def Video.new {D : Type} (startTime : Int32) (fileName : FilePath) (position : Option (Position D)) : Video D :=
  ⟨startTime, fileName, position, [], true⟩

/-- `Break::new` (src/osu_file/events/normal_event/mod.rs:218-226). -/
def Break.new (startTime endTime : Int32) : Break := ⟨startTime, endTime, true⟩

end Ev

namespace SB

/-- `Sprite::new` (src/osu_file/events/storyboard/sprites.rs:272-282); `none` is `FilePathNotRelative`.
`Path::is_absolute` is the one of Unix: the path starts with a slash. -/
def Sprite.new {D : Type} (filepath : FilePath) : Option (ObjectType D) :=
  if startsWith filepath ['/'] then none else some (.sprite filepath)

/-- `From<OriginType> for Origin` (src/osu_file/events/storyboard/sprites.rs:315-322). -/
def Origin.ofType (t : OriginType) : Origin := ⟨.inl t, true⟩

/-- `LoopType::default` (src/osu_file/events/storyboard/sprites.rs:488-492), always `Some`. -/
def LoopType.default : LoopType := .loopForever

end SB

namespace Decimal
variable {D : Type}

/-- `Decimal::new` and `From<rust_decimal::Decimal>` (src/osu_file/types.rs:281-283, 323-327). -/
def new (d : D) : Decimal D := .left d

/-- `Decimal::new_from_str` (src/osu_file/types.rs:285-287). -/
def newFromStr (s : Str) : Decimal D := .right s

/-- `From<i32> for Decimal` (src/osu_file/types.rs:329-333). -/
def ofI32 [DecLib D] [DecArith D] (n : Int32) : Decimal D := .left (DecArith.ofI32 n)

end Decimal

/-- `FilePath::set` and `FilePath::from` (src/osu_file/types.rs:210-217, 241-247): the path as it is. -/
def FilePath.set (_old : FilePath) (p : Str) : FilePath := p

end Osu
