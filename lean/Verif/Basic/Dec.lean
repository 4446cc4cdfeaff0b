/-
Decimal numbers.

`rust_decimal::Decimal` (version 1.35.0) is outside /repo. It is modelled by a class: a type with the
operations the crate uses and the laws the proofs rely on. These laws are part of the trusted base
(DESIGN.md section 3). `Verif/Proof/Dec96.lean` gives a concrete instance, so the laws are consistent.
-/
import Verif.Basic.Num

namespace Osu

/-- Characters that rust_decimal's `Display` can write. -/
def isDecChar (c : Char) : Bool := (digitVal c).isSome || c == '-' || c == '.'

/-- Interface of `rust_decimal::Decimal`. `canon` are the values `FromStr` produces.
`add24`/`sub24` are `+= dec!(24)` / `- dec!(24)`, which panic (`none`) on overflow. -/
class DecLib (D : Type) where
  parse : Str → Option D
  shw : D → Str
  add24 : D → Option D
  sub24 : D → Option D
  canon : D → Prop
  parse_canon : ∀ {s d}, parse s = some d → canon d
  parse_shw : ∀ {d}, canon d → parse (shw d) = some d
  shw_chars : ∀ d, ∀ c ∈ shw d, isDecChar c = true
  parse_nil : parse [] = none

/-- `Decimal(Either<rust_decimal::Decimal, String>)` (src/osu_file/types.rs:275-278). -/
inductive Decimal (D : Type) where
  | left (d : D)
  | right (s : Str)
  deriving DecidableEq, Repr

namespace Decimal
variable {D : Type} [DecLib D]

/-- `From<&str> for Decimal` (src/osu_file/types.rs:335-344). -/
def ofStr (s : Str) : Decimal D :=
  match DecLib.parse s with
  | some d => left d
  | none => right s

/-- `FromStr for Decimal` (src/osu_file/types.rs:309-315): never an error. -/
def parse (s : Str) : Res Unit (Decimal D) := .ok (ofStr s)

/-- `Display for Decimal` (src/osu_file/types.rs:317-321). -/
def toStr : Decimal D → Str
  | left d => DecLib.shw d
  | right s => s

/-- `Decimal::try_make_decimal` (src/osu_file/types.rs:289-298): new value and success flag. -/
def tryMakeDecimal : Decimal D → Decimal D × Bool
  | left d => (left d, true)
  | right s =>
    match DecLib.parse s with
    | some d => (left d, true)
    | none => (right s, false)

/-- The shift of an old version's time on reading: `*value += OLD_VERSION_TIME_OFFSET` on a numeric
value (src/osu_file/hitobjects/mod.rs:202-210, src/osu_file/timingpoints/mod.rs:287-295).
`none` is the overflow panic of rust_decimal. -/
def shiftUp (version : Nat) : Decimal D → Option (Decimal D)
  | left d => if 3 ≤ version ∧ version ≤ 4 then (DecLib.add24 d).map left else some (left d)
  | right s => some (right s)

/-- The text of a time on writing (src/osu_file/hitobjects/mod.rs:460-467,
src/osu_file/timingpoints/mod.rs:449-456). `none` is the overflow panic of rust_decimal. -/
def toStrShifted (version : Nat) : Decimal D → Option Str
  | left d =>
    if 3 ≤ version ∧ version ≤ 4 then (DecLib.sub24 d).map DecLib.shw else some (DecLib.shw d)
  | right s => some s

end Decimal

/-- `Position` (src/osu_file/types.rs:19-26). -/
structure Position (D : Type) where
  x : Decimal D
  y : Decimal D
  deriving DecidableEq, Repr

end Osu
