/-
`src/osu_file/difficulty/mod.rs`.
-/
import Verif.Model.General

namespace Osu

/-- The fields of `Difficulty` (src/osu_file/difficulty/mod.rs:18-32). -/
inductive DKey where
  | hpDrainRate | circleSize | overallDifficulty | approachRate | sliderMultiplier | sliderTickRate
  deriving DecidableEq, Repr

/-- Field order of the struct (src/osu_file/difficulty/mod.rs:18-32). -/
def DKey.all : List DKey :=
  [.hpDrainRate, .circleSize, .overallDifficulty, .approachRate, .sliderMultiplier, .sliderTickRate]

/-- Field type names (src/osu_file/difficulty/mod.rs:18-32). -/
def DKey.name : DKey → Str
  | hpDrainRate => c!"HPDrainRate"
  | circleSize => c!"CircleSize"
  | overallDifficulty => c!"OverallDifficulty"
  | approachRate => c!"ApproachRate"
  | sliderMultiplier => c!"SliderMultiplier"
  | sliderTickRate => c!"SliderTickRate"

/-- `$spacing` of the second macro form (src/helper/macros.rs:215-229,
src/osu_file/difficulty/mod.rs:33-38). For versions 3 and 4 the macro asks whether `field_name` is
`SliderMultipler` (sic) or `SliderTickRate`. Macro hygiene matters here: the `field_name` written in
`general_section!` is the identifier passed down as `$default_field_name`, which
`general_section_inner!` binds to the *printed value* (src/helper/macros.rs:163). The `let field_name = stringify!(..)`
of the inner macro (macros.rs:164) is a different variable. (If it were the same one, the last argument of
the `format!` would print the key instead of the value.) So the comparison is with the value. -/
def diffSpacing (version : Nat) (value : Str) : Str :=
  if 3 ≤ version ∧ version ≤ 4 then
    if value = c!"SliderTickRate" then [' ']
    else if value = c!"SliderMultipler" then [' ']
    else []
  else []

/-- The `Difficulty` section (src/osu_file/difficulty/mod.rs:9-39); every field is a `Decimal`. -/
def Difficulty (D : Type) [DecLib D] : Schema where
  Key := DKey
  keys := DKey.all
  name := DKey.name
  Val := fun _ => Decimal D
  Err := FieldErr
  parse := fun _ _ s => decField s
  shw := fun _ _ x => some (Decimal.toStr x)
  spacing := diffSpacing

end Osu
