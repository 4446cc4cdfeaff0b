/-
Multiplication and division of `rust_decimal::Decimal` (version 1.35.0), which is outside /repo.
Modelled by a class like `DecLib`; the laws are part of the trusted base (DESIGN.md section 3).
`Verif/Proof/DecArith96.lean` gives a concrete instance, so the laws are consistent.
-/
import Verif.Basic.Dec
import Mathlib.Algebra.Order.Field.Rat
import Mathlib.Algebra.Order.Ring.Abs

namespace Osu

/-- The relative (for results below one: absolute) error of one operation of rust_decimal: results carry 28
digits after the first. -/
def decEps : Rat := 1 / 10 ^ 27

/-- The results of an operation agree up to `decEps`. -/
def Rounded (x exact : Rat) : Prop := |x - exact| ≤ decEps * max 1 |exact|

/-- The part of `rust_decimal::Decimal` used by the timing point API: the number a value stands for,
`Decimal::from(i32)`, `/` and `*`. `none` is the panic on division by zero or overflow. -/
class DecArith (D : Type) [DecLib D] where
  val : D → Rat
  ofI32 : Int32 → D
  div : D → D → Option D
  mul : D → D → Option D
  val_ofI32 : ∀ n, val (ofI32 n) = (n.toInt : Rat)
  canon_ofI32 : ∀ n, DecLib.canon (ofI32 n)
  shw_ofI32 : ∀ n, DecLib.shw (ofI32 n) = i32ToStr n
  div_zero : ∀ {a b}, val b = 0 → div a b = none
  div_some : ∀ {a b}, val b ≠ 0 → |val a / val b| ≤ 10 ^ 28 → ∃ c, div a b = some c
  div_rounded : ∀ {a b c}, div a b = some c → Rounded (val c) (val a / val b)
  /-- A quotient that is itself a decimal is not rounded. -/
  div_exact : ∀ {a b r}, val b ≠ 0 → DecLib.canon r → val r = val a / val b → ∃ c, div a b = some c ∧ val c = val r
  mul_some : ∀ {a b}, |val a * val b| ≤ 10 ^ 28 → ∃ c, mul a b = some c
  mul_rounded : ∀ {a b c}, mul a b = some c → Rounded (val c) (val a * val b)
  /-- A product that is itself a decimal is not rounded. -/
  mul_exact : ∀ {a b r}, DecLib.canon r → val r = val a * val b → ∃ c, mul a b = some c ∧ val c = val r

end Osu
