/-
Rounding errors of the derived quantities of a timing point.
-/
import Verif.Model.TimingPointApi
import Verif.Proof.TimingPoints
import Mathlib.Tactic.Linarith
import Mathlib.Tactic.FieldSimp
import Mathlib.Tactic.Ring
import Mathlib.Tactic.Positivity
import Mathlib.Tactic.NormNum
import Mathlib.Tactic.NormNum.Inv
import Mathlib.Tactic.NormNum.Pow

namespace Osu

theorem decEps_pos : 0 < decEps := by unfold decEps; norm_num

theorem Rounded.le {x e M : Rat} (h : Rounded x e) (h1 : 1 ≤ M) (h2 : |e| ≤ M) : |x - e| ≤ decEps * M :=
  le_trans h (mul_le_mul_of_nonneg_left (max_le h1 h2) decEps_pos.le)

/-- The reciprocal of a number that is known up to `δ`. -/
theorem inv_close {a b δ L : Rat} (h : |a - b| ≤ δ) (hL : 0 < L) (hb : L ≤ |b|) (hδ : δ ≤ L / 2) :
    a ≠ 0 ∧ L / 2 ≤ |a| ∧ |1 / a - 1 / b| ≤ 2 * δ / L ^ 2 := by
  have ha : L / 2 ≤ |a| := by
    have := abs_sub_abs_le_abs_sub b a
    rw [abs_sub_comm] at this
    linarith
  have ha0 : a ≠ 0 := by intro e; rw [e, abs_zero] at ha; linarith
  have hb0 : b ≠ 0 := by intro e; rw [e, abs_zero] at hb; linarith
  refine ⟨ha0, ha, ?_⟩
  have e : 1 / a - 1 / b = (b - a) / (a * b) := by field_simp
  rw [e, abs_div, abs_mul, abs_sub_comm b a, div_le_div_iff₀ (mul_pos (by linarith) (by linarith)) (by positivity)]
  have h0 : 0 ≤ |a - b| := abs_nonneg _
  have hab : L / 2 * L ≤ |a| * |b| := mul_le_mul ha hb hL.le (by linarith)
  nlinarith

end Osu
