/-
Multiplication and division on `Dec96`: the exact result rounded to the largest scale (at most 28) at which
its mantissa fits 96 bits, without trailing zeros. Meets the laws of `DecArith`.
-/
import Verif.Basic.DecArith
import Verif.Proof.Dec96
import Mathlib.Tactic.Linarith
import Mathlib.Tactic.FieldSimp
import Mathlib.Tactic.Ring
import Mathlib.Tactic.Positivity
import Mathlib.Tactic.NormNum
import Mathlib.Tactic.NormNum.Inv
import Mathlib.Tactic.NormNum.Pow

namespace Osu
namespace Dec96

/-- The number a value stands for. -/
def val (d : Dec96) : Rat := (d.toInt : Rat) / 10 ^ d.scale

/-- `n / d * 10 ^ sc`, rounded to the nearest integer. -/
def roundDiv (n d sc : Nat) : Nat := (2 * (n * 10 ^ sc) + d) / (2 * d)

/-- The largest scale up to `k` at which the rounded mantissa fits. -/
def fit (n d : Nat) : Nat → Option (Nat × Nat)
  | 0 => if roundDiv n d 0 < 2 ^ 96 then some (roundDiv n d 0, 0) else none
  | k + 1 => if roundDiv n d (k + 1) < 2 ^ 96 then some (roundDiv n d (k + 1), k + 1) else fit n d k

/-- Remove trailing zeros. -/
def strip (m : Nat) : Nat → Nat × Nat
  | 0 => (m, 0)
  | k + 1 => if m % 10 = 0 then strip (m / 10) k else (m, k + 1)

/-- The value with sign `neg` and magnitude `n / d`, rounded. -/
def round96 (neg : Bool) (n d : Nat) : Option Dec96 :=
  (fit n d 28).map fun p => let q := strip p.1 p.2; ⟨neg && decide (q.1 ≠ 0), q.1, q.2⟩

def ofI32 (n : Int32) : Dec96 := ofInt n.toInt 0

def div (a b : Dec96) : Option Dec96 :=
  if b.mant = 0 then none
  else round96 (a.neg != b.neg) (a.mant * 10 ^ b.scale) (b.mant * 10 ^ a.scale)

def mul (a b : Dec96) : Option Dec96 :=
  round96 (a.neg != b.neg) (a.mant * b.mant) (10 ^ (a.scale + b.scale))

def sgn (b : Bool) : Rat := if b then -1 else 1

theorem sgn_xor (a b : Bool) : sgn (a != b) = sgn a * sgn b := by cases a <;> cases b <;> simp [sgn]

theorem val_eq (d : Dec96) : val d = sgn d.neg * ((d.mant : Rat) / 10 ^ d.scale) := by
  unfold val toInt sgn
  split <;> simp [neg_div]

theorem roundDiv_close {n d : Nat} (hd : 0 < d) (sc : Nat) :
    |(roundDiv n d sc : Rat) - (n : Rat) / d * 10 ^ sc| ≤ 1 / 2 := by
  have hdq : (0 : Rat) < d := by exact_mod_cast hd
  have h1 : 2 * d * roundDiv n d sc ≤ 2 * (n * 10 ^ sc) + d := Nat.mul_div_le _ _
  have h2 : 2 * (n * 10 ^ sc) + d < 2 * d * roundDiv n d sc + 2 * d := by
    have := Nat.lt_mul_div_succ (2 * (n * 10 ^ sc) + d) (b := 2 * d) (by omega)
    rw [Nat.mul_add] at this; simpa [roundDiv] using this
  have h1' : 2 * (d : Rat) * roundDiv n d sc ≤ 2 * (n * 10 ^ sc) + d := by exact_mod_cast h1
  have h2' : 2 * ((n : Rat) * 10 ^ sc) + d < 2 * d * roundDiv n d sc + 2 * d := by exact_mod_cast h2
  have e : (n : Rat) / d * 10 ^ sc = (n * 10 ^ sc) / d := by field_simp
  rw [e, abs_le]
  constructor
  · rw [neg_le_sub_iff_le_add, div_le_iff₀ hdq]; nlinarith
  · rw [sub_le_iff_le_add, ← sub_le_iff_le_add', le_div_iff₀ hdq]; nlinarith

theorem fit_spec {n d : Nat} (hd : 0 < d) {k m sc : Nat} (h : fit n d k = some (m, sc)) :
    m < 2 ^ 96 ∧ sc ≤ k ∧ m = roundDiv n d sc ∧ (sc = k ∨ 2 ^ 96 ≤ roundDiv n d (sc + 1)) := by
  induction k with
  | zero =>
    unfold fit at h
    split at h
    · cases h; exact ⟨by assumption, by omega, rfl, Or.inl rfl⟩
    · cases h
  | succ k ih =>
    unfold fit at h
    split at h
    · cases h; exact ⟨by assumption, by omega, rfl, Or.inl rfl⟩
    · rename_i hn
      obtain ⟨h1, h2, h3, h4⟩ := ih h
      refine ⟨h1, by omega, h3, Or.inr ?_⟩
      rcases h4 with rfl | h4
      · omega
      · exact h4

theorem fit_close {n d : Nat} (hd : 0 < d) {m sc : Nat} (h : fit n d 28 = some (m, sc)) :
    Rounded ((m : Rat) / 10 ^ sc) ((n : Rat) / d) := by
  obtain ⟨_, h2, rfl, h4⟩ := fit_spec hd h
  have hq : (0 : Rat) ≤ (n : Rat) / d := by positivity
  have hp : (0 : Rat) < 10 ^ sc := by positivity
  have hc := roundDiv_close (n := n) hd sc
  unfold Rounded
  have e : (roundDiv n d sc : Rat) / 10 ^ sc - (n : Rat) / d
      = ((roundDiv n d sc : Rat) - (n : Rat) / d * 10 ^ sc) / 10 ^ sc := by
    field_simp
  rw [e, abs_div, abs_of_pos hp, abs_of_nonneg hq, div_le_iff₀ hp]
  refine le_trans hc ?_
  rcases h4 with rfl | h4
  · have : (1 : Rat) ≤ max 1 ((n : Rat) / d) := le_max_left _ _
    unfold decEps
    norm_num
    linarith
  · have hc' := (abs_le.1 (roundDiv_close (n := n) hd (sc + 1))).2
    have h4' : (2 : Rat) ^ 96 ≤ roundDiv n d (sc + 1) := by exact_mod_cast h4
    have hm : (n : Rat) / d ≤ max 1 ((n : Rat) / d) := le_max_right _ _
    have h5 : (n : Rat) / d * 10 ^ sc ≤ max 1 ((n : Rat) / d) * 10 ^ sc :=
      mul_le_mul_of_nonneg_right hm hp.le
    rw [pow_succ] at hc'
    rw [show (2 : Rat) ^ 96 = 79228162514264337593543950336 by norm_num] at h4'
    unfold decEps
    rw [show (1 : Rat) / 10 ^ 27 = 1 / 1000000000000000000000000000 by norm_num]
    linarith

theorem fit_some {n d : Nat} (hd : 0 < d) (h : (n : Rat) / d ≤ 10 ^ 28) (k : Nat) : ∃ p, fit n d k = some p := by
  induction k with
  | zero =>
    unfold fit
    have hc := (abs_le.1 (roundDiv_close (n := n) hd 0)).2
    have : roundDiv n d 0 < 2 ^ 96 := by
      have : (roundDiv n d 0 : Rat) < 2 ^ 96 := by
        rw [show (2 : Rat) ^ 96 = 79228162514264337593543950336 by norm_num]
        rw [show (10 : Rat) ^ 28 = 10000000000000000000000000000 by norm_num] at h
        rw [pow_zero, mul_one] at hc
        linarith
      exact_mod_cast this
    rw [if_pos this]; exact ⟨_, rfl⟩
  | succ k ih =>
    unfold fit
    split
    · exact ⟨_, rfl⟩
    · exact ih

theorem roundDiv_exact {n d m sc k : Nat} (hd : 0 < d) (h : (n : Rat) / d = (m : Rat) / 10 ^ sc) (hk : sc ≤ k) :
    roundDiv n d k = m * 10 ^ (k - sc) := by
  have hdq : (d : Rat) ≠ 0 := by exact_mod_cast hd.ne'
  rw [div_eq_div_iff hdq (by positivity)] at h
  have h' : n * 10 ^ sc = m * d := by exact_mod_cast h
  have hp : 10 ^ k = 10 ^ sc * 10 ^ (k - sc) := by rw [← pow_add]; congr 1; omega
  have e : 2 * (n * 10 ^ k) + d = d + (2 * d) * (m * 10 ^ (k - sc)) := by
    rw [hp, ← Nat.mul_assoc n, h']; ring
  unfold roundDiv
  rw [e, Nat.add_mul_div_left _ _ (by omega), Nat.div_eq_of_lt (by omega), Nat.zero_add]

theorem fit_exact {n d m sc : Nat} (hd : 0 < d) (h : (n : Rat) / d = (m : Rat) / 10 ^ sc) (hm : m < 2 ^ 96) (k : Nat)
    (hk : sc ≤ k) : ∃ p, fit n d k = some p ∧ (p.1 : Rat) / 10 ^ p.2 = (n : Rat) / d := by
  have fin : ∀ k, sc ≤ k → ((roundDiv n d k : Nat) : Rat) / 10 ^ k = (n : Rat) / d := by
    intro k hk
    rw [roundDiv_exact hd h hk, h]
    have hp : (10 : Rat) ^ k = 10 ^ sc * 10 ^ (k - sc) := by rw [← pow_add]; congr 1; omega
    push_cast
    rw [hp]; field_simp
  induction k with
  | zero =>
    have h0 : sc = 0 := by omega
    have : roundDiv n d 0 < 2 ^ 96 := by rw [roundDiv_exact hd h (by omega)]; simp [h0]; omega
    unfold fit; rw [if_pos this]
    exact ⟨_, rfl, fin 0 (by omega)⟩
  | succ k ih =>
    unfold fit
    split
    · exact ⟨_, rfl, fin _ hk⟩
    · rename_i hn
      apply ih
      apply Classical.byContradiction
      intro hsc
      have : sc = k + 1 := by omega
      subst this
      apply hn
      rw [roundDiv_exact hd h (Nat.le_refl _)]; simpa using hm

theorem strip_val (m k : Nat) : ((strip m k).1 : Rat) / 10 ^ (strip m k).2 = (m : Rat) / 10 ^ k := by
  induction k generalizing m with
  | zero => rfl
  | succ k ih =>
    unfold strip
    split
    · rename_i h
      rw [ih]
      have : m = 10 * (m / 10) := by omega
      have hm : (m : Rat) = 10 * ((m / 10 : Nat) : Rat) := by exact_mod_cast this
      rw [hm, pow_succ]; field_simp
    · rfl

theorem strip_bound (m k : Nat) : (strip m k).1 ≤ m ∧ (strip m k).2 ≤ k := by
  induction k generalizing m with
  | zero => simp [strip]
  | succ k ih =>
    unfold strip
    split
    · have := ih (m / 10)
      have := Nat.div_le_self m 10
      omega
    · simp

theorem round96_canon {neg : Bool} {n d : Nat} (hd : 0 < d) {c : Dec96} (h : round96 neg n d = some c) : Canon c := by
  unfold round96 at h
  rw [Option.map_eq_some_iff] at h
  obtain ⟨⟨m, sc⟩, hf, rfl⟩ := h
  obtain ⟨h1, h2, _⟩ := fit_spec hd hf
  have := strip_bound m sc
  refine ⟨by simp only; omega, by simp only; omega, ?_⟩
  simp

theorem round96_close {neg : Bool} {n d : Nat} (hd : 0 < d) {c : Dec96} (h : round96 neg n d = some c) :
    Rounded (val c) (sgn neg * ((n : Rat) / d)) := by
  unfold round96 at h
  rw [Option.map_eq_some_iff] at h
  obtain ⟨⟨m, sc⟩, hf, rfl⟩ := h
  have hc := fit_close hd hf
  have hv : val ⟨neg && decide ((strip m sc).1 ≠ 0), (strip m sc).1, (strip m sc).2⟩
      = sgn neg * ((m : Rat) / 10 ^ sc) := by
    rw [val_eq, strip_val]
    by_cases h0 : (strip m sc).1 = 0
    · have := strip_val m sc
      rw [h0] at this
      rw [← this]; simp
    · simp [h0]
  simp only at hv ⊢
  rw [hv]
  unfold Rounded at *
  have e : sgn neg * ((m : Rat) / 10 ^ sc) - sgn neg * ((n : Rat) / d)
      = sgn neg * ((m : Rat) / 10 ^ sc - (n : Rat) / d) := by ring
  have hs : |sgn neg| = 1 := by cases neg <;> simp [sgn]
  rw [e, abs_mul, abs_mul, hs, one_mul, one_mul]
  exact hc

theorem round96_exact {neg : Bool} {n d : Nat} (hd : 0 < d) {r : Dec96} (hr : Canon r)
    (h : val r = sgn neg * ((n : Rat) / d)) : ∃ c, round96 neg n d = some c ∧ val c = val r := by
  have hs : |sgn neg| = 1 := by cases neg <;> simp [sgn]
  have hs' : |sgn r.neg| = 1 := by cases r.neg <;> simp [sgn]
  have hab : (n : Rat) / d = (r.mant : Rat) / 10 ^ r.scale := by
    have := congrArg abs h
    rw [val_eq, abs_mul, abs_mul, hs, hs', one_mul, one_mul, abs_of_nonneg (by positivity),
      abs_of_nonneg (by positivity)] at this
    exact this.symm
  obtain ⟨⟨m, sc⟩, hp, hv⟩ := fit_exact hd hab hr.1 28 hr.2.1
  unfold round96
  rw [hp]
  refine ⟨_, rfl, ?_⟩
  have hv' : val ⟨neg && decide ((strip m sc).1 ≠ 0), (strip m sc).1, (strip m sc).2⟩
      = sgn neg * ((m : Rat) / 10 ^ sc) := by
    rw [val_eq, strip_val]
    by_cases h0 : (strip m sc).1 = 0
    · have := strip_val m sc
      rw [h0] at this
      rw [← this]; simp
    · simp [h0]
  simp only at hv hv' ⊢
  rw [hv', h, hv]

theorem round96_some {neg : Bool} {n d : Nat} (hd : 0 < d) (h : |sgn neg * ((n : Rat) / d)| ≤ 10 ^ 28) :
    ∃ c, round96 neg n d = some c := by
  have hs : |sgn neg| = 1 := by cases neg <;> simp [sgn]
  rw [abs_mul, hs, one_mul, abs_of_nonneg (by positivity)] at h
  obtain ⟨p, hp⟩ := fit_some hd h 28
  unfold round96; rw [hp]; exact ⟨_, rfl⟩

theorem val_zero {d : Dec96} : val d = 0 ↔ d.mant = 0 := by
  rw [val_eq]
  have hs : sgn d.neg ≠ 0 := by cases d.neg <;> simp [sgn]
  simp [hs]

theorem div_exact (a b : Dec96) (hb : b.mant ≠ 0) :
    sgn (a.neg != b.neg) * (((a.mant * 10 ^ b.scale : Nat) : Rat) / ((b.mant * 10 ^ a.scale : Nat) : Rat))
      = val a / val b := by
  rw [val_eq, val_eq, sgn_xor]
  have hb' : (b.mant : Rat) ≠ 0 := by exact_mod_cast hb
  have hs : sgn b.neg * sgn b.neg = 1 := by cases b.neg <;> simp [sgn]
  have hs0 : sgn b.neg ≠ 0 := by cases b.neg <;> simp [sgn]
  push_cast
  field_simp
  rw [pow_two, hs, mul_one]

theorem mul_exact (a b : Dec96) :
    sgn (a.neg != b.neg) * (((a.mant * b.mant : Nat) : Rat) / ((10 ^ (a.scale + b.scale) : Nat) : Rat))
      = val a * val b := by
  rw [val_eq, val_eq, sgn_xor]
  push_cast
  rw [pow_add]
  field_simp

instance : DecArith Dec96 where
  val := val
  ofI32 := ofI32
  div := div
  mul := mul
  val_ofI32 := by
    intro n
    unfold val ofI32 ofInt toInt
    simp only [pow_zero, div_one]
    congr 1
    split <;> rename_i h <;> simp only [decide_eq_true_eq] at h <;> omega
  canon_ofI32 := by
    intro n
    have h1 := Int32.le_toInt n
    have h2 := Int32.toInt_lt n
    refine ⟨?_, by simp [ofI32, ofInt], ?_⟩
    · show n.toInt.natAbs < 2 ^ 96
      omega
    · simp only [ofI32, ofInt, decide_eq_true_eq]; omega
  shw_ofI32 := by
    intro n
    have hd : ∀ m, digits m 0 = natToStr m := by
      intro m
      have : (natToStr m).length ≠ 0 := fun h => natToStr_ne_nil m (List.length_eq_zero_iff.1 h)
      unfold digits
      simp only
      rw [show 0 + 1 - (natToStr m).length = 0 by omega]; rfl
    show shw (ofI32 n) = _
    simp only [shw, ofI32, ofInt, if_true, hd, decide_eq_true_eq]
    unfold i32ToStr intToStr
    rfl
  div_exact := by
    intro a b r hb hr h
    rw [ne_eq, val_zero] at hb
    obtain ⟨c, h1, h2⟩ := round96_exact (neg := a.neg != b.neg) (n := a.mant * 10 ^ b.scale)
      (d := b.mant * 10 ^ a.scale) (Nat.mul_pos (Nat.pos_of_ne_zero hb) (by positivity)) hr (by
        rw [div_exact a b hb]; exact h)
    exact ⟨c, by unfold div; rw [if_neg hb]; exact h1, h2⟩
  mul_exact := by
    intro a b r hr h
    exact round96_exact (neg := a.neg != b.neg) (n := a.mant * b.mant)
      (d := 10 ^ (a.scale + b.scale)) (by positivity) hr (by rw [mul_exact]; exact h)
  div_zero := by
    intro a b h
    rw [val_zero] at h
    unfold div; rw [if_pos h]
  div_some := by
    intro a b h hq
    rw [ne_eq, val_zero] at h
    unfold div; rw [if_neg h]
    apply round96_some (Nat.mul_pos (Nat.pos_of_ne_zero h) (by positivity))
    rw [div_exact a b h]; exact hq
  div_rounded := by
    intro a b c h
    unfold div at h
    split at h
    · cases h
    · rename_i hb
      have := round96_close (Nat.mul_pos (Nat.pos_of_ne_zero hb) (by positivity)) h
      rwa [div_exact a b hb] at this
  mul_some := by
    intro a b h
    unfold mul
    apply round96_some (by positivity)
    rw [mul_exact]; exact h
  mul_rounded := by
    intro a b c h
    unfold mul at h
    have := round96_close (by positivity) h
    rwa [mul_exact] at this

example : div ⟨false, 1, 0⟩ ⟨false, 3, 0⟩ = some ⟨false, 3333333333333333333333333333, 28⟩ := by decide
example : mul ⟨false, 25, 1⟩ ⟨true, 4, 0⟩ = some ⟨true, 10, 0⟩ := by decide
example : div ⟨false, 1, 0⟩ ⟨false, 0, 3⟩ = none := by decide

end Dec96
end Osu
