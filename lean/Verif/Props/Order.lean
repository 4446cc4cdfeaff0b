/-
C92: the order of volumes and combo skips.
-/
import Verif.Model.Order
import Verif.Props.ValueErrors
import Verif.Props.HitObjects

namespace Osu

theorem compare_u8 (x y : UInt8) : compare x y = compare (x.toNat : Int) (y.toNat : Int) := by
  rw [show compare x y = compareOfLessAndEq x y from rfl, show compare (x.toNat : Int) (y.toNat : Int) = compareOfLessAndEq (x.toNat : Int) y.toNat from rfl]
  unfold compareOfLessAndEq
  have h1 : x < y ↔ (x.toNat : Int) < y.toNat := by rw [UInt8.lt_iff_toNat_lt]; omega
  have h2 : x = y ↔ (x.toNat : Int) = y.toNat := by
    constructor
    · rintro rfl; rfl
    · intro h; exact UInt8.toNat_inj.1 (by omega)
  simp only [h1, h2]

theorem compare_i32 (x y : Int32) : compare x y = compare x.toInt y.toInt := by
  rw [show compare x y = compareOfLessAndEq x y from rfl, show compare x.toInt y.toInt = compareOfLessAndEq x.toInt y.toInt from rfl]
  unfold compareOfLessAndEq
  have h1 : x < y ↔ x.toInt < y.toInt := Int32.lt_iff_toInt_lt
  have h2 : x = y ↔ x.toInt = y.toInt := Int32.toInt_inj.symm
  simp only [h1, h2]

/-- The number a volume stands for in a text. -/
def HO.Volume.num (a : HO.Volume) : Int := ((a.val.map UInt8.toNat).getD 0 : Nat)

theorem volume_ok {a : HO.Volume} (h : (∃ n, HO.Volume.new n = .ok a) ∨ ∃ s, HO.Volume.parse s = .ok a) : VolumeOk a :=
  C24_volume_bound h []

theorem volume_cmp {a b : HO.Volume} (ha : VolumeOk a) (hb : VolumeOk b) : a.cmp b = compare a.num b.num := by
  obtain ⟨a⟩ := a
  obtain ⟨b⟩ := b
  cases a with
  | none =>
    cases b with
    | none => rfl
    | some y =>
      have := (hb y rfl).1
      show Ordering.lt = compare (0 : Int) (y.toNat : Int)
      exact (Int.compare_eq_lt.2 (by omega)).symm
  | some x =>
    cases b with
    | none =>
      have := (ha x rfl).1
      show Ordering.gt = compare (x.toNat : Int) (0 : Int)
      exact (Int.compare_eq_gt.2 (by omega)).symm
    | some y => exact compare_u8 x y

theorem volume_read {s : Str} {a : HO.Volume} (h : HO.Volume.parse s = .ok a) : numVal s = a.num := by
  unfold HO.Volume.parse at h
  cases hp : parseU8 s with
  | err e => rw [hp] at h; cases h
  | panic => rw [hp] at h; cases h
  | ok v =>
    rw [hp] at h
    rw [u8_val hp]
    dsimp only at h
    split at h
    · rename_i hv; subst hv; cases h; rfl
    · rename_i hv
      simp only [HO.Volume.new, if_neg hv] at h
      split at h
      · cases h
      · cases h; rfl

theorem volume_shown (a : HO.Volume) : numVal a.shw = a.num := by
  obtain ⟨a⟩ := a
  cases a with
  | none => rfl
  | some n => exact u8_val (parseU8_u8ToStr n)

/-- C92: the volumes of hit samples are ordered like the numbers they are read from. -/
theorem C92_sample_read {s t : Str} {a b : HO.Volume} (hs : HO.Volume.parse s = .ok a) (ht : HO.Volume.parse t = .ok b) :
    a.cmp b = compare (numVal s) (numVal t) := by
  rw [volume_read hs, volume_read ht]
  exact volume_cmp (volume_ok (.inr ⟨_, hs⟩)) (volume_ok (.inr ⟨_, ht⟩))

example : (⟨none⟩ : HO.Volume).cmp ⟨some 70⟩ = .lt := C92_sample_read (s := c!"+00") (t := c!"070") (by decide) (by decide)

/-- C92: and like the numbers they are written as, however they were made and changed. -/
theorem C92_sample_written {x y : HO.Volume} (hx : (∃ n, HO.Volume.new n = .ok x) ∨ ∃ s, HO.Volume.parse s = .ok x)
    (hy : (∃ n, HO.Volume.new n = .ok y) ∨ ∃ s, HO.Volume.parse s = .ok y) (ops ops' : List VolumeOp) :
    (ops.foldl VolumeOp.run x).cmp (ops'.foldl VolumeOp.run y) =
      compare (numVal (ops.foldl VolumeOp.run x).shw) (numVal (ops'.foldl VolumeOp.run y).shw) := by
  rw [volume_shown, volume_shown]
  exact volume_cmp (C24_volume_bound hx ops) (C24_volume_bound hy ops')

example : ([VolumeOp.set 3, .set 0].foldl VolumeOp.run ⟨some 9⟩).cmp ([VolumeOp.useTimingPoint].foldl VolumeOp.run ⟨some 9⟩) = .gt :=
  C92_sample_written (.inl ⟨some 9, by decide⟩) (.inl ⟨some 9, by decide⟩) _ _

/-- C92: the volumes of timing points are ordered like the numbers they are read from and written as. -/
theorem C92_timing (a b : TP.Volume) : a.cmp b = compare (numVal a.shw) (numVal b.shw) ∧
    ∀ s t, TP.Volume.parse s = .ok a → TP.Volume.parse t = .ok b → a.cmp b = compare (numVal s) (numVal t) := by
  have hr : ∀ {s : Str} {a : TP.Volume}, TP.Volume.parse s = .ok a → numVal s = a.val.toInt := by
    intro s a h
    unfold TP.Volume.parse at h
    cases hp : parseI32 s with
    | err e => rw [hp] at h; cases h
    | panic => rw [hp] at h; cases h
    | ok v => rw [hp] at h; cases h; exact i32_val hp
  have hw : ∀ a : TP.Volume, numVal a.shw = a.val.toInt := fun a => i32_val (parseI32_i32ToStr a.val)
  refine ⟨?_, fun s t hs ht => ?_⟩
  · rw [hw, hw]; exact compare_i32 _ _
  · rw [hr hs, hr ht]; exact compare_i32 _ _

example : (⟨-5⟩ : TP.Volume).cmp ⟨100⟩ = .lt := (C92_timing _ _).2 c!"-05" c!"100" (by decide) (by decide)

/-- C92: combo skips are ordered like the numbers they are made from. -/
theorem C92_combo_skip {m n : UInt8} {a b : HO.ComboSkipCount} (hm : HO.ComboSkipCount.new m = some a) (hn : HO.ComboSkipCount.new n = some b) :
    a.cmp b = compare (m.toNat : Int) (n.toNat : Int) := by
  unfold HO.ComboSkipCount.new at hm hn
  split at hm
  · cases hm
  · split at hn
    · cases hn
    · cases hm; cases hn
      exact compare_u8 m n

example : (⟨2⟩ : HO.ComboSkipCount).cmp ⟨7⟩ = .lt := C92_combo_skip (m := 2) (n := 7) (by decide) (by decide)

/-- C92: values that compare as equal are equal. -/
theorem C92_equal (a b : HO.Volume) (c d : TP.Volume) (e f : HO.ComboSkipCount) :
    (a.cmp b = .eq ↔ a = b) ∧ (c.cmp d = .eq ↔ c = d) ∧ (e.cmp f = .eq ↔ e = f) := by
  have h8 : ∀ x y : UInt8, compare x y = .eq ↔ x = y := by
    intro x y
    rw [compare_u8, Std.compare_eq_iff_eq]
    constructor
    · intro h; exact UInt8.toNat_inj.1 (by omega)
    · rintro rfl; rfl
  refine ⟨?_, ?_, ?_⟩
  · obtain ⟨a⟩ := a
    obtain ⟨b⟩ := b
    cases a <;> cases b <;> simp [HO.Volume.cmp, h8]
  · obtain ⟨c⟩ := c
    obtain ⟨d⟩ := d
    unfold TP.Volume.cmp
    rw [compare_i32, Std.compare_eq_iff_eq, Int32.toInt_inj]
    simp
  · obtain ⟨e⟩ := e
    obtain ⟨f⟩ := f
    unfold HO.ComboSkipCount.cmp
    rw [h8]; simp

example : (⟨none⟩ : HO.Volume).cmp ⟨some 1⟩ ≠ .eq ∧ (⟨-5⟩ : TP.Volume).cmp ⟨-5⟩ = .eq ∧ (⟨2⟩ : HO.ComboSkipCount).cmp ⟨3⟩ ≠ .eq :=
  have h := C92_equal ⟨none⟩ ⟨some 1⟩ ⟨-5⟩ ⟨-5⟩ ⟨2⟩ ⟨3⟩
  ⟨fun e => absurd (h.1.1 e) (by decide), h.2.1.2 rfl, fun e => absurd (h.2.2.1 e) (by decide)⟩

/-- C92: it is false that the greater volume of a hit sample is the louder one: the volume that stands for that of the timing point, which
is 100 if it is left out, is below all others. -/
theorem C92_false_louder : ∃ a b : HO.Volume, HO.Volume.new none = .ok a ∧ HO.Volume.new (some 1) = .ok b ∧ a.cmp b = .lt ∧
    TimingPoint.volumeFallback = ⟨100⟩ := ⟨_, _, rfl, rfl, by decide, rfl⟩

end Osu
