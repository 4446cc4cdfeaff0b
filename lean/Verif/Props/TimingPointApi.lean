/-
C62: constructors of timing points and the quantities computed from them; C63: changing a timing point.
-/
import Verif.Proof.TimingPointApi
import Verif.Proof.DecArith96
import Verif.Props.TimingPoints

namespace Osu

section
variable {D : Type} [DecLib D] [DecArith D]
open DecArith

/-! ## C62: BPM and slider velocity -/

theorem val_one : val (ofI32 1 : D) = 1 := by rw [val_ofI32]; rfl
theorem val_60000 : val (ofI32 60000 : D) = 60000 := by rw [val_ofI32]; rfl
theorem val_m100 : val (ofI32 (-100) : D) = -100 := by rw [val_ofI32]; rfl

/-- The BPM of a beat duration is 60000 divided by it, up to rounding. -/
theorem C62_bpm_value {d x : D} (h : TimingPoint.beatDurationMsToBpm d = some x) :
    |val x - 60000 / val d| ≤ 120001 * decEps * max 1 |1 / val d| := by
  unfold TimingPoint.beatDurationMsToBpm at h
  rw [Option.bind_eq_some_iff] at h
  obtain ⟨q, hq, hx⟩ := h
  have h1 := div_rounded hq
  have h2 := mul_rounded hx
  rw [val_one] at h1
  rw [val_60000] at h2
  unfold Rounded at h1 h2
  set M := max 1 |1 / val d| with hM
  have hM1 : 1 ≤ M := le_max_left _ _
  have hM2 : |1 / val d| ≤ M := le_max_right _ _
  have he := decEps_pos
  have hq' : |val q| ≤ M + decEps * M := by
    have := abs_sub_abs_le_abs_sub (val q) (1 / val d)
    linarith
  have hmax : max 1 |val q * 60000| ≤ 60000 * (M + decEps * M) := by
    apply max_le
    · nlinarith
    · rw [abs_mul, show |(60000 : Rat)| = 60000 by norm_num]; linarith
  have h3 : |val x - val q * 60000| ≤ decEps * (60000 * (M + decEps * M)) :=
    le_trans h2 (mul_le_mul_of_nonneg_left hmax he.le)
  have e : val x - 60000 / val d = (val x - val q * 60000) + 60000 * (val q - 1 / val d) := by ring
  rw [e]
  refine le_trans (abs_add_le _ _) ?_
  rw [abs_mul, show |(60000 : Rat)| = 60000 by norm_num]
  have hs : 60000 * decEps ≤ 1 := by unfold decEps; norm_num
  have hM0 : 0 ≤ decEps * M := by nlinarith
  nlinarith [mul_nonneg hM0 (sub_nonneg.2 hs)]

/-- It exists for every duration from 10⁻²³ ms on, and panics for zero. -/
theorem C62_bpm_defined {d : D} (h : 1 / 10 ^ 23 ≤ |val d|) : ∃ x, TimingPoint.beatDurationMsToBpm d = some x := by
  have hd : val d ≠ 0 := by intro e; rw [e, abs_zero] at h; norm_num at h
  have hq : |1 / val d| ≤ 10 ^ 23 := by
    rw [abs_div, abs_one, div_le_iff₀ (abs_pos.2 hd)]
    rw [div_le_iff₀ (by positivity)] at h
    linarith
  obtain ⟨q, hq1⟩ := div_some (a := ofI32 1) hd (by rw [val_one]; exact le_trans hq (by norm_num))
  have hr := (div_rounded hq1)
  rw [val_one] at hr
  have hr := hr.le (M := 10 ^ 23) (by norm_num) hq
  have hq2 : |val q| ≤ 10 ^ 23 + decEps * 10 ^ 23 := by
    have := abs_sub_abs_le_abs_sub (val q) (1 / val d)
    linarith
  obtain ⟨x, hx⟩ := mul_some (a := q) (b := ofI32 60000) (by
    rw [val_60000, abs_mul, show |(60000 : Rat)| = 60000 by norm_num]
    unfold decEps at hq2
    norm_num at hq2 ⊢
    linarith)
  exact ⟨x, by unfold TimingPoint.beatDurationMsToBpm; rw [hq1]; exact hx⟩

theorem C62_bpm_zero_panics {d : D} (h : val d = 0) : TimingPoint.beatDurationMsToBpm d = none := by
  unfold TimingPoint.beatDurationMsToBpm
  rw [div_zero h]; rfl

/-- The slider velocity multiplier of a beat length between -10000 and -1 (or 1 and 10000) is -100 divided by it, up
to an error of 10⁻²⁰. -/
theorem C62_multiplier_value {b : D} (h1 : 1 ≤ |val b|) (h2 : |val b| ≤ 10000) {t : TimingPoint D}
    (hu : t.uninherited = some false) (hb : t.beatLength = .left b) :
    ∃ x, t.calcMultiplier = some (some x) ∧ |val x - (-100) / val b| ≤ 1 / 10 ^ 20 := by
  have hb0 : val b ≠ 0 := by intro e; rw [e, abs_zero] at h1; linarith
  have hc0 : |val b / (-100)| = |val b| / 100 := by rw [abs_div]; norm_num
  obtain ⟨c, hc⟩ := div_some (a := b) (b := ofI32 (-100)) (by rw [val_m100]; norm_num) (by
    rw [val_m100, hc0]; norm_num; linarith)
  have hr := div_rounded hc
  rw [val_m100] at hr
  have hr := hr.le (M := 100) (by norm_num) (by rw [hc0]; linarith)
  obtain ⟨hcne, hcL, hci⟩ := inv_close (L := 1 / 100) hr (by norm_num) (by rw [hc0]; linarith)
    (by unfold decEps; norm_num)
  have hci' : |1 / val c| ≤ 200 := by
    rw [abs_div, abs_one, div_le_iff₀ (abs_pos.2 hcne)]; linarith
  obtain ⟨x, hx⟩ := div_some (a := ofI32 1) (b := c) hcne (by
    rw [val_one]; refine le_trans hci' ?_; norm_num)
  have hxr := div_rounded hx
  rw [val_one] at hxr
  have hxr := hxr.le (M := 200) (by norm_num) hci'
  refine ⟨x, ?_, ?_⟩
  · unfold TimingPoint.calcMultiplier
    rw [hu, hb]
    simp [hc, hx]
  · have e : val x - (-100) / val b = (val x - 1 / val c) + (1 / val c - 1 / (val b / (-100))) := by
      field_simp; ring
    rw [e]
    refine le_trans (abs_add_le _ _) ?_
    unfold decEps at hxr hci
    norm_num at hxr hci ⊢
    linarith

/-- A multiplier between 0.01 and 100 given to the constructor of inherited points comes back up to an error of
10⁻²⁰. -/
theorem C62_multiplier_back {m : D} (h1 : 1 / 100 ≤ |val m|) (h2 : |val m| ≤ 100) (time meter : Int32)
    (ss : TP.SampleSet) (si : TP.SampleIndex) (vol : TP.Volume) (eff : TP.Effects) :
    ∃ t x, TimingPoint.newInherited time m meter ss si vol eff = some t ∧ t.calcMultiplier = some (some x) ∧
      |val x - val m| ≤ 1 / 10 ^ 20 := by
  have hm0 : val m ≠ 0 := by intro e; rw [e, abs_zero] at h1; norm_num at h1
  have hq1 : |1 / val m| ≤ 100 := by
    rw [abs_div, abs_one, div_le_iff₀ (abs_pos.2 hm0)]; linarith
  have hq2 : 1 / 100 ≤ |1 / val m| := by
    rw [abs_div, abs_one, le_div_iff₀ (abs_pos.2 hm0)]; linarith
  obtain ⟨q, hq⟩ := div_some (a := ofI32 1) (b := m) hm0 (by rw [val_one]; refine le_trans hq1 ?_; norm_num)
  have hqr := div_rounded hq
  rw [val_one] at hqr
  have hqr := hqr.le (M := 100) (by norm_num) hq1
  have hqa : |val q| ≤ 101 := by
    have := abs_sub_abs_le_abs_sub (val q) (1 / val m)
    have hE : decEps * 100 ≤ 1 := by unfold decEps; norm_num
    linarith
  have hqm : |val q * (-100)| ≤ 10100 := by
    rw [abs_mul, show |(-100 : Rat)| = 100 by norm_num]; linarith
  obtain ⟨b, hb⟩ := mul_some (a := q) (b := ofI32 (-100)) (by
    rw [val_m100]; refine le_trans hqm ?_; norm_num)
  have hbr := mul_rounded hb
  rw [val_m100] at hbr
  have hbr := hbr.le (M := 10100) (by norm_num) hqm
  have hba : |val b| ≤ 10101 := by
    have := abs_sub_abs_le_abs_sub (val b) (val q * (-100))
    unfold decEps at hbr
    norm_num at hbr this
    linarith
  have hc0 : |val b / (-100)| = |val b| / 100 := by rw [abs_div]; norm_num
  obtain ⟨c, hc⟩ := div_some (a := b) (b := ofI32 (-100)) (by rw [val_m100]; norm_num) (by
    rw [val_m100, hc0]; norm_num; linarith)
  have hcr := div_rounded hc
  rw [val_m100] at hcr
  have hcr := hcr.le (M := 102) (by norm_num) (by rw [hc0]; linarith)
  have hcm : |val c - 1 / val m| ≤ 304 * decEps := by
    have e : val c - 1 / val m = (val c - val b / (-100)) + (-1 / 100) * (val b - val q * (-100)) + (val q - 1 / val m) := by
      ring
    rw [e]
    refine le_trans (abs_add_le _ _) ?_
    refine le_trans (add_le_add (abs_add_le _ _) (le_refl _)) ?_
    rw [abs_mul, show |(-1 / 100 : Rat)| = 1 / 100 by norm_num]
    linarith [decEps_pos]
  obtain ⟨hcne, hcL, hci⟩ := inv_close (L := 1 / 100) hcm (by norm_num) hq2 (by unfold decEps; norm_num)
  have hci' : |1 / val c| ≤ 200 := by
    rw [abs_div, abs_one, div_le_iff₀ (abs_pos.2 hcne)]; linarith
  obtain ⟨x, hx⟩ := div_some (a := ofI32 1) (b := c) hcne (by
    rw [val_one]; refine le_trans hci' ?_; norm_num)
  have hxr := div_rounded hx
  rw [val_one] at hxr
  have hxr := hxr.le (M := 200) (by norm_num) hci'
  refine ⟨_, x, by unfold TimingPoint.newInherited; rw [hq]; simp only [Option.bind_some, hb, Option.map_some]; rfl, ?_, ?_⟩
  · unfold TimingPoint.calcMultiplier
    simp [hc, hx]
  · have e : val x - val m = (val x - 1 / val c) + (1 / val c - 1 / (1 / val m)) := by
      field_simp; ring
    rw [e]
    refine le_trans (abs_add_le _ _) ?_
    unfold decEps at hxr hci
    norm_num at hxr hci ⊢
    linarith

/-- Without any error if the two intermediate results are decimals. -/
theorem C62_multiplier_exact {m q b : D} (hm : val m ≠ 0) (hmc : DecLib.canon m) (hqc : DecLib.canon q)
    (hq : val q = 1 / val m) (hbc : DecLib.canon b) (hb : val b = -100 / val m) (time meter : Int32)
    (ss : TP.SampleSet) (si : TP.SampleIndex) (vol : TP.Volume) (eff : TP.Effects) :
    ∃ t x, TimingPoint.newInherited time m meter ss si vol eff = some t ∧ t.calcMultiplier = some (some x) ∧
      val x = val m := by
  obtain ⟨q', hq1, hq2⟩ := div_exact (a := ofI32 1) (b := m) hm hqc (by rw [val_one]; exact hq)
  obtain ⟨b', hb1, hb2⟩ := mul_exact (a := q') (b := ofI32 (-100)) hbc (by
    rw [val_m100, hq2, hq, hb]; ring)
  obtain ⟨c, hc1, hc2⟩ := div_exact (a := b') (b := ofI32 (-100)) (by rw [val_m100]; norm_num) hqc (by
    rw [val_m100, hb2, hq, hb]; ring)
  have hcne : val c ≠ 0 := by rw [hc2, hq]; exact one_div_ne_zero hm
  obtain ⟨x, hx1, hx2⟩ := div_exact (a := ofI32 1) (b := c) hcne hmc (by
    rw [val_one, hc2, hq, one_div_one_div])
  refine ⟨_, x, by unfold TimingPoint.newInherited; rw [hq1]; simp only [Option.bind_some, hb1, Option.map_some]; rfl, ?_, hx2⟩
  unfold TimingPoint.calcMultiplier
  simp [hc1, hx1]

/-- BPM and beat duration are inverse to each other up to 10⁻²⁰, for a BPM between 1 and 60000. -/
theorem C62_bpm_back {bpm : D} (h1 : 1 ≤ |val bpm|) (h2 : |val bpm| ≤ 60000) :
    ∃ d x, TimingPoint.bpmToBeatDurationMs bpm = some d ∧ TimingPoint.beatDurationMsToBpm d = some x ∧
      |val x - val bpm| ≤ 1 / 10 ^ 20 := by
  have he := decEps_pos
  have hq0 : |val bpm / 60000| = |val bpm| / 60000 := by rw [abs_div]; norm_num
  obtain ⟨q, hq⟩ := div_some (a := bpm) (b := ofI32 60000) (by rw [val_60000]; norm_num) (by
    rw [val_60000, hq0]; norm_num; linarith)
  have hqr := div_rounded hq
  rw [val_60000] at hqr
  have hqr := hqr.le (M := 1) (by norm_num) (by rw [hq0]; linarith)
  have hqL : 1 / 60001 ≤ |val q| := by
    have := abs_sub_abs_le_abs_sub (val bpm / 60000) (val q)
    rw [abs_sub_comm] at this
    rw [hq0] at this
    unfold decEps at hqr
    norm_num at hqr this ⊢
    linarith
  have hqU : |val q| ≤ 2 := by
    have := abs_sub_abs_le_abs_sub (val q) (val bpm / 60000)
    rw [hq0] at this
    unfold decEps at hqr
    norm_num at hqr this ⊢
    linarith
  have hq0 : val q ≠ 0 := by intro e; rw [e, abs_zero] at hqL; norm_num at hqL
  have hqi : |1 / val q| ≤ 60001 := by
    rw [abs_div, abs_one, div_le_iff₀ (abs_pos.2 hq0)]; linarith
  obtain ⟨d, hd⟩ := div_some (a := ofI32 1) (b := q) hq0 (by rw [val_one]; refine le_trans hqi ?_; norm_num)
  have hdr := div_rounded hd
  rw [val_one] at hdr
  unfold Rounded at hdr
  -- relative error of `d`
  have hrel : |val q * val d - 1| ≤ 2 * decEps := by
    have e : val q * val d - 1 = val q * (val d - 1 / val q) := by field_simp
    rw [e, abs_mul]
    have hmx : |val q| * max 1 |1 / val q| ≤ 2 := by
      rw [mul_max_of_nonneg _ _ (abs_nonneg _)]
      apply max_le
      · linarith
      · rw [← abs_mul, mul_one_div_cancel hq0]; norm_num
    have := mul_le_mul_of_nonneg_left hdr (abs_nonneg (val q))
    nlinarith
  have hp := inv_close (L := 1) (b := 1) hrel (by norm_num) (by norm_num) (by unfold decEps; norm_num)
  have hd0 : val d ≠ 0 := by intro e; apply hp.1; rw [e, mul_zero]
  have hdi : |1 / val d - val q| ≤ 8 * decEps := by
    have e : 1 / val d - val q = val q * (1 / (val q * val d) - 1 / 1) := by field_simp
    rw [e, abs_mul]
    have := mul_le_mul hqU hp.2.2 (abs_nonneg _) (by norm_num)
    linarith
  have hdU : |1 / val d| ≤ 3 := by
    have := abs_sub_abs_le_abs_sub (1 / val d) (val q)
    have hE : 8 * decEps ≤ 1 := by unfold decEps; norm_num
    linarith
  have hdL : 1 / 10 ^ 23 ≤ |val d| := by
    rw [abs_div, abs_one, div_le_iff₀ (abs_pos.2 hd0)] at hdU
    norm_num
    linarith
  obtain ⟨x, hx⟩ := C62_bpm_defined hdL
  refine ⟨d, x, by unfold TimingPoint.bpmToBeatDurationMs; rw [hq]; exact hd, hx, ?_⟩
  have hxr := C62_bpm_value hx
  have hxr' : |val x - 60000 / val d| ≤ 120001 * decEps * 3 :=
    le_trans hxr (mul_le_mul_of_nonneg_left (max_le (by norm_num) hdU) (by linarith))
  have e : val x - val bpm = (val x - 60000 / val d) + 60000 * (1 / val d - val q) + 60000 * (val q - val bpm / 60000) := by
    ring
  rw [e]
  refine le_trans (abs_add_le _ _) ?_
  refine le_trans (add_le_add (abs_add_le _ _) (le_refl _)) ?_
  rw [abs_mul, abs_mul, show |(60000 : Rat)| = 60000 by norm_num]
  unfold decEps at hxr' hdi hqr
  norm_num at hxr' hdi hqr ⊢
  linarith

/-- There is a BPM only for points with the flag set, a multiplier only for points with the flag unset, and for both
the beat length must be a number. (The outer `none` is a panic.) -/
theorem C62_which (t : TimingPoint D) :
    (t.calcBpm = some none ↔ t.uninherited ≠ some true ∨ ∃ s, t.beatLength = .right s) ∧
    (t.calcMultiplier = some none ↔ t.uninherited ≠ some false ∨ ∃ s, t.beatLength = .right s) := by
  unfold TimingPoint.calcBpm TimingPoint.calcMultiplier
  rcases t with ⟨time, b, m, ss, si, vol, u, e⟩
  have hm : ∀ o : Option D, o.map some ≠ some none := by intro o; cases o <;> simp
  have hm' : ∀ b : D, ¬ ((div b (ofI32 (-100))).bind fun q => div (ofI32 1) q).map some = some none := fun b => hm _
  rcases u with _ | (_ | _) <;> rcases b with b | b
  case some.false.left => simp only [Bool.false_eq_true, if_false, hm']; simp
  all_goals simp

example (t : TimingPoint Dec96) (h : t.uninherited = some false) : t.calcBpm = some none := (C62_which t).1.2 (.inl (by rw [h]; decide))

/-- A point made by a constructor has the quantity of its kind and not the other one. -/
theorem C62_kinds (time : Int32) (m : D) (d : Decimal D) (meter : Int32) (ss : TP.SampleSet)
    (si : TP.SampleIndex) (vol : TP.Volume) (eff : TP.Effects) :
    (∀ t, TimingPoint.newInherited time m meter ss si vol eff = some t →
      t.calcBpm = some none ∧ t.calcMultiplier ≠ some none ∧ t.isUninherited = false) ∧
    (TimingPoint.newUninherited time d meter ss si vol eff).calcMultiplier = some none ∧
    (TimingPoint.newUninherited time d meter ss si vol eff).isUninherited = true ∧
    (∀ b, d = .left b → (TimingPoint.newUninherited time d meter ss si vol eff).calcBpm =
      (TimingPoint.beatDurationMsToBpm b).map some) := by
  refine ⟨?_, rfl, rfl, ?_⟩
  · intro t h
    unfold TimingPoint.newInherited at h
    rw [Option.bind_eq_some_iff] at h
    obtain ⟨q, _, h⟩ := h
    rw [Option.map_eq_some_iff] at h
    obtain ⟨b, _, rfl⟩ := h
    refine ⟨rfl, ?_, rfl⟩
    rw [ne_eq, (C62_which _).2]
    simp
  · rintro b rfl; rfl

example : (TimingPoint.newUninherited 5 (.left (⟨false, 500, 0⟩ : Dec96)) 4 .normal (.index 1) ⟨100⟩ ⟨0⟩).calcMultiplier = some none ∧
    (TimingPoint.newUninherited 5 (.left (⟨false, 500, 0⟩ : Dec96)) 4 .normal (.index 1) ⟨100⟩ ⟨0⟩).isUninherited = true :=
  have h := C62_kinds 5 (⟨false, 1, 0⟩ : Dec96) (.left ⟨false, 500, 0⟩) 4 .normal (.index 1) ⟨100⟩ ⟨0⟩
  ⟨h.2.1, h.2.2.1⟩

/-- The constructor of inherited points panics on the multiplier zero. -/
theorem C62_zero_multiplier_panics {m : D} (h : val m = 0) (time meter : Int32)
    (ss : TP.SampleSet) (si : TP.SampleIndex) (vol : TP.Volume) (eff : TP.Effects) :
    TimingPoint.newInherited time m meter ss si vol eff = none := by
  unfold TimingPoint.newInherited
  rw [div_zero h]; rfl

/-- Points read in version 3 or 4, and points of later versions whose line ends before the flag, say that they are
uninherited but have neither a BPM nor a multiplier. -/
theorem C62_no_flag {v : Nat} {s : Str} {t : TimingPoint D} (h : TimingPoint.parse v s = .ok t)
    (hv : v ≤ 4 ∨ (splitOnC ',' s).length ≤ 6) :
    t.isUninherited = true ∧ t.calcBpm = some none ∧ t.calcMultiplier = some none := by
  have hu : t.uninherited = none := by
    have h' := C17_line_meaning.1 h
    generalize splitOnC ',' s = ps at h' hv
    cases h' with
    | old => rfl
    | four _ _ _ hu => exact hu
    | six _ _ _ hu => exact hu
    | seven => simp at hv; omega
    | eight => simp at hv; omega
  refine ⟨by unfold TimingPoint.isUninherited; rw [hu]; rfl, ?_, ?_⟩
  · rw [(C62_which t).1, hu]; simp
  · rw [(C62_which t).2, hu]; simp

theorem timeWritable_ofInt {v : Nat} (hv : ¬ (3 ≤ v ∧ v ≤ 4)) (n : Int32) :
    TimeWritable v (TimingPoint.timeOfInt n : Decimal D) := by
  unfold TimeWritable TimingPoint.timeOfInt
  simp only
  rw [if_neg hv]
  exact canon_ofI32 n

/-- Points made by the constructors are written and read back unchanged from version 5 on, if the sample index fits an
`i32` and `Other` sample sets are used for other codes only. -/
theorem C62_round_trip {v : Nat} (hv : 5 ≤ v) {t : TimingPoint D} {time : Int32} {m : D} {d : Decimal D} {meter : Int32}
    {ss : TP.SampleSet} {si : TP.SampleIndex} {vol : TP.Volume} {eff : TP.Effects}
    (ht : TimingPoint.newInherited time m meter ss si vol eff = some t ∨
      t = TimingPoint.newUninherited time d meter ss si vol eff)
    (hb : DecWritable fieldChar t.beatLength) (hsi : IndexWritable si) (hss : SampleSetNamed ss) :
    ∃ s, t.shw v = some s ∧ TimingPoint.parse v s = .ok t := by
  apply C15_round_trip
  have key : t.time = TimingPoint.timeOfInt time ∧ t.sampleSet = ss ∧ t.sampleIndex = si ∧ t.uninherited ≠ none ∧
      t.effects ≠ none := by
    rcases ht with h | rfl
    · unfold TimingPoint.newInherited at h
      rw [Option.bind_eq_some_iff] at h
      obtain ⟨q, _, h⟩ := h
      rw [Option.map_eq_some_iff] at h
      obtain ⟨b, _, rfl⟩ := h
      simp
    · simp [TimingPoint.newUninherited]
  obtain ⟨k1, k2, k3, k4, k5⟩ := key
  exact {
    time := by rw [k1]; exact timeWritable_ofInt (by omega) _
    beatLength := by rw [if_neg (by omega)]; exact hb
    index := fun _ => by rw [k3]; exact hsi
    named := fun _ => by rw [k2]; exact hss
    tail5 := fun _ h => absurd h k4
    tail6 := fun _ h => absurd h k5
    upTo3 := fun h => by omega
    upTo4 := fun h => by omega }

/-! ## C63: changing a timing point -/

/-- A change through the setters. -/
inductive TPEdit where
  | time (n : Int32)
  | meter (n : Int32)
  | sampleSet (s : TP.SampleSet)
  | sampleIndex (i : TP.SampleIndex)
  | volume (v : TP.Volume)
  | uninherited (u : Bool)
  | effects (e : TP.Effects)
  deriving DecidableEq, Repr

/-- The change as the code does it. -/
def TPEdit.run (t : TimingPoint D) : TPEdit → TimingPoint D
  | time n => t.setTime n
  | meter n => t.setMeter n
  | sampleSet s => t.setSampleSet s
  | sampleIndex i => t.setSampleIndex i
  | volume v => t.setVolume v
  | uninherited u => t.setUninherited u
  | effects e => t.setEffects (some e)

/-- The column of the line that a change concerns. -/
def TPEdit.column : TPEdit → Nat
  | time _ => 0 | meter _ => 2 | sampleSet _ => 3 | sampleIndex _ => 4 | volume _ => 5 | uninherited _ => 6
  | effects _ => 7

/-- What the column says afterwards. -/
def TPEdit.text : TPEdit → Str
  | time n => i32ToStr n
  | meter n => i32ToStr n
  | sampleSet s => i32ToStr s.toInt
  | sampleIndex .osuDefaultHitsounds => c!"0"
  | sampleIndex (.index n) => u32ToStr n
  | volume v => i32ToStr v.val
  | uninherited u => if u then c!"1" else c!"0"
  | effects e => u32ToStr e.bits

/-- Changes to values that can be written. -/
def TPEdit.Legal : TPEdit → Prop
  | sampleSet s => SampleSetNamed s
  | sampleIndex i => IndexWritable i
  | _ => True

omit [DecArith D] in
/-- The columns of a written line with all fields. -/
theorem tp_columns {v : Nat} (hv : 5 ≤ v) {t : TimingPoint D} (h : TPWritable v t) {u : Bool} {e : TP.Effects}
    (hu : t.uninherited = some u) (he : t.effects = some e) :
    ∃ s p, t.shw v = some s ∧ t.time.toStrShifted v = some p ∧
      splitOnC ',' s = [p, t.beatLength.toStr, i32ToStr t.meter, t.sampleSet.shw, t.sampleIndex.shw, t.volume.shw,
        boolToStr u, e.shw] := by
  obtain ⟨p, hp1, hp2, hp3⟩ := h.time.print
  have hb := h.beatLength
  rw [if_neg (by omega)] at hb
  have hbc := hb.chars (fun c hc => fieldChar_dec hc)
  refine ⟨_, p, by unfold TimingPoint.shw; rw [hp1]; rfl, hp1, ?_⟩
  have g3 : v > 3 := by omega
  have g4 : v > 4 := by omega
  have e' : p :: t.tailFields v = [p, t.beatLength.toStr, i32ToStr t.meter, t.sampleSet.shw, t.sampleIndex.shw,
      t.volume.shw, boolToStr u, e.shw] := by simp [TimingPoint.tailFields, hu, he, g3, g4]
  simp only [e']
  apply splitOnC_join (by simp)
  intro x hx
  apply noComma_of_field
  simp only [List.mem_cons, List.not_mem_nil, or_false] at hx
  rcases hx with rfl | rfl | rfl | rfl | rfl | rfl | rfl | rfl
  · exact hp3
  · exact hbc
  · exact i32_field _
  · exact fieldChar_num (TP.SampleSet.parse_chars (TP.sampleSet_round (h.named (by omega))))
  · exact fieldChar_num (TP.SampleIndex.parse_chars (TP.sampleIndex_round (h.index (by omega))))
  · exact fieldChar_num (TP.Volume.parse_chars (TP.volume_round _))
  · exact bool_field _
  · exact fieldChar_num (TP.Effects.parse_chars (TP.effects_round _))

theorem tpEdit_keeps {v : Nat} (hv : 5 ≤ v) {t : TimingPoint D} (h : TPWritable v t) (hu : t.uninherited.isSome)
    (he : t.effects.isSome) {o : TPEdit} (ho : o.Legal) :
    TPWritable v (o.run t) ∧ (o.run t).uninherited.isSome ∧ (o.run t).effects.isSome := by
  have hs : ∀ {α : Type} {x : Option α}, x.isSome → x ≠ none := by intro α x h e; rw [e] at h; cases h
  obtain ⟨h1, h2, h3, h4, h5, h6⟩ := h
  cases o with
  | time n =>
    exact ⟨⟨timeWritable_ofInt (by omega) n, h2, h3, h4, h5, h6⟩, hu, he⟩
  | meter n => exact ⟨⟨h1, h2, h3, h4, h5, h6⟩, hu, he⟩
  | sampleSet s => exact ⟨⟨h1, h2, h3, fun _ => ho, h5, h6⟩, hu, he⟩
  | sampleIndex i => exact ⟨⟨h1, h2, fun _ => ho, h4, h5, h6⟩, hu, he⟩
  | volume x => exact ⟨⟨h1, h2, h3, h4, h5, h6⟩, hu, he⟩
  | uninherited u => exact ⟨⟨h1, h2, h3, h4, fun _ h => (by cases h), fun _ h => absurd h (hs he)⟩, rfl, he⟩
  | effects e => exact ⟨⟨h1, h2, h3, h4, fun _ h => absurd h (hs hu), fun _ h => (by cases h)⟩, hu, rfl⟩

theorem tpEdit_column {v : Nat} (hv : 5 ≤ v) {t : TimingPoint D} (h : TPWritable v t) (hu : t.uninherited.isSome)
    (he : t.effects.isSome) {o : TPEdit} (ho : o.Legal) :
    ∃ s s', t.shw v = some s ∧ (o.run t).shw v = some s' ∧ splitOnC ',' s' = (splitOnC ',' s).set o.column o.text := by
  obtain ⟨k1, k2, k3⟩ := tpEdit_keeps hv h hu he ho
  rw [Option.isSome_iff_exists] at hu he k2 k3
  obtain ⟨u, hu⟩ := hu
  obtain ⟨e, he⟩ := he
  obtain ⟨u', hu'⟩ := k2
  obtain ⟨e', he'⟩ := k3
  obtain ⟨s, p, hs, hp, hc⟩ := tp_columns hv h hu he
  obtain ⟨s', p', hs', hp', hc'⟩ := tp_columns hv k1 hu' he'
  refine ⟨s, s', hs, hs', ?_⟩
  rw [hc, hc']
  cases o with
  | time n =>
    have : p' = i32ToStr n := by
      simp only [TPEdit.run, TimingPoint.setTime, TimingPoint.timeOfInt, Decimal.toStrShifted] at hp'
      rw [if_neg (by omega)] at hp'
      rw [← shw_ofI32 (D := D) n]
      exact (Option.some.inj hp').symm
    simp only [TPEdit.run, TimingPoint.setTime] at hu' he' ⊢
    rw [hu] at hu'; rw [he] at he'
    cases hu'; cases he'
    simp [TPEdit.column, TPEdit.text, this]
  | meter n =>
    simp only [TPEdit.run, TimingPoint.setMeter] at hu' he' hp' ⊢
    rw [hu] at hu'; rw [he] at he'; rw [hp] at hp'
    cases hu'; cases he'; cases hp'
    simp [TPEdit.column, TPEdit.text]
  | sampleSet n =>
    simp only [TPEdit.run, TimingPoint.setSampleSet] at hu' he' hp' ⊢
    rw [hu] at hu'; rw [he] at he'; rw [hp] at hp'
    cases hu'; cases he'; cases hp'
    simp [TPEdit.column, TPEdit.text, TP.SampleSet.shw]
  | sampleIndex n =>
    simp only [TPEdit.run, TimingPoint.setSampleIndex] at hu' he' hp' ⊢
    rw [hu] at hu'; rw [he] at he'; rw [hp] at hp'
    cases hu'; cases he'; cases hp'
    have : n.shw = (TPEdit.sampleIndex n).text := by
      cases n with
      | osuDefaultHitsounds => decide
      | index k => exact u32_i32_str ho.2
    simp [TPEdit.column, ← this]
  | volume n =>
    simp only [TPEdit.run, TimingPoint.setVolume] at hu' he' hp' ⊢
    rw [hu] at hu'; rw [he] at he'; rw [hp] at hp'
    cases hu'; cases he'; cases hp'
    simp [TPEdit.column, TPEdit.text, TP.Volume.shw]
  | uninherited n =>
    simp only [TPEdit.run, TimingPoint.setUninherited] at hu' he' hp' ⊢
    rw [he] at he'; rw [hp] at hp'
    cases hu'; cases he'; cases hp'
    cases u' <;> simp [TPEdit.column, TPEdit.text, boolToStr]
  | effects n =>
    simp only [TPEdit.run, TimingPoint.setEffects] at hu' he' hp' ⊢
    rw [hu] at hu'; rw [hp] at hp'
    cases hu'; cases he'; cases hp'
    simp [TPEdit.column, TPEdit.text, TP.Effects.shw]

/-- Any sequence of changes to a point with all fields changes exactly the columns named, the last change of a column
counts, and the changed line reads back as the changed point. From version 5 on. -/
theorem C63_edits {v : Nat} (hv : 5 ≤ v) {t : TimingPoint D} (h : TPWritable v t) (hu : t.uninherited.isSome)
    (he : t.effects.isSome) (os : List TPEdit) (ho : ∀ o ∈ os, o.Legal) :
    ∃ s s', t.shw v = some s ∧ (os.foldl TPEdit.run t).shw v = some s' ∧
      splitOnC ',' s' = os.foldl (fun cs o => cs.set o.column o.text) (splitOnC ',' s) ∧
      TimingPoint.parse v s' = .ok (os.foldl TPEdit.run t) := by
  induction os generalizing t with
  | nil =>
    obtain ⟨s, h1, h2⟩ := C15_lossy h
    have : tpDefaults v t = t := by unfold tpDefaults; rw [if_neg (by omega), if_neg (by omega)]
    rw [this] at h2
    exact ⟨s, s, h1, h1, rfl, h2⟩
  | cons o os ih =>
    obtain ⟨k1, k2, k3⟩ := tpEdit_keeps hv h hu he (ho o List.mem_cons_self)
    obtain ⟨s, s1, hs, hs1, hc⟩ := tpEdit_column hv h hu he (ho o List.mem_cons_self)
    obtain ⟨s1', s', hs1', hs', hc', hr⟩ := ih k1 k2 k3 fun o' ho' => ho o' (List.mem_cons_of_mem _ ho')
    rw [hs1] at hs1'
    cases hs1'
    refine ⟨s, s', hs, hs', ?_, hr⟩
    rw [hc', hc]; rfl

omit [DecArith D] in
/-- From version 6 on, setting the flag of a point that has no effects gives a point whose line cannot be read. -/
theorem C63_flag_alone {v : Nat} (hv : 6 ≤ v) {t : TimingPoint D} (h : TPWritable v t) (he : t.effects = none)
    (u : Bool) : ∃ s, (t.setUninherited u).shw v = some s ∧
      ∀ t' : TimingPoint D, TimingPoint.parse v s ≠ .ok t' := by
  obtain ⟨p, hp1, hp2, hp3⟩ := h.time.print
  have hb := h.beatLength
  rw [if_neg (by omega)] at hb
  have hbc := hb.chars (fun c hc => fieldChar_dec hc)
  refine ⟨_, by unfold TimingPoint.shw; rw [show (t.setUninherited u).time = t.time from rfl, hp1]; rfl, ?_⟩
  have g3 : v > 3 := by omega
  have g4 : v > 4 := by omega
  have e' : p :: (t.setUninherited u).tailFields v = [p, t.beatLength.toStr, i32ToStr t.meter, t.sampleSet.shw, t.sampleIndex.shw,
      t.volume.shw, boolToStr u] := by simp [TimingPoint.tailFields, TimingPoint.setUninherited, he, g3, g4]
  simp only [e']
  intro t' ht
  rw [C17_line_meaning, splitOnC_join (by simp)] at ht
  · cases ht with
    | old => omega
    | seven => omega
  · intro x hx
    apply noComma_of_field
    simp only [List.mem_cons, List.not_mem_nil, or_false] at hx
    rcases hx with rfl | rfl | rfl | rfl | rfl | rfl | rfl
    · exact hp3
    · exact hbc
    · exact i32_field _
    · exact fieldChar_num (TP.SampleSet.parse_chars (TP.sampleSet_round (h.named (by omega))))
    · exact fieldChar_num (TP.SampleIndex.parse_chars (TP.sampleIndex_round (h.index (by omega))))
    · exact fieldChar_num (TP.Volume.parse_chars (TP.volume_round _))
    · exact bool_field _

omit [DecArith D] in
/-- Setting the effects of a point that has no flag gives a point whose line cannot be read, from version 5 on. -/
theorem C63_effects_alone {v : Nat} (hv : 5 ≤ v) {t : TimingPoint D} (h : TPWritable v t) (hu : t.uninherited = none)
    (e : TP.Effects) : ∃ s, (t.setEffects (some e)).shw v = some s ∧
      ∀ t' : TimingPoint D, TimingPoint.parse v s ≠ .ok t' := by
  obtain ⟨p, hp1, hp2, hp3⟩ := h.time.print
  have hb := h.beatLength
  rw [if_neg (by omega)] at hb
  have hbc := hb.chars (fun c hc => fieldChar_dec hc)
  refine ⟨_, by unfold TimingPoint.shw; rw [show (t.setEffects (some e)).time = t.time from rfl, hp1]; rfl, ?_⟩
  have g3 : v > 3 := by omega
  have g4 : v > 4 := by omega
  have e' : p :: (t.setEffects (some e)).tailFields v = [p, t.beatLength.toStr, i32ToStr t.meter, t.sampleSet.shw, t.sampleIndex.shw,
      t.volume.shw, [], e.shw] := by simp [TimingPoint.tailFields, TimingPoint.setEffects, hu, g3, g4]
  simp only [e']
  intro t' ht
  rw [C17_line_meaning, splitOnC_join (by simp)] at ht
  · cases ht with
    | old => omega
    | eight _ _ _ hu => cases hu
  · intro x hx
    apply noComma_of_field
    simp only [List.mem_cons, List.not_mem_nil, or_false] at hx
    rcases hx with rfl | rfl | rfl | rfl | rfl | rfl | rfl | rfl
    · exact hp3
    · exact hbc
    · exact i32_field _
    · exact fieldChar_num (TP.SampleSet.parse_chars (TP.sampleSet_round (h.named (by omega))))
    · exact fieldChar_num (TP.SampleIndex.parse_chars (TP.sampleIndex_round (h.index (by omega))))
    · exact fieldChar_num (TP.Volume.parse_chars (TP.volume_round _))
    · intro c hc; cases hc
    · exact fieldChar_num (TP.Effects.parse_chars (TP.effects_round _))

end

/-! ### Examples and witnesses -/

open DecArith in
/-- The multiplier 3 does not come back exactly. -/
theorem C62_false_exact :
    ∃ (t : TimingPoint Dec96) (x : Dec96),
      TimingPoint.newInherited 0 (⟨false, 3, 0⟩ : Dec96) 4 .normal (.index 1) ⟨100⟩ ⟨0⟩ = some t ∧
      t.calcMultiplier = some (some x) ∧ val x ≠ val (⟨false, 3, 0⟩ : Dec96) :=
  ⟨⟨.left ⟨false, 0, 0⟩, .left ⟨true, 3333333333333333333333333333, 26⟩, 4, .normal, .index 1, ⟨100⟩, some false, some ⟨0⟩⟩,
    ⟨false, 30000000000000000000000000003, 28⟩, by decide, by decide, by
      show Dec96.val _ ≠ Dec96.val _
      simp only [Dec96.val, Dec96.toInt]; norm_num⟩

/-- A line with beat length 0 is accepted, and asking for its BPM (or multiplier) panics. -/
theorem C62_false_zero :
    ∃ t t' : TimingPoint Dec96,
      TimingPoint.parse 14 c!"0,0,4,1,1,100,1,0" = .ok t ∧ t.calcBpm = none ∧
      TimingPoint.parse 14 c!"0,0,4,1,1,100,0,0" = .ok t' ∧ t'.calcMultiplier = none :=
  ⟨⟨.left ⟨false, 0, 0⟩, .left ⟨false, 0, 0⟩, 4, .normal, .index 1, ⟨100⟩, some true, some ⟨0⟩⟩,
   ⟨.left ⟨false, 0, 0⟩, .left ⟨false, 0, 0⟩, 4, .normal, .index 1, ⟨100⟩, some false, some ⟨0⟩⟩,
    by decide, by decide, by decide, by decide⟩

-- 180 BPM is 333.33 ms and back
example : (TimingPoint.bpmToBeatDurationMs (⟨false, 180, 0⟩ : Dec96)) = some ⟨false, 33333333333333333333333333333, 26⟩ := by
  decide
example : (TimingPoint.beatDurationMsToBpm (⟨false, 500, 0⟩ : Dec96)) = some ⟨false, 120, 0⟩ := by decide
example : TimingPoint.newInherited 1500 (⟨false, 5, 1⟩ : Dec96) 4 .soft (.index 2) ⟨70⟩ ⟨1⟩ =
    some ⟨.left ⟨false, 1500, 0⟩, .left ⟨true, 200, 0⟩, 4, .soft, .index 2, ⟨70⟩, some false, some ⟨1⟩⟩ := by decide
example : (TimingPoint.newUninherited 0 (.left (⟨false, 500, 0⟩ : Dec96)) 4 .soft (.index 2) ⟨70⟩ ⟨1⟩).calcBpm =
    some (some ⟨false, 120, 0⟩) := by decide
-- the hypotheses of the exact theorem: multiplier 1.25
example : ∃ (t : TimingPoint Dec96) (x : Dec96),
    TimingPoint.newInherited 0 (⟨false, 125, 2⟩ : Dec96) 4 .normal (.index 1) ⟨100⟩ ⟨0⟩ = some t ∧
    t.calcMultiplier = some (some x) ∧ DecArith.val x = DecArith.val (⟨false, 125, 2⟩ : Dec96) :=
  C62_multiplier_exact (q := ⟨false, 8, 1⟩) (b := ⟨true, 80, 0⟩)
    (by show Dec96.val _ ≠ 0; simp only [Dec96.val, Dec96.toInt]; norm_num)
    (by decide : Dec96.Canon _) (by decide : Dec96.Canon _)
    (by show Dec96.val _ = 1 / Dec96.val _; simp only [Dec96.val, Dec96.toInt]; norm_num)
    (by decide : Dec96.Canon _)
    (by show Dec96.val _ = -100 / Dec96.val _; simp only [Dec96.val, Dec96.toInt]; norm_num) _ _ _ _ _ _
-- the hypotheses of the rounded theorems: multiplier 3, 180 BPM
example : 1 / 100 ≤ |DecArith.val (⟨false, 3, 0⟩ : Dec96)| ∧ |DecArith.val (⟨false, 3, 0⟩ : Dec96)| ≤ 100 := by
  show 1 / 100 ≤ |Dec96.val _| ∧ |Dec96.val _| ≤ 100
  simp only [Dec96.val, Dec96.toInt]; norm_num
example : 1 ≤ |DecArith.val (⟨false, 180, 0⟩ : Dec96)| ∧ |DecArith.val (⟨false, 180, 0⟩ : Dec96)| ≤ 60000 := by
  show 1 ≤ |Dec96.val _| ∧ |Dec96.val _| ≤ 60000
  simp only [Dec96.val, Dec96.toInt]; norm_num
-- a version 4 point has no BPM
example : ∃ t : TimingPoint Dec96, TimingPoint.parse 4 c!"24,500,4,1,1" = .ok t ∧ t.isUninherited = true ∧
    t.calcBpm = some none :=
  ⟨⟨.left ⟨false, 48, 0⟩, .left ⟨false, 500, 0⟩, 4, .normal, .index 1, ⟨100⟩, none, none⟩, by decide, by decide, by decide⟩
-- changes
example : ([TPEdit.meter 3, .uninherited true, .meter 5].foldl TPEdit.run tpExample).shw 14 =
    some c!"1500,-5.0,5,9,2,70,1,9" := by decide
example : ∃ s s', tpExample.shw 14 = some s ∧
    ([TPEdit.meter 3, .uninherited true, .meter 5].foldl TPEdit.run tpExample).shw 14 = some s' ∧
    splitOnC ',' s' = [TPEdit.meter 3, .uninherited true, .meter 5].foldl (fun cs o => cs.set o.column o.text) (splitOnC ',' s) ∧
    TimingPoint.parse 14 s' = .ok ([TPEdit.meter 3, .uninherited true, .meter 5].foldl TPEdit.run tpExample) :=
  C63_edits (by decide) tpExample_ok.toTPWritable rfl rfl _ (by
    intro o ho
    simp only [List.mem_cons, List.not_mem_nil, or_false] at ho
    rcases ho with rfl | rfl | rfl <;> trivial)
-- a point without flag
example : ∃ t : TimingPoint Dec96, TimingPoint.parse 14 c!"0,500,4,1,1,100" = .ok t ∧ t.effects = none ∧
    (t.setUninherited false).shw 14 = some c!"0,500,4,1,1,100,0" ∧
    (TimingPoint.parse 14 c!"0,500,4,1,1,100,0" : Res TPErr (TimingPoint Dec96)) = .err .missingEffects :=
  ⟨⟨.left ⟨false, 0, 0⟩, .left ⟨false, 500, 0⟩, 4, .normal, .index 1, ⟨100⟩, none, none⟩, by decide, rfl, by decide, by decide⟩

/-! The hypotheses of the theorems above. -/

private theorem val500 : DecArith.val (⟨false, 500, 0⟩ : Dec96) = 500 := by
  show Dec96.val _ = _
  simp only [Dec96.val, Dec96.toInt]; norm_num
private theorem val0 : DecArith.val (⟨true, 0, 3⟩ : Dec96) = 0 := by
  show Dec96.val _ = _
  simp only [Dec96.val, Dec96.toInt]; norm_num

open DecArith in
example : |val (⟨false, 120, 0⟩ : Dec96) - 60000 / val (⟨false, 500, 0⟩ : Dec96)| ≤ 120001 * decEps * max 1 |1 / val (⟨false, 500, 0⟩ : Dec96)| :=
  C62_bpm_value (by decide)
example : ∃ x, TimingPoint.beatDurationMsToBpm (⟨false, 500, 0⟩ : Dec96) = some x := C62_bpm_defined (by rw [val500]; norm_num)
example : TimingPoint.beatDurationMsToBpm (⟨true, 0, 3⟩ : Dec96) = none := C62_bpm_zero_panics val0
open DecArith in
example : ∃ x, (TimingPoint.calcMultiplier ⟨.left ⟨false, 0, 0⟩, .left (⟨false, 500, 0⟩ : Dec96), 4, .normal, .index 1, ⟨100⟩, some false, none⟩) =
    some (some x) ∧ |val x - (-100) / val (⟨false, 500, 0⟩ : Dec96)| ≤ 1 / 10 ^ 20 :=
  C62_multiplier_value (by rw [val500]; norm_num) (by rw [val500]; norm_num) rfl rfl
open DecArith in
example : ∃ t x, TimingPoint.newInherited 7 (⟨false, 3, 0⟩ : Dec96) 4 .soft (.index 1) ⟨80⟩ ⟨0⟩ = some t ∧ t.calcMultiplier = some (some x) ∧
    |val x - val (⟨false, 3, 0⟩ : Dec96)| ≤ 1 / 10 ^ 20 :=
  have e : val (⟨false, 3, 0⟩ : Dec96) = 3 := by
    show Dec96.val _ = _
    simp only [Dec96.val, Dec96.toInt]; norm_num
  C62_multiplier_back (by rw [e]; norm_num) (by rw [e]; norm_num) _ _ _ _ _ _
open DecArith in
example : ∃ d x, TimingPoint.bpmToBeatDurationMs (⟨false, 500, 0⟩ : Dec96) = some d ∧ TimingPoint.beatDurationMsToBpm d = some x ∧
    |val x - val (⟨false, 500, 0⟩ : Dec96)| ≤ 1 / 10 ^ 20 := C62_bpm_back (by rw [val500]; norm_num) (by rw [val500]; norm_num)
example : TimingPoint.newInherited 7 (⟨true, 0, 3⟩ : Dec96) 4 .soft (.index 1) ⟨80⟩ ⟨0⟩ = none := C62_zero_multiplier_panics val0 _ _ _ _ _ _

private def tpBare : TimingPoint Dec96 := ⟨.left ⟨false, 0, 0⟩, .left ⟨false, 500, 0⟩, 4, .normal, .index 1, ⟨100⟩, none, none⟩
private theorem tpBare_ok : TPWritable 14 tpBare where
  time := by
    simp only [TimeWritable, tpBare]
    rw [if_neg (by decide)]; exact (by decide : Dec96.Canon ⟨false, 0, 0⟩)
  beatLength := (by decide : Dec96.Canon ⟨false, 500, 0⟩)
  index := fun _ => (by decide : (1 : UInt32) ≠ 0 ∧ (1 : UInt32).toNat ≤ 2147483647)
  named := fun _ => trivial
  tail5 := fun _ h => rfl
  tail6 := fun _ h => rfl

example : tpBare.isUninherited = true ∧ tpBare.calcBpm = some none ∧ tpBare.calcMultiplier = some none :=
  C62_no_flag (v := 14) (s := c!"0,500,4,1,1,100") (by decide) (.inr (by decide))
example : ∃ s, (tpBare.setUninherited true).shw 14 = some s ∧ ∀ t' : TimingPoint Dec96, TimingPoint.parse 14 s ≠ .ok t' :=
  C63_flag_alone (by decide) tpBare_ok rfl true
example : ∃ s, (tpBare.setEffects (some ⟨1⟩)).shw 14 = some s ∧ ∀ t' : TimingPoint Dec96, TimingPoint.parse 14 s ≠ .ok t' :=
  C63_effects_alone (by decide) tpBare_ok rfl ⟨1⟩
example : ∃ s, (TimingPoint.newUninherited 3 (.left (⟨false, 500, 0⟩ : Dec96)) 4 .soft (.index 2) ⟨80⟩ ⟨8⟩).shw 14 = some s ∧
    TimingPoint.parse 14 s = .ok (TimingPoint.newUninherited 3 (.left (⟨false, 500, 0⟩ : Dec96)) 4 .soft (.index 2) ⟨80⟩ ⟨8⟩) :=
  C62_round_trip (m := ⟨false, 1, 0⟩) (by decide) (.inr rfl) (by decide : Dec96.Canon ⟨false, 500, 0⟩)
    (by decide : (2 : UInt32) ≠ 0 ∧ (2 : UInt32).toNat ≤ 2147483647) trivial

end Osu
