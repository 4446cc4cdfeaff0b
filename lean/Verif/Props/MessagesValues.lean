/-
C90: the texts and causes of the errors of single values and of setters.
-/
import Verif.Model.MessagesValues
import Verif.Spec.MessagesValues
import Verif.Props.ValueErrors
import Verif.Props.Storyboard

namespace Osu

/-! ### Single values -/

theorem limit_shows {ε α : Type} {f : Str → Res ε α} {int : IntErr → ε} {high : ε} {sy : Str → Option Str} {limit : Int}
    (h : LimitErrors f int high sy limit) {msg : ε → Str} (hint : ∀ i, msg (int i) = i.msg)
    (hs : ∀ s m, sy s = some m → ∃ i : IntErr, m = i.msg) : Shows f msg (limitSays sy limit (msg high)) := by
  intro s m
  unfold limitSays
  simp only [(h s).1]
  cases hk : sy s with
  | some k =>
    obtain ⟨i, rfl⟩ := hs s k hk
    constructor
    · rintro ⟨e, ⟨j, rfl, hj⟩ | ⟨_, hj, _⟩, rfl⟩
      · rw [hint]; exact hj
      · cases hj
    · intro h; cases h; exact ⟨int i, .inl ⟨i, rfl, rfl⟩, hint i⟩
  | none =>
    constructor
    · rintro ⟨e, ⟨j, _, hj⟩ | ⟨rfl, _, hl⟩, rfl⟩
      · cases hj
      · simp [hl]
    · intro h
      dsimp only at h
      by_cases hl : limit < numVal s
      · rw [if_pos hl] at h; cases h; exact ⟨high, .inr ⟨rfl, rfl, hl⟩, rfl⟩
      · rw [if_neg hl] at h; cases h

theorem unsignedSays_msg {max : Nat} {s m : Str} (h : unsignedSays max s = some m) : ∃ i : IntErr, m = i.msg := by
  rw [unsignedSays_eq] at h
  obtain ⟨i, _, h⟩ := Option.map_eq_some_iff.1 h
  exact ⟨i, h.symm⟩

theorem usizeSays_msg {s m : Str} (h : usizeSays s = some m) : ∃ i : IntErr, m = i.msg := by
  rw [usizeSays_eq] at h
  obtain ⟨i, _, h⟩ := Option.map_eq_some_iff.1 h
  exact ⟨i, h.symm⟩

/-- C90: the texts of the errors of values with a limit: the volume of a hit sample, the volume of an audio sample and the origins and
layers that are numbers in the older events. -/
theorem C90_limits :
    Shows HO.Volume.parse HO.VolumeErr.msg
      (limitSays (unsignedSays 255) 100 c!"The volume was too high, expected to be in range 1 ~ 100") ∧
    Shows Ev.Volume.parse Ev.Volume.errMsg
      (limitSays (unsignedSays 255) 100 c!"The volume was too high, expected the range 1 ~ 100") ∧
    Shows Ev.OriginLegacy.parse Ev.ReprErr.msg (limitSays usizeSays 9 c!"Invalid repr value") ∧
    Shows Ev.LayerLegacy.parse Ev.ReprErr.msg (limitSays usizeSays 5 c!"Invalid repr value") :=
  ⟨limit_shows C89_volume.1 (fun _ => rfl) fun _ _ => unsignedSays_msg,
    limit_shows C89_event_values.2.2 (msg := Ev.Volume.errMsg) (fun _ => rfl) fun _ _ => unsignedSays_msg,
    limit_shows C89_event_values.1 (msg := Ev.ReprErr.msg) (fun _ => rfl) fun _ _ => usizeSays_msg,
    limit_shows C89_event_values.2.1 (msg := Ev.ReprErr.msg) (fun _ => rfl) fun _ _ => usizeSays_msg⟩

example : (∃ e, HO.Volume.parse c!"101" = .err e ∧ e.msg = c!"The volume was too high, expected to be in range 1 ~ 100") ∧
    (∃ e, Ev.Volume.parse c!"256" = .err e ∧ Ev.Volume.errMsg e = c!"number too large to fit in target type") ∧
    ∃ e, Ev.LayerLegacy.parse c!"6" = .err e ∧ e.msg = c!"Invalid repr value" :=
  ⟨(C90_limits.1 _ _).2 (by decide), (C90_limits.2.1 _ _).2 (by decide), (C90_limits.2.2.2 _ _).2 (by decide)⟩

/-- C90: a sample set of a hit object that is no number has a text of its own, and only its cause has the text of the number. -/
theorem C90_sample_set :
    Shows HO.SampleSet.parse HO.SampleSet.errMsg sampleSetSays ∧
    ∀ s m, (∃ e i, HO.SampleSet.parse s = .err e ∧ HO.SampleSet.errSource e = some i ∧ i.msg = m) ↔ usizeSays s = some m := by
  have h := C89_numbers.1
  constructor
  · intro s m
    unfold sampleSetSays
    rw [Option.map_eq_some_iff]
    constructor
    · rintro ⟨e, he, rfl⟩; exact ⟨_, says_err_iff h he, rfl⟩
    · rintro ⟨k, hk, rfl⟩
      obtain ⟨e, he, _⟩ := ((h s).1 k).2 hk
      exact ⟨e, he, rfl⟩
  · intro s m
    rw [← (h s).1 m]
    constructor
    · rintro ⟨e, i, he, hi, hm⟩; cases hi; exact ⟨e, he, hm⟩
    · rintro ⟨e, he, hm⟩; exact ⟨e, e, he, rfl, hm⟩

example : (∃ e, HO.SampleSet.parse c!"soft" = .err e ∧
      HO.SampleSet.errMsg e = c!"There was a problem parsing the `str` into an integer first") ∧
    ∃ e i, HO.SampleSet.parse c!"" = .err e ∧ HO.SampleSet.errSource e = some i ∧ i.msg = c!"cannot parse integer from empty string" :=
  ⟨(C90_sample_set.1 _ _).2 (by decide), (C90_sample_set.2 _ _).2 (by decide)⟩

/-- C90 is false if a text that is no number is expected to be described in the same way by the sample set of a hit object and by that
of a timing point. -/
theorem C90_false_same : ∃ e e', HO.SampleSet.parse c!"x" = .err e ∧ TP.SampleSet.parse c!"x" = .err e' ∧ e = e' ∧
    HO.SampleSet.errMsg e ≠ e'.msg := ⟨.invalidDigit, .invalidDigit, by rfl, by rfl, rfl, by decide⟩

/-- C90: no other value that is read on its own gives a cause: the error of the number inside is shown in its place. -/
theorem C90_no_cause (a : HO.VolumeErr) (b : Ev.ReprErr) (i : IntErr) : a.source = none ∧ b.source = none ∧ i.source = none := by
  refine ⟨?_, ?_, rfl⟩
  · cases a <;> rfl
  · cases b <;> rfl

example : ∃ e, HO.Volume.parse c!"x" = .err e ∧ e.source = none ∧ e.msg = IntErr.invalidDigit.msg :=
  ⟨.parseInt .invalidDigit, by rfl, (C90_no_cause _ .invalidRepr .empty).1, rfl⟩

theorem readable_iff {α : Type} {f : Str → Res IntErr α} {sy : Str → Option Str} (h : NumberErrors f sy) (s : Str) :
    readable f s = decide (sy s = none) := by
  rw [Bool.eq_iff_iff, decide_eq_true_iff, ← (h s).2]
  unfold readable
  cases f s <;> simp [Res.isOk]

/-- C90: the text of an edge set: an unreadable second number is said to be the first item. -/
theorem C90_edge_set : Shows HO.EdgeSet.parse HO.ColonSetErr.msg edgeSays := by
  intro s m
  simp only [C89_edge_set]
  unfold edgeFault edgeSays
  rw [readable_iff C89_numbers.1]
  cases hs : splitOnC ':' s with
  | nil => exact absurd hs (splitOnC_ne_nil _ _)
  | cons p qs =>
    obtain ⟨rfl, hp, hqs⟩ := splitOnC_iff.1 hs
    obtain ⟨h1, h2⟩ : (p ++ preC ':' qs).takeWhile (fun c => !(c == ':')) = p ∧
        (p ++ preC ':' qs).dropWhile (fun c => !(c == ':')) = preC ':' qs := by
      have hp' : ∀ a ∈ p, (!(a == ':')) = true := by
        intro a ha
        have := hp a ha
        simpa using this
      rw [List.takeWhile_append_of_pos hp', List.dropWhile_append_of_pos hp']
      cases qs with
      | nil => simp [preC]
      | cons q qs => rw [preC_cons]; simp
    rw [h1, h2]
    by_cases hn : usizeSays p = none
    · simp only [hn, decide_true, if_true, ne_eq, not_true_eq_false, if_false]
      cases qs with
      | nil =>
        simp only [preC_nil, if_true]
        simp [HO.ColonSetErr.msg]
      | cons q qs =>
        rw [preC_cons]
        have hd : (p ++ ':' :: (q ++ preC ':' qs)).drop (p.length + 1) = q ++ preC ':' qs := by
          rw [← List.drop_drop, List.drop_left]; rfl
        rw [hd]
        simp only [reduceCtorEq, if_false]
        rw [readable_iff C89_numbers.1]
        by_cases hq : usizeSays (q ++ preC ':' qs) = none
        · simp [hq]
        · simp [hq, HO.ColonSetErr.msg]
    · simp [hn, HO.ColonSetErr.msg]

example : (∃ e, HO.EdgeSet.parse c!"0:x" = .err e ∧ e.msg = c!"Failed to parse the first item") ∧
    (∃ e, HO.EdgeSet.parse c!"12" = .err e ∧ e.msg = c!"The colon separator is missing") :=
  ⟨(C90_edge_set _ _).2 (by decide), (C90_edge_set _ _).2 (by decide)⟩

/-- C90: the text of a curve point. -/
theorem C90_curve_point {D : Type} [DecLib D] :
    Shows (HO.CurvePoint.parse : Str → Res _ (HO.CurvePoint D)) HO.ColonSetErr.msg curvePointSays := by
  intro s m
  simp only [C89_curve_point]
  unfold curvePointSays
  split
  · rename_i h; simp [h]
  · rename_i h
    constructor
    · rintro ⟨e, ⟨_, rfl⟩, rfl⟩; rfl
    · intro hm; cases hm; exact ⟨_, ⟨h, rfl⟩, rfl⟩

example : ∃ e, (HO.CurvePoint.parse c!"12;3" : Res _ (HO.CurvePoint Dec96)) = .err e ∧ e.msg = c!"The colon separator is missing" :=
  (C90_curve_point _ _).2 (by decide)

theorem firstBad_map {E F : Type} (g : E → F) : ∀ (cs : List (E × (Str → Bool))) (ps : List Str),
    firstBad (cs.map fun c => (g c.1, c.2)) ps = (firstBad cs ps).map g
  | [], ps => by cases ps <;> rfl
  | (e, ok) :: cs, [] => rfl
  | (e, ok) :: cs, p :: ps => by
    simp only [List.map_cons, firstBad]
    split
    · exact firstBad_map g cs ps
    · rfl

/-- C90: the text of a hit sample. -/
theorem C90_hit_sample : Shows HO.HitSample.parse HO.HitSampleErr.msg sampleSays := by
  intro s m
  simp only [C89_hit_sample]
  have h1 : readable HO.SampleSet.parse = fun t => decide (usizeSays t = none) := funext (readable_iff C89_numbers.1)
  have h2 : readable HO.SampleIndex.parse = fun t => decide (usizeSays t = none) := funext (readable_iff C89_numbers.2.1)
  have h3 : readable HO.Volume.parse = fun t => decide (unsignedSays 255 t = none ∧ numVal t ≤ 100) := by
    funext t
    rw [Bool.eq_iff_iff, decide_eq_true_iff, ← (C89_volume.1 t).2]
    unfold readable
    cases HO.Volume.parse t <;> simp [Res.isOk]
  have key : sampleSays s = (sampleFault s).map HO.HitSampleErr.msg := by
    unfold sampleSays sampleFault
    rw [h1, h2, h3, ← firstBad_map]
    rfl
  rw [key, Option.map_eq_some_iff]

example : (∃ e, HO.HitSample.parse c!"0:0:0:101:" = .err e ∧ e.msg = c!"Invalid `volume` value") ∧
    ∃ e, HO.HitSample.parse c!"" = .ok e := ⟨(C90_hit_sample _ _).2 (by decide), _, rfl⟩

/-- C90: the text of a trigger type. -/
theorem C90_trigger [UniLib] (s m : Str) :
    (∃ e, SB.TriggerType.parse s = .err e ∧ e.msg = m) ↔
      (m = c!"Unknown trigger type" ∧ trim s ≠ c!"Passing" ∧ trim s ≠ c!"Failing" ∧ ¬ c!"HitSound" <+: trim s) ∨
      (∃ r ws, trim s = c!"HitSound" ++ r ∧ WordsOf r ws ∧
        ((m = c!"There are too many `HitSound` fields" ∧ 4 < ws.length) ∨
        (m = c!"Unknown `HitSound` type" ∧ ws.length ≤ 4 ∧ (∀ h, ¬ HitSoundWords ws h) ∧
          ∀ us w more h, ws = us ++ w :: more → HitSoundWords us h → h.customSampleSet = none))) := by
  simp only [C89_trigger]
  constructor
  · rintro ⟨e, ⟨rfl, h⟩ | ⟨r, ws, h1, h2, ⟨rfl, h⟩ | ⟨rfl, h⟩⟩, rfl⟩
    · exact .inl ⟨rfl, h⟩
    · exact .inr ⟨r, ws, h1, h2, .inl ⟨rfl, h⟩⟩
    · exact .inr ⟨r, ws, h1, h2, .inr ⟨rfl, h⟩⟩
  · rintro (⟨rfl, h⟩ | ⟨r, ws, h1, h2, ⟨rfl, h⟩ | ⟨rfl, h⟩⟩)
    · exact ⟨_, .inl ⟨rfl, h⟩, rfl⟩
    · exact ⟨_, .inr ⟨r, ws, h1, h2, .inl ⟨rfl, h⟩⟩, rfl⟩
    · exact ⟨_, .inr ⟨r, ws, h1, h2, .inr ⟨rfl, h⟩⟩, rfl⟩

section
attribute [local instance] asciiUni
example : ∃ e, SB.TriggerType.parse c!"passing" = .err e ∧ e.msg = c!"Unknown trigger type" :=
  ⟨.unknownTriggerType, by rfl, by rfl⟩
end

theorem name_says {α : Type} [DecidableEq α] {names : List (α × Str)} {unknown s m : Str} :
    nameSays names unknown s = some m ↔ (∀ a, (a, s) ∉ names) ∧ m = unknown := by
  unfold nameSays
  have : s ∈ names.map (·.2) ↔ ∃ a, (a, s) ∈ names := by
    simp
  split
  · rename_i h
    obtain ⟨a, ha⟩ := this.1 h
    constructor
    · intro h; cases h
    · intro h; exact absurd ha (h.1 a)
  · rename_i h
    constructor
    · intro h'; cases h'; exact ⟨fun a ha => h (this.2 ⟨a, ha⟩), rfl⟩
    · rintro ⟨_, rfl⟩; rfl

/-- C90: a text that is none of the names is refused with a text naming the kind of the value. -/
theorem C90_names :
    Shows HO.CurveType.parse HO.CurveType.errMsg (nameSays curveLetters c!"Unknown `CurveType` variant") ∧
    Shows SB.Parameter.parse SB.Parameter.errMsg (nameSays parameterLetters c!"Unknown `Parameter` variant") ∧
    Shows SB.Layer.parse SB.Layer.errMsg (nameSays layerNames c!"Unknown `Layer` variant") ∧
    Shows SB.LoopType.parse SB.LoopType.errMsg (nameSays loopNames c!"Unknown `LoopType` variant") ∧
    SB.SampleSet.parseMsg = nameSays triggerSets c!"Unknown `SampleSet` variant" ∧
    SB.Addition.parseMsg = nameSays triggerAdditions c!"Unknown `Addition` variant" := by
  have key : ∀ {α : Type} [DecidableEq α] {names : List (α × Str)} {f : Str → Res Unit α} {msg : Unit → Str} {u : Str},
      (∀ s, f s = .err () ↔ ∀ a, (a, s) ∉ names) → msg () = u → Shows f msg (nameSays names u) := by
    intro α _ names f msg u h hu s m
    rw [name_says, ← h]
    constructor
    · rintro ⟨⟨⟩, h, rfl⟩; exact ⟨h, hu⟩
    · rintro ⟨h, rfl⟩; exact ⟨(), h, hu⟩
  refine ⟨key (fun s => (C89_names s).1) rfl, key (fun s => (C89_names s).2.1) rfl, key (fun s => (C89_names s).2.2.1) rfl,
    key (fun s => (C89_names s).2.2.2) rfl, ?_, ?_⟩
  · funext s
    unfold SB.SampleSet.parseMsg
    cases h : SB.SampleSet.parse s with
    | some a =>
      have := (C80_trigger_words s a .clap).1.1 h
      cases hn : nameSays triggerSets c!"Unknown `SampleSet` variant" s with
      | none => rfl
      | some m => exact absurd this ((name_says.1 hn).1 a)
    | none =>
      refine (name_says.2 ⟨fun a ha => ?_, rfl⟩).symm
      rw [← (C80_trigger_words s a .clap).1, h] at ha; cases ha
  · funext s
    unfold SB.Addition.parseMsg
    cases h : SB.Addition.parse s with
    | some a =>
      have := (C80_trigger_words s .all a).2.2.1.1 h
      cases hn : nameSays triggerAdditions c!"Unknown `Addition` variant" s with
      | none => rfl
      | some m => exact absurd this ((name_says.1 hn).1 a)
    | none =>
      refine (name_says.2 ⟨fun a ha => ?_, rfl⟩).symm
      rw [← (C80_trigger_words s .all a).2.2.1, h] at ha; cases ha

example : (∃ e, SB.Layer.parse c!"background" = .err e ∧ SB.Layer.errMsg e = c!"Unknown `Layer` variant") ∧
    SB.Addition.parseMsg c!"Drum" = some c!"Unknown `Addition` variant" ∧ SB.Addition.parseMsg c!"Clap" = none :=
  ⟨(C90_names.2.2.1 _ _).2 (by decide), by rw [C90_names.2.2.2.2.2]; decide, by rw [C90_names.2.2.2.2.2]; decide⟩

/-! ### Setters and constructors -/

theorem u8_le {n : UInt8} {k : UInt8} : n > k ↔ k.toNat < n.toNat := Iff.rfl

/-- C90: what is refused by the setters of single numbers, and with which text: combo skips above 7, volumes of hit samples that are 0 or
above 100, volumes of audio samples above 100, numbers that are not those of an origin. -/
theorem C90_setters (n : UInt8) (i : Int32) (m : Str) :
    (HO.ComboSkipCount.newMsg n = some m ↔ 7 < n.toNat ∧ m = c!"Expected combo skip count to be 3 bits") ∧
    (Ev.Volume.newMsg n = some m ↔ 100 < n.toNat ∧ m = c!"The volume was too high, expected the range 1 ~ 100") ∧
    ((∃ e, HO.Volume.setVolumeErr n = some e ∧ e.msg = m) ↔
      (n.toNat = 0 ∧ m = c!"The volume was attempted to set to 0, expected to be in range 1 ~ 100") ∨
      (100 < n.toNat ∧ m = c!"The volume was too high, expected to be in range 1 ~ 100")) ∧
    ((∃ e, HO.Volume.new (some n) = .err e ∧ e.msg = m) ↔
      (n.toNat = 0 ∧ m = c!"The volume was attempted to set to 0, expected to be in range 1 ~ 100") ∨
      (100 < n.toNat ∧ m = c!"The volume was too high, expected to be in range 1 ~ 100")) ∧
    (SB.OriginType.ofIntMsg i = some m ↔ (i.toInt < 0 ∨ 9 < i.toInt) ∧ m = c!"Unknown `Origin` variant") := by
  have h0 : n = 0 ↔ n.toNat = 0 := by rw [← UInt8.toNat_inj]; rfl
  refine ⟨?_, ?_, ?_, ?_, ?_⟩
  · unfold HO.ComboSkipCount.newMsg HO.ComboSkipCount.new
    by_cases h : n > 7
    · have h' : 7 < n.toNat := h
      simp [h, h', HO.comboSkipMsg, eq_comm]
    · have h' : ¬ 7 < n.toNat := h
      simp [h, h']
  · unfold Ev.Volume.newMsg Ev.Volume.new
    by_cases h : n > 100
    · have h' : 100 < n.toNat := h
      simp [h, h', Ev.volumeSetMsg, eq_comm]
    · have h' : ¬ 100 < n.toNat := h
      simp [h, h']
  · unfold HO.Volume.setVolumeErr
    simp only [h0]
    by_cases hz : n.toNat = 0
    · simp [hz, HO.VolumeErr.msg, eq_comm]
    · by_cases h : n > 100
      · have h' : 100 < n.toNat := h
        simp [hz, h, h', HO.VolumeErr.msg, eq_comm]
      · have h' : ¬ 100 < n.toNat := h
        simp [hz, h, h']
  · unfold HO.Volume.new
    simp only [h0]
    by_cases hz : n.toNat = 0
    · simp [hz, HO.VolumeErr.msg, eq_comm]
    · by_cases h : n > 100
      · have h' : 100 < n.toNat := h
        simp [hz, h, h', HO.VolumeErr.msg, eq_comm]
      · have h' : ¬ 100 < n.toNat := h
        simp [hz, h, h']
  · have hi : SB.OriginType.ofInt i = none ↔ i.toInt < 0 ∨ 9 < i.toInt := by
      have hi : ∀ k : Int32, i = k ↔ i.toInt = k.toInt := fun k => by rw [Int32.toInt_inj]
      unfold SB.OriginType.ofInt
      simp only [hi, Int32.reduceToInt]
      repeat' split
      all_goals simp
      all_goals omega
    unfold SB.OriginType.ofIntMsg
    cases h : SB.OriginType.ofInt i with
    | none => simp [hi.1 h, SB.OriginType.errMsg, eq_comm]
    | some a =>
      have : ¬ (i.toInt < 0 ∨ 9 < i.toInt) := fun hx => by rw [hi.2 hx] at h; cases h
      simp [this]

example : HO.ComboSkipCount.newMsg 8 = some c!"Expected combo skip count to be 3 bits" ∧
    (∃ e, HO.Volume.setVolumeErr 0 = some e ∧ e.msg = c!"The volume was attempted to set to 0, expected to be in range 1 ~ 100") ∧
    SB.OriginType.ofIntMsg (-1) = some c!"Unknown `Origin` variant" :=
  ⟨(C90_setters 8 0 _).1.2 ⟨by decide, rfl⟩, (C90_setters 0 0 _).2.2.1.2 (.inl ⟨by decide, rfl⟩),
    (C90_setters 0 (-1) _).2.2.2.2.2 ⟨by decide, rfl⟩⟩

/-- C90: setting a volume has an error exactly if it does not set it. -/
theorem C90_set_volume (x : HO.Volume) (n : UInt8) :
    (HO.Volume.setVolumeErr n = none ↔ (x.setVolume n).2 = true) ∧ (HO.Volume.setVolumeErr n ≠ none → (x.setVolume n).1 = x) := by
  unfold HO.Volume.setVolumeErr HO.Volume.setVolume
  repeat' split
  all_goals simp

example : (⟨some 5⟩ : HO.Volume).setVolume 101 = (⟨some 5⟩, false) ∧ HO.Volume.setVolumeErr 101 = some .tooHigh := by decide

/-- C90 is false if the text of an error is expected to tell the range: the volume of an audio sample is said to be in 1 ~ 100, but 0 is
set and read without an error. -/
theorem C90_false_range : Ev.volumeSetMsg = c!"The volume was too high, expected the range 1 ~ 100" ∧ Ev.Volume.newMsg 0 = none ∧
    Ev.Volume.parse c!"0" = .ok ⟨0⟩ := ⟨rfl, by decide, by rfl⟩

/-- C90: a sprite is refused exactly if its path starts with a slash. -/
theorem C90_file_path (p : FilePath) (m : Str) : SB.Sprite.newMsg p = some m ↔
    p.head? = some '/' ∧
    m = c!"The filepath needs to be a path relative to where the .osu file is, not a full path such as `C:\\folder\\image.png`" := by
  unfold SB.Sprite.newMsg SB.Sprite.new
  cases p with
  | nil => simp [startsWith]
  | cons c p =>
    by_cases h : c = '/'
    · subst h; simp [startsWith, SB.filePathMsg, eq_comm]
    · simp [startsWith, h, Ne.symm h]

example : SB.Sprite.newMsg c!"/sb/a.png" = some SB.filePathMsg := (C90_file_path _ _).2 ⟨by decide, rfl⟩

/-- C90 is false if the path given as the example of a refused one is expected to be refused (where paths are those of Unix). -/
theorem C90_false_path : SB.Sprite.newMsg c!"C:\\folder\\image.png" = none := by decide

/-- C90: replacing an entry of a list of pairs: the second field is said to be missing if it is and the entry is not the last, whether
there is such an entry or not; only a complete entry is said to be out of bounds. -/
theorem C90_set_pair {α : Type} (c : SB.ContinuingFields α) (i : Nat) (f : α × Option α) (m : Str) (hne : c.continuing ≠ []) :
    (∃ e, c.set i f = .err e ∧ e.msg = m) ↔
      (f.2 = none ∧ i + 1 ≠ c.continuing.length ∧
        m = c!"continuing fields 2nd field is none without it being the last item in the continuing fields") ∨
      (f.2 ≠ none ∧ c.continuing.length ≤ i ∧ m = c!"continuing fields index out of bounds") := by
  have hl : c.continuing.length ≠ 0 := by simpa using hne
  have h1 : i ≠ c.continuing.length - 1 ↔ i + 1 ≠ c.continuing.length := by omega
  unfold SB.ContinuingFields.set
  rw [if_neg hl]
  simp only [h1, Option.isNone_iff_eq_none]
  by_cases hn : f.2 = none
  · by_cases hi : i + 1 = c.continuing.length
    · have : i < c.continuing.length := by omega
      simp [hn, hi, this]
    · simp [hn, hi, SB.ContErr.msg, eq_comm]
  · by_cases hi : i < c.continuing.length
    · have : ¬ c.continuing.length ≤ i := by omega
      simp [hn, hi, this]
    · have : c.continuing.length ≤ i := by omega
      simp [hn, hi, this, SB.ContErr.msg, eq_comm]

example : ∃ e, (SB.ContinuingFields.set ⟨(1, 1), [(2, some 3)]⟩ 7 (5, some 6) : Res _ (SB.ContinuingFields Nat)) = .err e ∧
    e.msg = c!"continuing fields index out of bounds" :=
  (C90_set_pair _ _ _ _ (by simp)).2 (.inr ⟨by simp, by decide, rfl⟩)

/-- C90 is false if an index that is not there is expected to be reported as such: without its second field, the entry is said to come
before the last one. -/
theorem C90_false_index : ∃ e, (SB.ContinuingFields.set ⟨(1, 1), [(2, some 3)]⟩ 7 (5, none) : Res _ (SB.ContinuingFields Nat)) = .err e ∧
    e.msg = c!"continuing fields 2nd field is none without it being the last item in the continuing fields" :=
  (C90_set_pair _ _ _ _ (by simp)).2 (.inl ⟨rfl, by decide, rfl⟩)

/-- C90: replacing a colour. -/
theorem C90_set_colour (c : SB.Colours) (i : Nat) (r : UInt8) (g b : Option UInt8) (m : Str) (hne : c.continuing ≠ []) :
    (∃ e, c.set i (r, g, b) = .err e ∧ e.msg = m) ↔
      (g = none ∧ i + 1 ≠ c.continuing.length ∧
        m = c!"continuing fields green field is none without it being the last item in the continuing fields") ∨
      (((g ≠ none ∧ b = none ∧ i + 1 ≠ c.continuing.length) ∨ (g = none ∧ b ≠ none ∧ i + 1 = c.continuing.length)) ∧
        m = c!"continuing fields blue field is none without it being the last item in the continuing fields") ∨
      (g ≠ none ∧ b ≠ none ∧ c.continuing.length ≤ i ∧ m = c!"continuing fields index out of bounds") := by
  have hl : c.continuing.length ≠ 0 := by simpa using hne
  have h1 : (i == c.continuing.length - 1) = decide (i + 1 = c.continuing.length) := by
    rw [Bool.eq_iff_iff, beq_iff_eq, decide_eq_true_iff]; omega
  unfold SB.Colours.set
  rw [if_neg hl]
  simp only [h1]
  by_cases hi : i + 1 = c.continuing.length
  · have h2 : i < c.continuing.length := by omega
    have h3 : ¬ c.continuing.length ≤ i := by omega
    cases g <;> cases b <;> simp [hi, h2, h3, SB.ColourErr.msg, eq_comm]
  · by_cases h2 : i < c.continuing.length
    · have h3 : ¬ c.continuing.length ≤ i := by omega
      cases g <;> cases b <;> simp [hi, h2, h3, SB.ColourErr.msg, eq_comm]
    · have h3 : c.continuing.length ≤ i := by omega
      cases g <;> cases b <;> simp [hi, h2, h3, SB.ColourErr.msg, eq_comm]

example : ∃ e, SB.Colours.set ⟨(0, 0, 0), [(1, some 2, some 3), (4, none, none)]⟩ 0 (9, none, none) = .err e ∧
    e.msg = c!"continuing fields green field is none without it being the last item in the continuing fields" :=
  (C90_set_colour _ _ _ _ _ _ (by simp)).2 (.inl ⟨rfl, by decide, rfl⟩)

/-- C90: making a list of pairs: the only error and its text. -/
theorem C90_new_pair {α : Type} (start : α × α) (l : List (α × Option α)) (m : Str) :
    (∃ e, SB.ContinuingFields.new start l = .err e ∧ e.msg = m) ↔ ¬ PairsComplete l ∧
      m = c!"continuing fields 2nd field is none without it being the last item in the continuing fields" := by
  by_cases h : PairsComplete l
  · rw [(C31_new start l).1 h]; simp [h]
  · rw [(C31_new start l).2 h]
    constructor
    · rintro ⟨e, he, rfl⟩; cases he; exact ⟨h, rfl⟩
    · rintro ⟨_, rfl⟩; exact ⟨_, rfl, rfl⟩

example : ∃ e, SB.ContinuingFields.new (0, 0) [((1 : Nat), none), (3, none)] = .err e ∧
    e.msg = c!"continuing fields 2nd field is none without it being the last item in the continuing fields" :=
  (C90_new_pair _ _ _).2 ⟨fun h => h (1, none) (by simp) rfl, rfl⟩

theorem colour_bad {l : List (UInt8 × Option UInt8 × Option UInt8)} {e : SB.ColourErr} : SB.Colours.badNew l = some e ↔
    ∃ pre r g b rest, l = pre ++ (r, g, b) :: rest ∧ (∀ p ∈ pre, p.2.1 ≠ none ∧ p.2.2 ≠ none) ∧
      ((g = none ∧ rest ≠ [] ∧ e = .green) ∨
      (((g ≠ none ∧ b = none ∧ rest ≠ []) ∨ (g = none ∧ b ≠ none ∧ rest = [])) ∧ e = .blue)) := by
  induction l with
  | nil => simp [SB.Colours.badNew]
  | cons x l ih =>
    obtain ⟨r, g, b⟩ := x
    have hcons : ∀ {P : List (UInt8 × Option UInt8 × Option UInt8) → UInt8 → Option UInt8 → Option UInt8 →
        List (UInt8 × Option UInt8 × Option UInt8) → Prop},
        (∃ pre r' g' b' rest, (r, g, b) :: l = pre ++ (r', g', b') :: rest ∧ P pre r' g' b' rest) ↔
        P [] r g b l ∨ ∃ pre r' g' b' rest, l = pre ++ (r', g', b') :: rest ∧ P ((r, g, b) :: pre) r' g' b' rest := by
      intro P
      constructor
      · rintro ⟨pre, r', g', b', rest, h, hP⟩
        cases pre with
        | nil => cases h; exact .inl hP
        | cons y pre =>
          rw [List.cons_append, List.cons.injEq] at h
          obtain ⟨rfl, h⟩ := h
          exact .inr ⟨pre, r', g', b', rest, h, hP⟩
      · rintro (hP | ⟨pre, r', g', b', rest, rfl, hP⟩)
        · exact ⟨[], r, g, b, l, rfl, hP⟩
        · exact ⟨_, r', g', b', rest, rfl, hP⟩
    rw [hcons]
    unfold SB.Colours.badNew
    cases g with
    | none =>
      by_cases hl : l = []
      · subst hl
        cases b with
        | none => simp [SB.Colours.badNew]
        | some b => simp; exact eq_comm
      · simp [hl]; exact eq_comm
    | some g =>
      cases b with
      | none =>
        by_cases hl : l = []
        · subst hl; simp [SB.Colours.badNew]
        · simp [hl]; exact eq_comm
      | some b =>
        simp only [Option.isNone_some, Bool.false_eq_true, and_false, if_false, false_and]
        rw [ih]
        simp

/-- C90: making a list of colours: the text is that of the first entry that is not as it should be. -/
theorem C90_new_colour (start : UInt8 × UInt8 × UInt8) (l : List (UInt8 × Option UInt8 × Option UInt8)) (m : Str) :
    (∃ e, SB.Colours.new start l = .err e ∧ e.msg = m) ↔
      ∃ pre r g b rest, l = pre ++ (r, g, b) :: rest ∧ (∀ p ∈ pre, p.2.1 ≠ none ∧ p.2.2 ≠ none) ∧
        ((g = none ∧ rest ≠ [] ∧
          m = c!"continuing fields green field is none without it being the last item in the continuing fields") ∨
        (((g ≠ none ∧ b = none ∧ rest ≠ []) ∨ (g = none ∧ b ≠ none ∧ rest = [])) ∧
          m = c!"continuing fields blue field is none without it being the last item in the continuing fields")) := by
  have key : ∀ e, SB.Colours.new start l = .err e ↔ SB.Colours.badNew l = some e := by
    intro e
    unfold SB.Colours.new
    cases SB.Colours.badNew l <;> simp
  simp only [key, colour_bad]
  constructor
  · rintro ⟨e, ⟨pre, r, g, b, rest, h1, h2, ⟨h3, h4, rfl⟩ | ⟨h3, rfl⟩⟩, rfl⟩
    · exact ⟨pre, r, g, b, rest, h1, h2, .inl ⟨h3, h4, rfl⟩⟩
    · exact ⟨pre, r, g, b, rest, h1, h2, .inr ⟨h3, rfl⟩⟩
  · rintro ⟨pre, r, g, b, rest, h1, h2, ⟨h3, h4, rfl⟩ | ⟨h3, rfl⟩⟩
    · exact ⟨.green, ⟨pre, r, g, b, rest, h1, h2, .inl ⟨h3, h4, rfl⟩⟩, rfl⟩
    · exact ⟨.blue, ⟨pre, r, g, b, rest, h1, h2, .inr ⟨h3, rfl⟩⟩, rfl⟩

example : ∃ e, SB.Colours.new (0, 0, 0) [(1, some 2, some 3), (4, some 5, none), (6, none, none)] = .err e ∧
    e.msg = c!"continuing fields blue field is none without it being the last item in the continuing fields" :=
  (C90_new_colour _ _ _).2 ⟨[(1, some 2, some 3)], 4, some 5, none, [(6, none, none)], rfl, by simp, .inr ⟨.inl ⟨by simp, rfl, by simp⟩, rfl⟩⟩

/-- C90 is false if the text about the blue field is expected to be true: an only entry that has blue but no green is refused with the text
that its blue field is none and that it is not the last. -/
theorem C90_false_blue : ∃ e, SB.Colours.new (0, 0, 0) [(1, none, some 2)] = .err e ∧
    e.msg = c!"continuing fields blue field is none without it being the last item in the continuing fields" :=
  (C90_new_colour _ _ _).2 ⟨[], 1, none, some 2, [], rfl, by simp, .inr ⟨.inr ⟨rfl, by simp, rfl⟩, rfl⟩⟩

/-! ### The text determines the error -/

/-- C90: two errors of the same kind with the same text are the same error. -/
theorem C90_distinct :
    (∀ a b : HO.ColonSetErr, a.msg = b.msg → a = b) ∧ (∀ a b : HO.HitSampleErr, a.msg = b.msg → a = b) ∧
    (∀ a b : HO.VolumeErr, a.msg = b.msg → a = b) ∧ (∀ a b : Ev.ReprErr, a.msg = b.msg → a = b) ∧
    (∀ a b : Ev.ReprErr, Ev.Volume.errMsg a = Ev.Volume.errMsg b → a = b) ∧ (∀ a b : SB.TriggerErr, a.msg = b.msg → a = b) ∧
    (∀ a b : SB.ContErr, a.msg = b.msg → a = b) ∧ (∀ a b : SB.ColourErr, a.msg = b.msg → a = b) := by
  refine ⟨?_, ?_, ?_, ?_, ?_, ?_, ?_, ?_⟩
  all_goals
    intro a b
    cases a <;> cases b <;> try (rename_i i j; cases i <;> cases j)
  all_goals first
    | decide
    | (rename_i i; cases i <;> decide)

example : HO.VolumeErr.tooHigh.msg ≠ HO.VolumeErr.tooLow.msg := fun h => by cases C90_distinct.2.2.1 _ _ h

end Osu
