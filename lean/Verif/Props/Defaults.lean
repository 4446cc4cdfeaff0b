/-
C64: default values; C65: sliders made by the constructor.
-/
import Verif.Model.Defaults
import Verif.Props.FileText
import Verif.Props.TimingPointApi

namespace Osu
open HO

section
variable {D : Type} [DecLib D]

/-! ## C64 -/

/-- A field of `General` has a default exactly in the versions in which the field is written. -/
theorem C64_general_gate (d07 : D) (k : GKey) (v : Nat) {o : Option (k.Val D)} (h : k.default d07 v = some o) :
    o.isSome = true ↔ ∃ x : k.Val D, (k.shw v x).isSome = true := by
  cases k <;> simp only [GKey.default, Option.some.injEq, reduceCtorEq] at h <;> subst h
  case audioHash =>
    by_cases hv : v > 13
    · simp [GKey.shw, hv]
    · simp only [GKey.shw, hv, if_false]; exact ⟨fun _ => ⟨[], rfl⟩, fun _ => rfl⟩
  case countdown =>
    by_cases hv : 3 ≤ v ∧ v ≤ 4
    · simp [GKey.shw, Countdown.shw, hv]
    · simp only [GKey.shw, Countdown.shw, hv, if_false]; exact ⟨fun _ => ⟨.normal, rfl⟩, fun _ => rfl⟩
  case sampleSet =>
    by_cases hv : v = 3
    · simp [GKey.shw, GSampleSet.shw, hv]
    · simp only [GKey.shw, GSampleSet.shw, hv, if_false]; exact ⟨fun _ => ⟨.normal, rfl⟩, fun _ => rfl⟩
  case overlayPosition =>
    by_cases hv : 3 ≤ v ∧ v ≤ 13
    · simp [GKey.shw, OverlayPosition.shw, hv]
    · simp only [GKey.shw, OverlayPosition.shw, hv, if_false]; exact ⟨fun _ => ⟨.noChange, rfl⟩, fun _ => rfl⟩
  case stackLeniency => exact ⟨fun _ => ⟨.left d07, rfl⟩, fun _ => rfl⟩
  case mode => exact ⟨fun _ => ⟨.osu, rfl⟩, fun _ => rfl⟩
  case audioFilename => exact ⟨fun _ => ⟨[], rfl⟩, fun _ => rfl⟩
  case skinPreference => exact ⟨fun _ => ⟨[], rfl⟩, fun _ => rfl⟩
  case audioLeadIn => exact ⟨fun _ => ⟨(0 : Int32), rfl⟩, fun _ => rfl⟩
  case previewTime => exact ⟨fun _ => ⟨(0 : Int32), rfl⟩, fun _ => rfl⟩
  case countdownOffset => exact ⟨fun _ => ⟨(0 : Int32), rfl⟩, fun _ => rfl⟩
  all_goals exact ⟨fun _ => ⟨false, rfl⟩, fun _ => rfl⟩

theorem GKey.default_ok {d07 : D} (h7 : DecLib.parse c!"0.7" = some d07) {k : GKey} {v : Nat} {x : k.Val D}
    (h : k.default d07 v = some (some x)) : k.OK x ∧ k.existsIn v x = true := by
  have hnil : TextOK [] := by decide
  cases k <;> simp only [GKey.default, Option.some.injEq, reduceCtorEq] at h
  case audioHash =>
    split at h
    · cases h
    · cases h; exact ⟨hnil, by simp [GKey.existsIn]; omega⟩
  case countdown =>
    split at h
    · cases h
    · rename_i hv; exact ⟨trivial, by simp [GKey.existsIn]; omega⟩
  case sampleSet =>
    split at h
    · cases h
    · rename_i hv; exact ⟨trivial, by simp [GKey.existsIn]; omega⟩
  case overlayPosition =>
    split at h
    · cases h
    · rename_i hv; exact ⟨trivial, by simp [GKey.existsIn]; omega⟩
  case stackLeniency => subst h; exact ⟨DecLib.parse_canon h7, rfl⟩
  all_goals subst h; first | exact ⟨trivial, rfl⟩ | exact ⟨hnil, rfl⟩

/-- A `General` section whose fields have their defaults (any of them may be absent) is written and read back
unchanged, in every version. -/
theorem C64_general {d07 : D} (h7 : DecLib.parse c!"0.7" = some d07) (v : Nat) (sec : (General D).Section)
    (h : ∀ k x, sec k = some x → GKey.default d07 k v = some (some x)) :
    (General D).fromStr v ((General D).toStr v sec) = .ok sec :=
  C04_general_exact v sec (fun k x hx => (GKey.default_ok h7 (h k x hx)).1) fun k x hx => (GKey.default_ok h7 (h k x hx)).2

/-- The documented defaults, as text. -/
def GKey.defaultText : GKey → Str
  | audioFilename => c!"" | audioLeadIn => c!"0" | audioHash => c!"" | previewTime => c!"-1" | countdown => c!"1"
  | sampleSet => c!"Normal" | stackLeniency => c!"0.7" | mode => c!"0" | letterboxInBreaks => c!"0"
  | storyFireInFront => c!"1" | useSkinSprites => c!"0" | alwaysShowPlayfield => c!"0" | overlayPosition => c!"NoChange"
  | skinPreference => c!"" | epilepsyWarning => c!"0" | countdownOffset => c!"0" | specialStyle => c!"0"
  | widescreenStoryboard => c!"0" | samplesMatchPlaybackRate => c!"0" | editorBookmarks => c!"" | editorDistanceSpacing => c!""

/-- The text of a default does not depend on the version. -/
theorem C64_texts {d07 : D} (h7 : DecLib.shw d07 = c!"0.7") {k : GKey} {v : Nat} {x : k.Val D}
    (h : k.default d07 v = some (some x)) : k.shw v x = some k.defaultText := by
  cases k <;> simp only [GKey.default, Option.some.injEq, reduceCtorEq] at h
  case audioHash =>
    split at h
    · cases h
    · rename_i hv; cases h; simp [GKey.shw, hv, GKey.defaultText]
  case countdown =>
    split at h
    · cases h
    · rename_i hv; cases h; simp only [GKey.shw, Countdown.shw, hv, if_false]; rfl
  case sampleSet =>
    split at h
    · cases h
    · rename_i hv; cases h; simp only [GKey.shw, GSampleSet.shw, hv, if_false]; rfl
  case overlayPosition =>
    split at h
    · cases h
    · rename_i hv; cases h; simp only [GKey.shw, OverlayPosition.shw, hv, if_false]; rfl
  case stackLeniency => subst h; simp [GKey.shw, Decimal.toStr, h7, GKey.defaultText]
  all_goals subst h; first | rfl | (simp only [GKey.shw, Mode.shw, GKey.defaultText]; decide)

/-- The default of `Tags` is not read back: as a field of a file it becomes one empty tag. -/
theorem C64_false_tags (v : Nat) :
    ∃ sec, Metadata.fromStr v (Metadata.toStr v (Metadata.set Metadata.empty .tags (some tagsDefault))) = .ok sec ∧
      sec .tags = some ([[]] : List Str) ∧ tagsDefault ≠ [[]] := ⟨_, rfl, rfl, by decide⟩

/-! ### Hit objects -/

section
variable [DecArith D]
open DecArith

/-- The lines of the default hit objects. -/
theorem C64_object_texts {v : Nat} (hv : 5 ≤ v) :
    (HitObject.circleDefault : HitObject D).shw v = some c!"256,192,0,1,0" ∧
    (HitObject.spinnerDefault : HitObject D).shw v = some c!"256,192,0,8,0,0" ∧
    (HitObject.holdDefault : HitObject D).shw v = some c!"0,192,0,128,0,0:" := by
  have h1 : ¬ (3 ≤ v ∧ v ≤ 4) := by omega
  have h2 : v ≠ 3 := by omega
  have e0 : i32ToStr 0 = c!"0" := by decide
  have e1 : i32ToStr 256 = c!"256" := by decide
  have e2 : i32ToStr 192 = c!"192" := by decide
  have e3 : u8ToStr 1 = c!"1" := by decide
  have e4 : u8ToStr 8 = c!"8" := by decide
  have e5 : u8ToStr 128 = c!"128" := by decide
  have e6 : (⟨false, false, false, false⟩ : HitSound).shw = c!"0" := by decide
  refine ⟨?_, ?_, ?_⟩ <;>
    simp only [HitObject.shw, HitObject.typeByte, HitObject.circleDefault, HitObject.spinnerDefault, HitObject.holdDefault, Decimal.toStrShifted,
      Decimal.zero, Position.default, Decimal.toStr, shw_ofI32, h1, h2, if_false, Option.bind_some, Option.map_some, e0, e1, e2, e6, Bool.false_eq_true,
      UInt8.zero_shiftLeft, UInt8.or_zero, e3, e4, e5] <;> rfl

/-- The default circle and spinner come back unchanged, the default hold note with a hit sample. -/
theorem C64_objects_back {v : Nat} (hv : 5 ≤ v) :
    HitObject.parse v c!"256,192,0,1,0" = .ok (HitObject.circleDefault : HitObject D) ∧
    HitObject.parse v c!"256,192,0,8,0,0" = .ok (HitObject.spinnerDefault : HitObject D) ∧
    HitObject.parse v c!"0,192,0,128,0,0:" = .ok { (HitObject.holdDefault : HitObject D) with hitsample := some HitSample.default } := by
  have ht : TimeWritable v (Decimal.zero : Decimal D) := timeWritable_ofInt (by omega) 0
  have hd : ∀ n, DecWritable fieldChar (.left (ofI32 n) : Decimal D) := fun n => canon_ofI32 n
  have h3 : v ≠ 3 := by omega
  obtain ⟨t1, t2, t3⟩ := C64_object_texts (D := D) hv
  refine ⟨?_, ?_, ?_⟩
  · have hw : HOWritable v (HitObject.circleDefault : HitObject D) :=
      ⟨hd _, hd _, ht, Nat.zero_le 7, trivial, fun _ h e => by cases e⟩
    obtain ⟨s, h1, h2⟩ := C20_lossy hw
    rw [t1] at h1; cases h1
    rw [h2]; simp [hoBack, HitObject.circleDefault, h3]
  · have hw : HOWritable v (HitObject.spinnerDefault : HitObject D) :=
      ⟨hd _, hd _, ht, Nat.zero_le 7, ht, fun _ h e => by cases e⟩
    obtain ⟨s, h1, h2⟩ := C20_lossy hw
    rw [t2] at h1; cases h1
    rw [h2]; simp [hoBack, HitObject.spinnerDefault]
  · have hw : HOWritable v (HitObject.holdDefault : HitObject D) :=
      ⟨hd _, hd _, ht, Nat.zero_le 7, by unfold HitObject.holdDefault ParamsWritable TimeWritableC Decimal.zero; simp only; rw [if_neg (by omega)]; exact canon_ofI32 0, fun _ h e => by cases e⟩
    obtain ⟨s, h1, h2⟩ := C20_lossy hw
    rw [t3] at h1; cases h1
    rw [h2]; simp [hoBack, HitObject.holdDefault]

end

/-! ### Files -/

section
variable [UniLib]

/-- A new file is written and read back unchanged, for every version that can be read. -/
theorem C64_new_file {v : Nat} (h1 : 3 ≤ v) (h2 : v ≤ 14) :
    ∃ s, (OsuFile.new v : OsuFile D).shw = some s ∧ OsuFile.parse s = .ok (OsuFile.new v : OsuFile D) := by
  apply C41_round_trip
  refine ⟨⟨h1, h2⟩, rfl, ?_, ?_, ?_, ?_, ?_, ?_, ?_, ?_⟩ <;> intro x hx <;> cases hx

end

/-! ## C65 -/

/-- A slider made by the constructor comes back with flags that say which lists were written: they are the flags it was
made with exactly if nothing but the curve, the slides and the length is given. Everything else but the hit sample,
which depends on the version, comes back unchanged, and is written as the same text again. -/
theorem C65_slider_back {v : Nat} {o : HitObject D} (hw : HOWritable v o) {ct : CurveType} {ps : List (CurvePoint D)}
    {n : Int32} {len : Decimal D} {ss : List HitSound} {es : List EdgeSet}
    (hp : o.params = .slider (SlideParams.new ct ps n len ss es)) :
    ∃ s o' p', o.shw v = some s ∧ HitObject.parse v s = .ok o' ∧ o'.shw v = some s ∧
      o' = { o with params := .slider p', hitsample := o.hitsample.bind (sampleBack v) } ∧
      p' = { SlideParams.new ct ps n len ss es with edgeSoundsShort := p'.edgeSoundsShort, edgeSetsShort := p'.edgeSetsShort } ∧
      (p'.edgeSoundsShort = true ↔ ss = [] ∧ es = [] ∧ o.hitsample = none) ∧
      (p'.edgeSetsShort = true ↔ es = [] ∧ o.hitsample = none) := by
  obtain ⟨s, h1, h2⟩ := C20_lossy hw
  have h3 := C20_text_stable (v := v) (o := o) (by rw [hp]; intro e he; cases he)
  have h4 : ∃ a b, hoBack v o = { o with params := .slider ⟨ct, ps, n, len, ss, a, es, b⟩, hitsample := o.hitsample.bind (sampleBack v) } ∧
      (a = true ↔ ss = [] ∧ es = [] ∧ o.hitsample = none) ∧ (b = true ↔ es = [] ∧ o.hitsample = none) := by
    obtain ⟨x1, x2, x3, x4, x5, x6, x7⟩ := o
    simp only at hp
    subst hp
    refine ⟨_, _, rfl, ?_, ?_⟩ <;> simp [SlideParams.new]
  obtain ⟨a, b, e1, e2, e3⟩ := h4
  exact ⟨s, _, ⟨ct, ps, n, len, ss, a, es, b⟩, h1, h2, h3.trans h1, e1, rfl, e2, e3⟩

/-- So it is equal to what was written exactly if it has no edge sounds, edge sets and hit sample. -/
theorem C65_equal {v : Nat} {o : HitObject D} (hw : HOWritable v o) {ct : CurveType} {ps : List (CurvePoint D)}
    {n : Int32} {len : Decimal D} {ss : List HitSound} {es : List EdgeSet}
    (hp : o.params = .slider (SlideParams.new ct ps n len ss es)) :
    ∃ s, o.shw v = some s ∧ (HitObject.parse v s = .ok o ↔ ss = [] ∧ es = [] ∧ o.hitsample = none) := by
  obtain ⟨s, o', p', h1, h2, -, h4, h5, h6, h7⟩ := C65_slider_back hw hp
  refine ⟨s, h1, ?_⟩
  rw [h2, Res.ok.injEq]
  constructor
  · intro e
    rw [← h6]
    have := congrArg HitObject.params e
    rw [h4, hp] at this
    simp only [HOParams.slider.injEq] at this
    rw [this]; rfl
  · intro e
    have e1 := h6.2 e
    have e2 := h7.2 e.2
    rw [h4, h5, e1, e2, e.2.2]
    obtain ⟨a, b, c, d, f, g, h⟩ := o
    simp only at hp e
    simp [hp, SlideParams.new, e.2.2]

end
/-! ### Cases -/

section
local instance : UniLib := asciiUni

example : (DecLib.parse c!"0.7" : Option Dec96) = some ⟨false, 7, 1⟩ ∧ DecLib.shw (⟨false, 7, 1⟩ : Dec96) = c!"0.7" := by decide

example : GKey.default (⟨false, 7, 1⟩ : Dec96) .countdown 5 = some (some Countdown.normal) ∧
    GKey.default (⟨false, 7, 1⟩ : Dec96) .countdown 4 = some none ∧
    GKey.default (⟨false, 7, 1⟩ : Dec96) .editorBookmarks 4 = none := ⟨rfl, rfl, rfl⟩

set_option maxRecDepth 8000 in
/-- All defaults of version 14. -/
example : (General Dec96).toStr 14 (fun k => (GKey.default (⟨false, 7, 1⟩ : Dec96) k 14).bind id) =
    c!"AudioFilename: \nAudioLeadIn: 0\nPreviewTime: -1\nCountdown: 1\nSampleSet: Normal\nStackLeniency: 0.7\nMode: 0\nLetterboxInBreaks: 0\nStoryFireInFront: 1\nUseSkinSprites: 0\nAlwaysShowPlayfield: 0\nOverlayPosition: NoChange\nSkinPreference: \nEpilepsyWarning: 0\nCountdownOffset: 0\nSpecialStyle: 0\nWidescreenStoryboard: 0\nSamplesMatchPlaybackRate: 0" := by
  rfl

example : (HitObject.holdDefault : HitObject Dec96).shw 14 = some c!"0,192,0,128,0,0:" := by decide

/-- In version 4 the time is moved. -/
example : (HitObject.circleDefault : HitObject Dec96).shw 4 = some c!"256,192,-24,1,0" ∧
    HitObject.parse 4 c!"256,192,-24,1,0" = .ok (HitObject.circleDefault : HitObject Dec96) := by decide

example : (OsuFile.new 14 : OsuFile Dec96).shw = some c!"osu file format v14\n\n" := by decide

/-- A file made of the default (empty) list of hit objects panics when it is read again, in every version. -/
theorem C64_false_empty_list {v : Nat} (h1 : 3 ≤ v) (h2 : v ≤ 14) :
    ∃ s, ({ OsuFile.new v with hitobjects := HitObjects.default v } : OsuFile Dec96).shw = some s ∧
      (OsuFile.parse s : Res _ (OsuFile Dec96)) = .panic := by
  have : v = 3 ∨ v = 4 ∨ v = 5 ∨ v = 6 ∨ v = 7 ∨ v = 8 ∨ v = 9 ∨ v = 10 ∨ v = 11 ∨ v = 12 ∨ v = 13 ∨ v = 14 := by omega
  refine ⟨c!"osu file format v" ++ natToStr v ++ c!"\n\n[HitObjects]\n", ?_, Res.of_isPanic ?_⟩ <;>
    rcases this with h | h | h | h | h | h | h | h | h | h | h | h <;> subst h <;> decide

/-- A slider with one edge sound, made by the constructor: the private flags differ after reading. -/
def builtSlider : HitObject Dec96 :=
  ⟨⟨.left ⟨false, 1, 0⟩, .left ⟨false, 2, 0⟩⟩, .left ⟨false, 3, 0⟩,
    .slider (SlideParams.new .bezier [⟨⟨.left ⟨false, 5, 0⟩, .left ⟨false, 6, 0⟩⟩⟩] 1 (.left ⟨false, 100, 0⟩)
      [⟨false, true, false, false⟩] []), false, ⟨0⟩, ⟨false, false, false, false⟩, none⟩

theorem C65_false : ∃ s o', builtSlider.shw 14 = some s ∧ HitObject.parse 14 s = .ok o' ∧ o' ≠ builtSlider ∧
    o'.shw 14 = some s :=
  ⟨c!"1,2,3,2,0,B|5:6,1,100,2", { builtSlider with
    params := .slider ⟨.bezier, [⟨⟨.left ⟨false, 5, 0⟩, .left ⟨false, 6, 0⟩⟩⟩], 1, .left ⟨false, 100, 0⟩,
      [⟨false, true, false, false⟩], false, [], true⟩ }, by decide, by decide, by decide, by decide⟩

private theorem builtSlider_ok : HOWritable 14 builtSlider := by
  have c : ∀ n, (DecLib.parse (natToStr n) : Option Dec96) = some ⟨false, n, 0⟩ → DecLib.canon (⟨false, n, 0⟩ : Dec96) :=
    fun _ h => DecLib.parse_canon h
  refine ⟨?_, ?_, ?_, by decide, ⟨?_, fun h => (by cases h), ?_, fun e he => (by cases he)⟩, fun _ h e => (by cases e)⟩
  · exact c 1 (by decide)
  · exact c 2 (by decide)
  · exact c 3 (by decide)
  · intro p hc
    have hc := List.mem_singleton.1 hc
    subst hc
    exact ⟨c 5 (by decide), c 6 (by decide)⟩
  · exact c 100 (by decide)

example : ∃ s, ∃ o' : HitObject Dec96, ∃ p', builtSlider.shw 14 = some s ∧ HitObject.parse 14 s = .ok o' ∧ o'.shw 14 = some s ∧
    o'.params = .slider p' ∧ p'.edgeSoundsShort = false ∧ p'.edgeSetsShort = true := by
  obtain ⟨s, o', p', h1, h2, h3, h4, -, h6, h7⟩ := C65_slider_back builtSlider_ok rfl
  exact ⟨s, o', p', h1, h2, h3, by rw [h4], Bool.eq_false_iff.2 fun h => absurd (h6.1 h).1 (by decide), h7.2 ⟨rfl, rfl⟩⟩
end

section
local instance : UniLib := asciiUni

private def d07 : Dec96 := ⟨false, 7, 1⟩

example : (some Countdown.normal : Option (GKey.countdown.Val Dec96)).isSome = true ↔
    ∃ x : GKey.countdown.Val Dec96, (GKey.shw .countdown 5 x).isSome = true := C64_general_gate d07 .countdown 5 rfl

private def defaults5 : (General Dec96).Section := fun k => match k with
  | .countdown => some Countdown.normal
  | .stackLeniency => some (.left d07)
  | _ => none

example : (General Dec96).fromStr 5 ((General Dec96).toStr 5 defaults5) = .ok defaults5 :=
  C64_general (d07 := d07) (by decide) 5 defaults5 (by intro k x h; cases k <;> first | cases h; rfl | cases h)

example : GKey.shw (D := Dec96) .stackLeniency 5 (.left d07) = some c!"0.7" := C64_texts (d07 := d07) (by decide) rfl

example : (HitObject.spinnerDefault : HitObject Dec96).shw 14 = some c!"256,192,0,8,0,0" := (C64_object_texts (by decide)).2.1
example : HitObject.parse 14 c!"256,192,0,8,0,0" = .ok (HitObject.spinnerDefault : HitObject Dec96) := (C64_objects_back (by decide)).2.1

example : ∃ s, (OsuFile.new 7 : OsuFile Dec96).shw = some s ∧ OsuFile.parse s = .ok (OsuFile.new 7 : OsuFile Dec96) :=
  C64_new_file (by decide) (by decide)
example : ∃ s, ({ OsuFile.new 7 with hitobjects := HitObjects.default 7 } : OsuFile Dec96).shw = some s ∧
    (OsuFile.parse s : Res _ (OsuFile Dec96)) = .panic := C64_false_empty_list (by decide) (by decide)

end

end Osu
