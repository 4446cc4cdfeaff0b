/-
C93: a build for a target with a smaller `usize`.
-/
import Verif.Proof.WidthFile
import Verif.Props.HitObjectsExact

namespace Osu
variable {D : Type} [DecLib D]

/-- The model of the other modules is the case of 64 bits. -/
theorem C93_64_object (v : Nat) (s : Str) :
    (HitObject.parseW 18446744073709551615 v s : Res HOErr (HitObject D)) = HitObject.parse v s := rfl

theorem C93_64_events [UniLib] (v : Nat) (s : Str) :
    Countdown.parseW 18446744073709551615 v s = Countdown.parse v s ∧
    Mode.parseW 18446744073709551615 v s = Mode.parse v s ∧
    SB.TriggerType.parseW 18446744073709551615 s = SB.TriggerType.parse s ∧
    Ev.OriginLegacy.parseW 18446744073709551615 s = Ev.OriginLegacy.parse s ∧
    Ev.LayerLegacy.parseW 18446744073709551615 s = Ev.LayerLegacy.parse s ∧
    Ev.AudioSample.parseW 18446744073709551615 s = Ev.AudioSample.parse s := by
  refine ⟨rfl, rfl, ?_, rfl, rfl, rfl⟩
  exact SB.TriggerType.parseW_eq ⟨by decide, by decide⟩ s

/-- A hit sample: what a smaller build reads is what the 64 bit build reads, as far as it can be held. -/
theorem C93_sample {m : Nat} (hm : IsUsizeMax m) {s : Str} {h : HO.HitSample} :
    HO.HitSample.parseW m s = .ok h ↔ HO.HitSample.parse s = .ok h ∧ sampleFits m h :=
  HO.HitSample.parseW_iff hm

example : IsUsizeMax 4294967295 ∧ HO.HitSample.parseW 4294967295 c!"4294967295:2:7:50:x.wav" =
    .ok ⟨.other 4294967295, .soft, .index 7, ⟨some 50⟩, c!"x.wav"⟩ ∧
    (∀ h, HO.HitSample.parseW 4294967295 c!"4294967296:2:7:50:x.wav" ≠ .ok h) := by
  refine ⟨⟨by decide, by decide⟩, by rfl, ?_⟩
  intro h hh
  have : HO.HitSample.parseW 4294967295 c!"4294967296:2:7:50:x.wav" = .err .invalidSampleSet := by rfl
  rw [this] at hh; cases hh

/-- A hit object line is accepted exactly if the 64 bit build accepts it and the object can be held. -/
theorem C93_object {m : Nat} (hm : IsUsizeMax m) {v : Nat} {s : Str} {o : HitObject D} :
    HitObject.parseW m v s = .ok o ↔ HitObject.parse v s = .ok o ∧ objectFits m o :=
  HitObject.parseW_iff hm

/-- It panics exactly where the 64 bit build does. -/
theorem C93_object_panic {m v : Nat} {s : Str} :
    (HitObject.parseW m v s : Res HOErr (HitObject D)) = .panic ↔
      (HitObject.parse v s : Res HOErr (HitObject D)) = .panic := HitObject.parseW_panic

/-- The error for an object that cannot be held: an edge set that is too large is reported as a missing hit sample, a
hit sample that is too large as an invalid one. -/
theorem C93_object_error {m : Nat} (hm : IsUsizeMax m) {v : Nat} {s : Str} {o : HitObject D}
    (h : HitObject.parse v s = .ok o) (ho : ¬ objectFits m o) :
    ((∀ e ∈ o.edges, edgeFits m e) → (HitObject.parseW m v s : Res HOErr (HitObject D)) = .err .invalidHitSample) ∧
    ((∃ e ∈ o.edges, ¬ edgeFits m e) → (HitObject.parseW m v s : Res HOErr (HitObject D)) = .err .missingHitSample) := by
  obtain ⟨c, h1, ⟨h2, rfl⟩ | ⟨h2, rfl⟩⟩ := HitObject.parseW_err hm h ho
  · exact ⟨fun _ => h1, fun ⟨e, he, hn⟩ => absurd (h2 e he) hn⟩
  · exact ⟨fun h3 => absurd h3 h2, fun _ => h1⟩

section
/-- A slider whose second edge set is too large for 32 bits. -/
def bigEdge : Str := c!"1,2,3,2,0,L|4:5,1,6,0|0,1:1|4294967296:0,0:0:0:0:"

example : (∃ o : HitObject Dec96, HitObject.parse 14 bigEdge = .ok o ∧ o.edges = [⟨.normal, .normal⟩, ⟨.other 4294967296, .noCustom⟩] ∧
      ¬ objectFits 4294967295 o) ∧
    (HitObject.parseW 4294967295 14 bigEdge : Res HOErr (HitObject Dec96)) = .err .missingHitSample := by
  refine ⟨⟨_, by rfl, by rfl, ?_⟩, by rfl⟩
  intro h
  have := (h.2 ⟨.other 4294967296, .noCustom⟩ (.tail _ (.head _))).1
  exact absurd (show 4294967296 ≤ 4294967295 from this) (by decide)

example : (∃ o : HitObject Dec96, HitObject.parse 14 c!"1,2,3,1,0,0:0:4294967296:0:" = .ok o ∧ ¬ objectFits 4294967295 o) ∧
    (HitObject.parseW 4294967295 14 c!"1,2,3,1,0,0:0:4294967296:0:" : Res HOErr (HitObject Dec96)) = .err .invalidHitSample := by
  refine ⟨⟨_, by rfl, ?_⟩, by rfl⟩
  intro h
  have := (h.1 _ rfl).2.2
  exact absurd (show 4294967296 ≤ 4294967295 from this) (by decide)

/-- An end time that overflows panics in every build. -/
example : (HitObject.parseW 4294967295 4 c!"1,2,79228162514264337593543950335,1,0" : Res HOErr (HitObject Dec96)) = .panic := by
  rw [C93_object_panic]; rfl
end

/-- The section of hit objects. -/
theorem C93_section {m : Nat} (hm : IsUsizeMax m) {v : Nat} {s : Str} {l : List (HitObject D)} :
    HitObjects.parseW m v s = .ok l ↔ HitObjects.parse v s = .ok l ∧ ∀ o ∈ l, objectFits m o := by
  unfold HitObjects.parseW HitObjects.parse
  rw [parseLines_ok_iff, parseLines_ok_iff]
  generalize (lines s).filter nonBlank = ls
  induction ls generalizing l with
  | nil => cases l <;> simp
  | cons x ls ih =>
    cases l with
    | nil => simp
    | cons o l =>
      simp only [List.map_cons, List.cons.injEq, C93_object hm, ih, List.mem_cons, forall_eq_or_imp]
      constructor
      · rintro ⟨⟨a, b⟩, c, d⟩; exact ⟨⟨a, c⟩, b, d⟩
      · rintro ⟨⟨a, c⟩, b, d⟩; exact ⟨⟨a, b⟩, c, d⟩

example : ∃ l : List (HitObject Dec96), HitObjects.parse 14 c!"1,2,3,1,0,0:0:0:0:\n1,2,4,1,0,0:0:70000:0:" = .ok l ∧ l.length = 2 ∧
    HitObjects.parseW 4294967295 14 c!"1,2,3,1,0,0:0:0:0:\n1,2,4,1,0,0:0:70000:0:" = .ok l ∧
    ∃ e, (HitObjects.parseW 65535 14 c!"1,2,3,1,0,0:0:0:0:\n1,2,4,1,0,0:0:70000:0:" : Res (LErr HOErr) (List (HitObject Dec96))) =
      .err ⟨1, e⟩ := ⟨_, by rfl, by rfl, by rfl, _, by rfl⟩

/-- The line of the error: the first line that the 64 bit build refuses or whose object cannot be held. -/
theorem C93_section_error {m : Nat} (hm : IsUsizeMax m) {v : Nat} {s : Str} {k : Nat} :
    (∃ e, (HitObjects.parseW m v s : Res (LErr HOErr) (List (HitObject D))) = .err ⟨k, e⟩) ↔
      (∃ l, (lines s)[k]? = some l ∧ trim l ≠ [] ∧ ((∃ e, (HitObject.parse v l : Res HOErr (HitObject D)) = .err e) ∨
        ∃ o : HitObject D, HitObject.parse v l = .ok o ∧ ¬ objectFits m o)) ∧
      ∀ j l, j < k → (lines s)[j]? = some l → trim l ≠ [] →
        ∃ o : HitObject D, HitObject.parse v l = .ok o ∧ objectFits m o := by
  have nb : ∀ l : Str, nonBlank l = true ↔ trim l ≠ [] := by intro l; simp [nonBlank]
  unfold HitObjects.parseW
  simp only [parseLines_err_iff, nb, C93_object hm]
  have bad : ∀ l : Str, (∃ e, (HitObject.parseW m v l : Res HOErr (HitObject D)) = .err e) ↔
      ((∃ e, (HitObject.parse v l : Res HOErr (HitObject D)) = .err e) ∨
        ∃ o : HitObject D, HitObject.parse v l = .ok o ∧ ¬ objectFits m o) := by
    intro l
    constructor
    · rintro ⟨e, he⟩
      cases hp : (HitObject.parse v l : Res HOErr (HitObject D)) with
      | ok o =>
        refine .inr ⟨o, rfl, fun ho => ?_⟩
        rw [(C93_object hm).2 ⟨hp, ho⟩] at he; cases he
      | err e => exact .inl ⟨e, rfl⟩
      | panic => rw [C93_object_panic.2 hp] at he; cases he
    · intro h
      cases hp : (HitObject.parseW m v l : Res HOErr (HitObject D)) with
      | ok o =>
        obtain ⟨h1, h2⟩ := (C93_object hm).1 hp
        rcases h with ⟨e, h⟩ | ⟨o', h, h'⟩
        · rw [h1] at h; cases h
        · rw [h1] at h; cases h; exact absurd h2 h'
      | err e => exact ⟨e, rfl⟩
      | panic =>
        have := C93_object_panic.1 hp
        rcases h with ⟨e, h⟩ | ⟨o', h, _⟩ <;> (rw [this] at h; cases h)
  constructor
  · rintro ⟨e, ⟨l, h1, h2, h3⟩, h4⟩
    exact ⟨⟨l, h1, h2, (bad l).1 ⟨e, h3⟩⟩, h4⟩
  · rintro ⟨⟨l, h1, h2, h3⟩, h4⟩
    obtain ⟨e, he⟩ := (bad l).2 h3
    exact ⟨e, ⟨l, h1, h2, he⟩, h4⟩

/-- Which objects come back from the text that is written for them. -/
theorem C93_round_trip {m : Nat} (hm : IsUsizeMax m) {v : Nat} {o : HitObject D} :
    (∃ s, o.shw v = some s ∧ HitObject.parseW m v s = .ok o) ↔ HOSurvives v o ∧ objectFits m o := by
  rw [← C20_exact]
  simp only [C93_object hm]
  constructor
  · rintro ⟨s, h1, h2, h3⟩; exact ⟨⟨s, h1, h2⟩, h3⟩
  · rintro ⟨⟨s, h1, h2⟩, h3⟩; exact ⟨s, h1, h2, h3⟩

example : ∃ o : HitObject Dec96, HitObject.parse 14 c!"1,2,3,1,0,0:0:70000:0:" = .ok o ∧
    o.shw 14 = some c!"1,2,3,1,0,0:0:70000:0:" ∧ objectFits 4294967295 o ∧ ¬ objectFits 65535 o := by
  refine ⟨_, by rfl, by rfl, ?_, ?_⟩
  · exact ⟨fun h hh => by cases hh; exact ⟨trivial, trivial, show 70000 ≤ 4294967295 by decide⟩, fun e he => nomatch he⟩
  · intro h
    exact absurd (show 70000 ≤ 65535 from (h.1 _ rfl).2.2) (by decide)

/-- Countdown and mode: every build reads the same values from the same texts; only the error for a number beyond the
build differs. -/
theorem C93_settings {m : Nat} (hm : IsUsizeMax m) (v : Nat) (s : Str) :
    (∀ x, Countdown.parseW m v s = .ok x ↔ Countdown.parse v s = .ok x) ∧
    (∀ x, Mode.parseW m v s = .ok x ↔ Mode.parse v s = .ok x) ∧
    Countdown.parseW m v s ≠ .panic ∧ Mode.parseW m v s ≠ .panic := by
  refine ⟨fun x => (Countdown.parseW_same hm v s).ok_iff, fun x => (Mode.parseW_same hm v s).ok_iff, ?_, ?_⟩
  · unfold Countdown.parseW
    split
    · simp
    · split
      · simp
      · rename_i h; exact absurd h (parseUsizeW_no_panic m s)
      · split <;> simp
  · unfold Mode.parseW
    split
    · simp
    · rename_i h; exact absurd h (parseUsizeW_no_panic m s)
    · simp only
      split
      · simp
      · split
        · simp
        · split
          · simp
          · split <;> simp

example : Countdown.parseW 65535 14 c!"2" = .ok (some .half) ∧
    Countdown.parseW 65535 14 c!"70000" = .err (.countdownInt .posOverflow) ∧
    Countdown.parse 14 c!"70000" = .err .countdownUnknown := ⟨by rfl, by rfl, by rfl⟩

/-- Where the outcome for a countdown, a mode, an origin or a layer differs at all, the smaller build gives the error of
a number that is too large. -/
theorem C93_cause [UniLib] {m : Nat} (hm : IsUsizeMax m) (v : Nat) (s : Str) :
    (Countdown.parseW m v s ≠ Countdown.parse v s → Countdown.parseW m v s = .err (.countdownInt .posOverflow)) ∧
    (Mode.parseW m v s ≠ Mode.parse v s → Mode.parseW m v s = .err (.modeInt .posOverflow)) ∧
    (Ev.OriginLegacy.parseW m s ≠ Ev.OriginLegacy.parse s → Ev.OriginLegacy.parseW m s = .err (.int .posOverflow)) ∧
    (Ev.LayerLegacy.parseW m s ≠ Ev.LayerLegacy.parse s → Ev.LayerLegacy.parseW m s = .err (.int .posOverflow)) := by
  have h := parseUsizeW_over hm s
  refine ⟨fun hn => ?_, fun hn => ?_, fun hn => ?_, fun hn => ?_⟩
  · revert hn
    unfold Countdown.parseW Countdown.parse
    split
    · intro hn; exact absurd rfl hn
    · rcases h with h | h
      · rw [h]; intro hn; exact absurd rfl hn
      · rw [h]; intro _; rfl
  · revert hn
    unfold Mode.parseW Mode.parse
    rcases h with h | h
    · rw [h]; intro hn; exact absurd rfl hn
    · rw [h]; intro _; rfl
  all_goals
    revert hn
    first
      | unfold Ev.OriginLegacy.parseW Ev.OriginLegacy.parse
      | unfold Ev.LayerLegacy.parseW Ev.LayerLegacy.parse
    unfold Ev.parseReprW Ev.parseRepr
    rcases h with h | h
    · rw [h]; intro hn; exact absurd rfl hn
    · rw [h]; intro _; rfl

example : Mode.parse 14 c!"65536" = .err .modeUnknown ∧ Mode.parseW 65535 14 c!"65536" = .err (.modeInt .posOverflow) ∧
    Mode.parse 14 c!"70000x" = .err (.modeInt .invalidDigit) ∧
    Mode.parseW 65535 14 c!"70000x" = .err (.modeInt .posOverflow) := ⟨by rfl, by rfl, by rfl, by rfl⟩

/-- Trigger types, and the origins, layers and audio samples of events. Trigger types and audio samples are the same in
every respect. -/
theorem C93_events [UniLib] {m : Nat} (hm : IsUsizeMax m) (s : Str) :
    SB.TriggerType.parseW m s = SB.TriggerType.parse s ∧ Ev.AudioSample.parseW m s = Ev.AudioSample.parse s ∧
    (∀ x, Ev.OriginLegacy.parseW m s = .ok x ↔ Ev.OriginLegacy.parse s = .ok x) ∧
    (∀ x, Ev.LayerLegacy.parseW m s = .ok x ↔ Ev.LayerLegacy.parse s = .ok x) :=
  ⟨SB.TriggerType.parseW_eq hm s, Ev.AudioSample.parseW_eq hm s,
    fun x => (Ev.parseReprW_same hm Ev.origin_large s).ok_iff, fun x => (Ev.parseReprW_same hm Ev.layer_large s).ok_iff⟩

section
attribute [local instance] asciiUni
example : SB.TriggerType.parseW 65535 c!"HitSoundDrumWhistle5" =
      .ok (.hitSound ⟨some .drum, none, some .whistle, some 5⟩) ∧
    Ev.OriginLegacy.parseW 65535 c!"2" = Ev.OriginLegacy.parse c!"2" := ⟨by rfl, by rfl⟩
end

/-- A file that one build opens and another refuses. -/
theorem C93_false_same : ∃ s : Str, (∃ o : HitObject Dec96, HitObject.parse 14 s = .ok o) ∧
    (HitObject.parseW 4294967295 14 s : Res HOErr (HitObject Dec96)) = .err .invalidHitSample :=
  ⟨c!"1,2,3,1,0,4294967296:0:0:0:", ⟨_, by rfl⟩, by rfl⟩

end Osu
