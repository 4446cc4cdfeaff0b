/-
C04 and C12, exactly: which key/value sections and colours are read back unchanged, and that the fields that are read
from any text are fields that can be written.
-/
import Verif.Props.Sections
import Verif.Props.Lines

namespace Osu
open Parser

section
variable {D : Type} [DecLib D]

/-- A decimal read from a value. -/
theorem decOK_read {s : Str} (hs : GoodVal s) {y : Decimal D} (hy : decField s = .ok (some y)) : DecOK y := by
  simp only [decField, Res.ok.injEq, Option.some.injEq] at hy
  subst hy
  have := Decimal.ofStr_WF (D := D) s
  unfold Decimal.ofStr at this ⊢
  split
  · rename_i d hd; rw [hd] at this; exact this
  · rename_i hd; exact ⟨hd, (goodVal_iff s).1 hs⟩

/-- Every field of `General` that is read, from any text in any version, can be written on a line. -/
theorem C04_general_read {v : Nat} {s : Str} {sec : (General D).Section} (h : (General D).fromStr v s = .ok sec)
    (k : GKey) (x : k.Val D) (hx : sec k = some x) : GKey.OK k x := by
  obtain ⟨t, hs, hp⟩ := Schema.fromStr_post (General_lawful D) h k x hx
  have hp' : GKey.parse k v t = .ok (some x) := hp
  cases k <;> simp only [GKey.OK]
  case audioFilename => cases hp'; exact (goodVal_iff t).1 hs
  case audioHash => cases hp'; exact (goodVal_iff t).1 hs
  case skinPreference => cases hp'; exact (goodVal_iff t).1 hs
  case stackLeniency => exact decOK_read hs hp'
  case editorDistanceSpacing => exact decOK_read hs hp'

example (x : Decimal Dec96) (sec : (General Dec96).Section) (h : (General Dec96).fromStr 14 c!"StackLeniency: 1_0 \nMode:1" = .ok sec)
    (hx : sec .stackLeniency = some x) : DecOK x := C04_general_read h .stackLeniency x hx
example : ((General Dec96).fromStr 14 c!"StackLeniency: 1_0 \nMode:1").isOk = true := by decide

/-- The same for `Editor`. -/
theorem C04_editor_read {v : Nat} {s : Str} {sec : (Editor D).Section} (h : (Editor D).fromStr v s = .ok sec)
    (k : EKey) (x : k.Val D) (hx : sec k = some x) : EKey.OK k x := by
  obtain ⟨t, hs, hp⟩ := Schema.fromStr_post (Editor_lawful D) h k x hx
  have hp' : EKey.parse k v t = .ok (some x) := hp
  cases k <;> simp only [EKey.OK]
  case distanceSpacing => exact decOK_read hs hp'
  case beatDivisor => exact decOK_read hs hp'
  case timelineZoom => exact decOK_read hs hp'

example : EKey.OK (D := Dec96) .distanceSpacing (.right c!"1 2") :=
  C04_editor_read (D := Dec96) (v := 14) (s := c!"GridSize:+7\nDistanceSpacing:  1 2") (by rfl) .distanceSpacing (.right c!"1 2") (by rfl)

/-- The same for `Difficulty`. -/
theorem C04_difficulty_read {v : Nat} {s : Str} {sec : (Difficulty D).Section} (h : (Difficulty D).fromStr v s = .ok sec)
    (k : DKey) (x : Decimal D) (hx : sec k = some x) : DecOK x := by
  obtain ⟨t, hs, hp⟩ := Schema.fromStr_post (Difficulty_lawful D) h k x hx
  exact decOK_read hs hp

example : DecOK (D := Dec96) (.left ⟨false, 120, 1⟩) :=
  C04_difficulty_read (D := Dec96) (v := 14) (s := c!"CircleSize:\t012.0") (by rfl) .circleSize (.left ⟨false, 120, 1⟩) (by rfl)

/-- The same for `Metadata`. -/
theorem C04_metadata_read {v : Nat} {s : Str} {sec : Metadata.Section} (h : Metadata.fromStr v s = .ok sec)
    (k : MKey) (x : k.Val) (hx : sec k = some x) : MKey.OK k x := by
  obtain ⟨t, hs, hp⟩ := Schema.fromStr_post Metadata_lawful h k x hx
  have hp' : MKey.parse k v t = .ok (some x) := hp
  cases k <;> simp only [MKey.OK] <;> simp only [MKey.parse, textField] at hp'
  case tags =>
    rw [parseTags_eq] at hp'
    cases hp'
    refine ⟨splitOnC_ne_nil _ _, fun u hu hc => ?_, ?_⟩
    · have := splitOnC_chars ' ' t u hu ' ' hc
      simp at this
    · have : tagsToStr (splitOnC ' ' t) = t := join_splitOnC ' ' t
      rw [this]
      exact (goodVal_iff t).1 hs
  all_goals cases hp'; exact (goodVal_iff _).1 hs

example : MKey.OK .tags [c!"x", [], c!"y"] :=
  C04_metadata_read (v := 14) (s := c!"Title:  a b \n\n  Tags: x  y\n") (by rfl) .tags [c!"x", [], c!"y"] (by rfl)

theorem restrict_eq_iff {K : Type} {V : K → Type} {p : (k : K) → V k → Bool} {sec : (k : K) → Option (V k)} :
    restrict p sec = sec ↔ ∀ k x, sec k = some x → p k x = true := by
  constructor
  · intro h k x hx
    have := congrFun h k
    unfold restrict at this
    rw [hx] at this
    simp only [Option.filter] at this
    split at this
    · assumption
    · cases this
  · intro h
    funext k
    unfold restrict
    cases hx : sec k with
    | none => rfl
    | some x => simp [Option.filter, h k x hx]

/-- A `General` section is read back unchanged from its text exactly if each of its fields can be written on a line and
exists in the version. -/
theorem C04_general_iff (v : Nat) (sec : (General D).Section) :
    (General D).fromStr v ((General D).toStr v sec) = .ok sec ↔
      ∀ k x, sec k = some x → GKey.OK k x ∧ GKey.existsIn v k x = true := by
  constructor
  · intro h
    have hok := C04_general_read h
    rw [C04_general v sec hok] at h
    have h := restrict_eq_iff.1 (Res.ok.inj h)
    exact fun k x hx => ⟨hok k x hx, h k x hx⟩
  · exact fun h => C04_general_exact v sec (fun k x hx => (h k x hx).1) (fun k x hx => (h k x hx).2)

/-- An `Editor` section is read back unchanged from its text exactly if each of its fields can be written on a line and
exists in the version. -/
theorem C04_editor_iff (v : Nat) (sec : (Editor D).Section) :
    (Editor D).fromStr v ((Editor D).toStr v sec) = .ok sec ↔
      ∀ k x, sec k = some x → EKey.OK k x ∧ EKey.existsIn v k x = true := by
  constructor
  · intro h
    have hok := C04_editor_read h
    rw [C04_editor v sec hok] at h
    have h := restrict_eq_iff.1 (Res.ok.inj h)
    exact fun k x hx => ⟨hok k x hx, h k x hx⟩
  · intro h
    rw [C04_editor v sec fun k x hx => (h k x hx).1]
    exact congrArg Res.ok (restrict_eq_iff.2 fun k x hx => (h k x hx).2)

/-- The current time is written in version 10 only. -/
private def timeOnly : (Editor Dec96).Section := fun k => match k with
  | .currentTime => some (5 : Int32)
  | _ => none

example : (Editor Dec96).fromStr 10 ((Editor Dec96).toStr 10 timeOnly) = .ok timeOnly ∧
    (Editor Dec96).fromStr 11 ((Editor Dec96).toStr 11 timeOnly) ≠ .ok timeOnly :=
  ⟨(C04_editor_iff 10 timeOnly).2 fun k x h => by cases k <;> simp only [timeOnly] at h <;> cases h; exact ⟨trivial, rfl⟩,
    fun h => absurd ((C04_editor_iff 11 timeOnly).1 h .currentTime (5 : Int32) rfl).2 (by decide)⟩

/-- A `Difficulty` section is read back unchanged from its text exactly if each of its decimals is a number, or a text that
is no number and can be written on a line. -/
theorem C04_difficulty_iff (v : Nat) (sec : (Difficulty D).Section) :
    (Difficulty D).fromStr v ((Difficulty D).toStr v sec) = .ok sec ↔ ∀ k x, sec k = some x → DecOK x :=
  ⟨fun h => C04_difficulty_read h, C04_difficulty v sec⟩

/-- A text with a blank in front is not read back. -/
private def blankRate (t : Str) : (Difficulty Dec96).Section := fun k => match k with
  | .sliderTickRate => some (.right t)
  | _ => none

example : (Difficulty Dec96).fromStr 14 c!"SliderTickRate:a b" = .ok (blankRate c!"a b") ∧
    (Difficulty Dec96).fromStr 14 ((Difficulty Dec96).toStr 14 (blankRate c!" a")) ≠ .ok (blankRate c!" a") :=
  ⟨(C04_difficulty_iff 14 (blankRate c!"a b")).2 fun k x h => by
      cases k <;> simp only [blankRate] at h <;> cases h; exact ⟨by decide, by decide⟩,
    fun h => absurd ((C04_difficulty_iff 14 (blankRate c!" a")).1 h .sliderTickRate (.right c!" a") rfl).2 (by decide)⟩

/-- A `Metadata` section is read back unchanged from its text exactly if each of its fields can be written on a line. -/
theorem C04_metadata_iff (v : Nat) (sec : Metadata.Section) :
    Metadata.fromStr v (Metadata.toStr v sec) = .ok sec ↔ ∀ k x, sec k = some x → MKey.OK k x :=
  ⟨fun h => C04_metadata_read h, C04_metadata v sec⟩

/-- A title that begins with a blank is not read back, whatever else there is. -/
example (v : Nat) (sec : Metadata.Section) (h : sec .title = some c!" x") : Metadata.fromStr v (Metadata.toStr v sec) ≠ .ok sec := by
  rw [Ne, C04_metadata_iff]
  intro hk
  have : TextOK c!" x" := hk .title _ h
  revert this; decide

/-- A section with a title only. -/
private def titleColon : Metadata.Section := fun k =>
  match k with
  | .title => some c!"a: b "
  | _ => none

/-- A title that ends with a blank and has a colon is read back. -/
example : Metadata.fromStr 3 (Metadata.toStr 3 titleColon) = .ok titleColon := by
  refine (C04_metadata_iff 3 titleColon).2 fun k x hx => ?_
  cases k <;> cases hx
  show TextOK c!"a: b "
  decide

/-- The hash of the audio is lost in version 14. -/
example (sec : (General Dec96).Section) (h : sec .audioHash = some c!"x") :
    (General Dec96).fromStr 14 ((General Dec96).toStr 14 sec) ≠ .ok sec := by
  rw [Ne, C04_general_iff]
  intro hk
  have := (hk .audioHash _ h).2
  revert this; decide

end

/-- Colours are read back unchanged from their text exactly if the version has colours and no combo number is negative. -/
theorem C12_colours_iff (v : Nat) (l : List Colour) :
    (∃ s, Colours.shw v l = some s ∧ Colours.parse v s = .ok (some l)) ↔ ¬ (3 ≤ v ∧ v ≤ 4) ∧ ∀ c ∈ l, ColourWritable c := by
  constructor
  · rintro ⟨s, -, h⟩
    have hv : ¬ (3 ≤ v ∧ v ≤ 4) := fun hv => by
      have := (C07_colours_gate h).2 hv; cases this
    refine ⟨hv, fun c hc => ?_⟩
    rw [Colours.parse, if_neg hv] at h
    obtain ⟨l', h1, h2⟩ := Res.bind_eq_ok'.1 h
    cases h2
    obtain ⟨t, _, _, h3⟩ := parseLines_mem h1 c hc
    exact C11_read_is_writable h3
  · rintro ⟨hv, h⟩
    exact C12_colours_round_trip hv h

example : ∃ s, Colours.shw 14 [.combo 1 ⟨1, 2, 3⟩, .sliderBorder ⟨4, 5, 6⟩] = some s ∧
    Colours.parse 14 s = .ok (some [.combo 1 ⟨1, 2, 3⟩, .sliderBorder ⟨4, 5, 6⟩]) :=
  (C12_colours_iff 14 _).2 ⟨by decide, by
    intro c hc
    simp only [List.mem_cons, List.not_mem_nil, or_false] at hc
    rcases hc with rfl | rfl
    · show (0 : Int) ≤ (1 : Int32).toInt; decide
    · trivial⟩

example : ¬∃ s, Colours.shw 14 [.sliderBorder ⟨4, 5, 6⟩, .combo (-1) ⟨1, 2, 3⟩] = some s ∧
    Colours.parse 14 s = .ok (some [.sliderBorder ⟨4, 5, 6⟩, .combo (-1) ⟨1, 2, 3⟩]) := by
  rw [C12_colours_iff]
  rintro ⟨-, h⟩
  have : (0 : Int) ≤ (-1 : Int32).toInt := h (.combo (-1) ⟨1, 2, 3⟩) (by simp)
  revert this; decide

end Osu
