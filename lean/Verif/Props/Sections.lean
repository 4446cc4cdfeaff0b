/-
C04 round trip, C05 order, C06 bad lines, C07 version gates, C08 bookmarks and tags, C10 metadata panic,
and the key/value part of C42 (stability) and C50 (panic freedom).
-/
import Verif.Props.Numbers
import Verif.Proof.KVGrammar
import Verif.Proof.Lines

namespace Osu
open Parser

/-! ## The four schemas -/

theorem GKey.mem_all (k : GKey) : k ∈ GKey.all := by cases k <;> decide
theorem EKey.mem_all (k : EKey) : k ∈ EKey.all := by cases k <;> decide
theorem DKey.mem_all (k : DKey) : k ∈ DKey.all := by cases k <;> decide

theorem Metadata_lawful : Metadata.Lawful where
  all := by intro k; show k ∈ MKey.all; cases k <;> decide
  nodup := by show MKey.all.Nodup; decide
  inj := by
    intro k k' h
    replace h : MKey.name k = MKey.name k' := h
    cases k <;> cases k' <;> first | rfl | exact absurd h (by decide)
  nameOK := by intro k; show AllC _ (MKey.name k); cases k <;> decide
  nameHead := by intro k; show HeadNot _ (MKey.name k); cases k <;> exact .cons (by decide)
  spacing := by intro v k; exact .nil

section
variable (D : Type) [DecLib D]

theorem General_lawful : (General D).Lawful where
  all := GKey.mem_all
  nodup := by show GKey.all.Nodup; decide
  inj := by
    intro k k' h
    replace h : GKey.name k = GKey.name k' := h
    cases k <;> cases k' <;> first | rfl | exact absurd h (by decide)
  nameOK := by intro k; show AllC _ (GKey.name k); cases k <;> exact (by decide)
  nameHead := by intro k; show HeadNot _ (GKey.name k); cases k <;> exact .cons (by decide)
  spacing := by intro v k; exact .cons (by decide) .nil

theorem Editor_lawful : (Editor D).Lawful where
  all := EKey.mem_all
  nodup := by show EKey.all.Nodup; decide
  inj := by
    intro k k' h
    replace h : EKey.name k = EKey.name k' := h
    cases k <;> cases k' <;> first | rfl | exact absurd h (by decide)
  nameOK := by intro k; show AllC _ (EKey.name k); cases k <;> exact (by decide)
  nameHead := by intro k; show HeadNot _ (EKey.name k); cases k <;> exact .cons (by decide)
  spacing := by intro v k; exact .cons (by decide) .nil

theorem Difficulty_lawful : (Difficulty D).Lawful where
  all := DKey.mem_all
  nodup := by show DKey.all.Nodup; decide
  inj := by
    intro k k' h
    replace h : DKey.name k = DKey.name k' := h
    cases k <;> cases k' <;> first | rfl | exact absurd h (by decide)
  nameOK := by intro k; show AllC _ (DKey.name k); cases k <;> exact (by decide)
  nameHead := by intro k; show HeadNot _ (DKey.name k); cases k <;> exact .cons (by decide)
  spacing := by
    intro v t
    show AllC _ (diffSpacing v t)
    unfold diffSpacing
    split
    · split
      · exact .cons (by decide) .nil
      · split
        · exact .cons (by decide) .nil
        · exact .nil
    · exact .nil

end

/-! ## C04: specification of what a version can hold -/

section
variable {D : Type} [DecLib D]

/-- A text value that survives: no line break, no leading blank or tab. -/
def TextOK (t : Str) : Prop := '\r' ∉ t ∧ '\n' ∉ t ∧ t.head? ≠ some ' ' ∧ t.head? ≠ some '\t'

instance (t : Str) : Decidable (TextOK t) := by unfold TextOK; infer_instance

theorem goodVal_iff (t : Str) : GoodVal t ↔ TextOK t := by
  unfold TextOK
  constructor
  · rintro ⟨h1, h2⟩
    refine ⟨fun h => ?_, fun h => ?_, fun h => ?_, fun h => ?_⟩
    · have := h1 _ h; revert this; decide
    · have := h1 _ h; revert this; decide
    · cases t with
      | nil => cases h
      | cons c t => cases h; have := h2.of_cons; revert this; decide
    · cases t with
      | nil => cases h
      | cons c t => cases h; have := h2.of_cons; revert this; decide
  · rintro ⟨h1, h2, h3, h4⟩
    constructor
    · intro c hc
      have e1 : c ≠ '\r' := by rintro rfl; exact h1 hc
      have e2 : c ≠ '\n' := by rintro rfl; exact h2 hc
      simp [e1, e2]
    · cases t with
      | nil => exact .nil
      | cons c t =>
        apply HeadNot.cons
        have e1 : c ≠ ' ' := by rintro rfl; exact h3 rfl
        have e2 : c ≠ '\t' := by rintro rfl; exact h4 rfl
        simp [isSpace, e1, e2]

/-- A decimal that survives: a number the decimal library can parse, or text that is not a number. -/
def DecOK (x : Decimal D) : Prop :=
  match x with
  | .left d => DecLib.canon d
  | .right s => (DecLib.parse s : Option D) = none ∧ TextOK s

theorem DecOK.wf {x : Decimal D} (h : DecOK x) : x.WF := by
  cases x with
  | left d => exact h
  | right s => exact h.1

theorem DecOK.good {x : Decimal D} (h : DecOK x) : GoodVal x.toStr := by
  cases x with
  | left d => exact .of_dec (DecLib.shw_chars _)
  | right s => exact (goodVal_iff s).2 h.2

/-- A mode exists in a version: taiko from 5, catch from 7, mania from 10 (versions below 3 unrestricted). -/
def Mode.existsIn (v : Nat) : Mode → Bool
  | .osu => true
  | .taiko => !(3 ≤ v && v ≤ 4)
  | .catch => !(3 ≤ v && v ≤ 6)
  | .mania => !(3 ≤ v && v ≤ 9)

/-- Field contents of `General` that can be written on a line. -/
def GKey.OK : (k : GKey) → k.Val D → Prop
  | audioFilename, x => TextOK x
  | audioHash, x => TextOK x
  | skinPreference, x => TextOK x
  | stackLeniency, x => DecOK (D := D) x
  | editorDistanceSpacing, x => DecOK (D := D) x
  | _, _ => True

/-- Whether the field value exists in the version. -/
def GKey.existsIn (v : Nat) : (k : GKey) → k.Val D → Bool
  | audioHash, _ => v ≤ 13
  | countdown, _ => !(3 ≤ v && v ≤ 4)
  | sampleSet, _ => !(v == 3)
  | mode, x => Mode.existsIn v x
  | overlayPosition, _ => !(3 ≤ v && v ≤ 13)
  | editorBookmarks, _ => v ≤ 5
  | editorDistanceSpacing, _ => v ≤ 5
  | _, _ => true

/-- Field contents of `Editor` that can be written on a line. -/
def EKey.OK : (k : EKey) → k.Val D → Prop
  | distanceSpacing, x => DecOK (D := D) x
  | beatDivisor, x => DecOK (D := D) x
  | timelineZoom, x => DecOK (D := D) x
  | _, _ => True

/-- `CurrentTime` exists in version 10 only. -/
def EKey.existsIn (v : Nat) : (k : EKey) → k.Val D → Bool
  | currentTime, _ => v == 10
  | _, _ => true

/-- Field contents of `Metadata` that can be written on a line: a tag list is not empty, has no blanks
inside tags, and its text is fine. -/
def MKey.OK : (k : MKey) → k.Val → Prop
  | tags, x => x ≠ [] ∧ (∀ t ∈ (x : List Str), ' ' ∉ t) ∧ TextOK (tagsToStr x)
  | title, x => TextOK x
  | titleUnicode, x => TextOK x
  | artist, x => TextOK x
  | artistUnicode, x => TextOK x
  | creator, x => TextOK x
  | version, x => TextOK x
  | source, x => TextOK x
  | _, _ => True

/-- Keep the fields that satisfy `p`. -/
def restrict {K : Type} {V : K → Type} (p : (k : K) → V k → Bool) (sec : (k : K) → Option (V k)) :
    (k : K) → Option (V k) := fun k => (sec k).filter (p k)

/-! ### Field level -/

theorem natToStr_good (n : Nat) : GoodVal (natToStr n) :=
  .of_dec fun c hc => by simp [isDecChar, natToStr_digits n c hc]

theorem boolToStr_good (b : Bool) : GoodVal (boolToStr b) := by
  rw [goodVal_iff]; cases b <;> decide

theorem i32_good (n : Int32) : GoodVal (i32ToStr n) := .of_dec (i32_isDecChar n)

theorem intField_i32 (n : Int32) : intField (i32ToStr n) = .ok (some n) := by
  simp [intField, parseI32_i32ToStr]

theorem boolField_bool (b : Bool) : boolField (boolToStr b) = .ok (some b) := by
  simp [boolField, parseZeroOneBool_boolToStr]

theorem decField_toStr {x : Decimal D} (h : x.WF) : decField x.toStr = .ok (some x) := by
  simp [decField, Decimal.ofStr_toStr h]

theorem Countdown.parse_shw (v : Nat) (x : Countdown) (t : Str) (h : Countdown.shw v x = some t) :
    GoodVal t ∧ Countdown.parse v t = .ok (some x) := by
  unfold Countdown.shw at h
  split at h
  · cases h
  · rename_i hv
    cases h
    refine ⟨natToStr_good _, ?_⟩
    unfold Countdown.parse Countdown.fromRepr
    simp only [hv, if_false]
    cases x <;> rfl

theorem GSampleSet.parse_shw (v : Nat) (x : GSampleSet) (t : Str) (h : GSampleSet.shw v x = some t) :
    GoodVal t ∧ GSampleSet.parse v t = .ok (some x) := by
  unfold GSampleSet.shw at h
  split at h
  · cases h
  · rename_i hv
    cases h
    constructor
    · rw [goodVal_iff]; cases x <;> decide
    · unfold GSampleSet.parse
      simp only [hv, if_false]
      cases x <;> rfl

theorem OverlayPosition.parse_shw (v : Nat) (x : OverlayPosition) (t : Str)
    (h : OverlayPosition.shw v x = some t) : GoodVal t ∧ OverlayPosition.parse v t = .ok (some x) := by
  unfold OverlayPosition.shw at h
  split at h
  · cases h
  · rename_i hv
    cases h
    constructor
    · rw [goodVal_iff]; cases x <;> decide
    · unfold OverlayPosition.parse
      simp only [hv, if_false]
      cases x <;> rfl

theorem Mode.parse_shw (v : Nat) (x : Mode) :
    Mode.parse v (natToStr x.repr) = .ok (if Mode.existsIn v x then some x else none) := by
  have key : ∀ (n : UInt64), parseUsize (natToStr x.repr) = .ok n → n = (match x with
      | .osu => 0 | .taiko => 1 | .catch => 2 | .mania => 3) → Mode.parse v (natToStr x.repr) =
        .ok (if Mode.existsIn v x then some x else none) := by
    intro n hn e
    unfold Mode.parse
    rw [hn]
    simp only [e]
    cases x
    · simp [Mode.existsIn]
    · by_cases h1 : 3 ≤ v ∧ v ≤ 4
      · simp [Mode.existsIn, h1]
      · have : ¬ (3 ≤ v ∧ v ≤ 4 ∧ True) := fun h => h1 ⟨h.1, h.2.1⟩
        by_cases h3 : 3 ≤ v
        · have : ¬ v ≤ 4 := fun h => h1 ⟨h3, h⟩
          simp [Mode.existsIn, this]
        · simp [Mode.existsIn, h3]
    · by_cases h1 : 3 ≤ v ∧ v ≤ 4
      · have : v ≤ 6 := by omega
        simp [Mode.existsIn, h1, this]
      · by_cases h2 : 5 ≤ v ∧ v ≤ 6
        · have : 3 ≤ v := by omega
          simp [Mode.existsIn, h1, h2, this]
        · have : ¬ (3 ≤ v ∧ v ≤ 6) := by omega
          have h1' : 3 ≤ v → ¬ v ≤ 4 := by omega
          have h2' : 5 ≤ v → ¬ v ≤ 6 := by omega
          by_cases h3 : 3 ≤ v
          · have h4 : ¬ v ≤ 6 := by omega
            have h5 : ¬ v ≤ 4 := by omega
            simp [Mode.existsIn, h4, h5]
          · have h4 : ¬ 5 ≤ v := by omega
            simp [Mode.existsIn, h3, h4]
    · by_cases h1 : 3 ≤ v ∧ v ≤ 4
      · have : v ≤ 9 := by omega
        simp [Mode.existsIn, h1, this]
      · by_cases h2 : 5 ≤ v ∧ v ≤ 6
        · have : 3 ≤ v := by omega
          have h9 : v ≤ 9 := by omega
          simp [Mode.existsIn, h1, h2, this, h9]
        · by_cases h6 : 7 ≤ v ∧ v ≤ 9
          · have h3 : 3 ≤ v := by omega
            have h5 : ¬ v ≤ 4 := by omega
            have h7 : ¬ v ≤ 6 := by omega
            simp [Mode.existsIn, h3, h5, h7, h6]
          · by_cases h3 : 3 ≤ v
            · have h4 : ¬ v ≤ 6 := by omega
              have h5 : ¬ v ≤ 4 := by omega
              have h7 : ¬ v ≤ 9 := by omega
              simp [Mode.existsIn, h4, h5, h7]
            · have h4 : ¬ 5 ≤ v := by omega
              have h5 : ¬ 7 ≤ v := by omega
              simp [Mode.existsIn, h3, h4, h5]
  cases x
  · exact key 0 (by decide) rfl
  · exact key 1 (by decide) rfl
  · exact key 2 (by decide) rfl
  · exact key 3 (by decide) rfl

theorem idField_i32 (n : Int32) : idField (i32ToStr n) = .ok (some n) := by
  simp [idField, parseI32_i32ToStr]

theorem parseTags_tagsToStr {l : List Str} (h1 : l ≠ []) (h2 : ∀ t ∈ l, ' ' ∉ t) :
    parseTags (tagsToStr l) = .ok l := by
  rw [parseTags_eq]
  unfold tagsToStr
  rw [splitOnC_join h1]
  intro q hq c hc
  have : c ≠ ' ' := by rintro rfl; exact h2 q hq hc
  simpa using this

/-! ## C04 theorems -/

/-- One field of `General`: what printing and reading gives. -/
theorem GKey.field (v : Nat) (k : GKey) (x : k.Val D) (t : Str) (hok : k.OK x)
    (ht : GKey.shw k v x = some t) :
    GoodVal t ∧ GKey.parse k v t = .ok (if k.existsIn v x then some x else none) := by
  cases k <;> simp only [GKey.shw] at ht
  case audioFilename => cases ht; exact ⟨(goodVal_iff _).2 hok, rfl⟩
  case audioLeadIn => cases ht; exact ⟨i32_good _, intField_i32 _⟩
  case audioHash =>
    split at ht
    · cases ht
    · rename_i hv
      cases ht
      have : v ≤ 13 := by omega
      exact ⟨(goodVal_iff _).2 hok, by simp [GKey.parse, textField, GKey.existsIn, this]⟩
  case previewTime => cases ht; exact ⟨i32_good _, intField_i32 _⟩
  case countdown =>
    obtain ⟨h1, h2⟩ := Countdown.parse_shw v x t ht
    refine ⟨h1, ?_⟩
    have : ¬ (3 ≤ v ∧ v ≤ 4) := by
      intro h; simp [Countdown.shw, h] at ht
    have : GKey.existsIn (D := D) v .countdown x = true := by
      simp [GKey.existsIn]; omega
    rw [this]; exact h2
  case sampleSet =>
    obtain ⟨h1, h2⟩ := GSampleSet.parse_shw v x t ht
    refine ⟨h1, ?_⟩
    have : ¬ (v = 3) := by
      intro h; simp [GSampleSet.shw, h] at ht
    have : GKey.existsIn (D := D) v .sampleSet x = true := by
      simp [GKey.existsIn, this]
    rw [this]; exact h2
  case stackLeniency => cases ht; exact ⟨DecOK.good hok, decField_toStr (DecOK.wf hok)⟩
  case mode =>
    cases ht
    exact ⟨natToStr_good _, Mode.parse_shw v x⟩
  case letterboxInBreaks => cases ht; exact ⟨boolToStr_good _, boolField_bool _⟩
  case storyFireInFront => cases ht; exact ⟨boolToStr_good _, boolField_bool _⟩
  case useSkinSprites => cases ht; exact ⟨boolToStr_good _, boolField_bool _⟩
  case alwaysShowPlayfield => cases ht; exact ⟨boolToStr_good _, boolField_bool _⟩
  case overlayPosition =>
    obtain ⟨h1, h2⟩ := OverlayPosition.parse_shw v x t ht
    refine ⟨h1, ?_⟩
    have : ¬ (3 ≤ v ∧ v ≤ 13) := by
      intro h; simp [OverlayPosition.shw, h] at ht
    have : GKey.existsIn (D := D) v .overlayPosition x = true := by
      simp [GKey.existsIn]; omega
    rw [this]; exact h2
  case skinPreference => cases ht; exact ⟨(goodVal_iff _).2 hok, rfl⟩
  case epilepsyWarning => cases ht; exact ⟨boolToStr_good _, boolField_bool _⟩
  case countdownOffset => cases ht; exact ⟨i32_good _, intField_i32 _⟩
  case specialStyle => cases ht; exact ⟨boolToStr_good _, boolField_bool _⟩
  case widescreenStoryboard => cases ht; exact ⟨boolToStr_good _, boolField_bool _⟩
  case samplesMatchPlaybackRate => cases ht; exact ⟨boolToStr_good _, boolField_bool _⟩
  case editorBookmarks =>
    split at ht
    · cases ht
    · rename_i hv
      cases ht
      have : v ≤ 5 := by omega
      refine ⟨bookmarksToStr_good _, ?_⟩
      simp only [GKey.parse, GKey.existsIn, this]
      rw [parseBookmarks_bookmarksToStr]; rfl
  case editorDistanceSpacing =>
    split at ht
    · cases ht
    · rename_i hv
      cases ht
      have : v ≤ 5 := by omega
      refine ⟨DecOK.good hok, ?_⟩
      have h := decField_toStr (DecOK.wf hok)
      simp only [GKey.existsIn, this, decide_true, if_true]
      exact h

/-- Fields that are not written do not exist in the version. -/
theorem GKey.not_written (v : Nat) (k : GKey) (x : k.Val D) (ht : GKey.shw k v x = none) :
    k.existsIn v x = false := by
  cases k <;> simp only [GKey.shw] at ht <;> try (cases ht; done)
  case audioHash =>
    split at ht
    · simp [GKey.existsIn]; omega
    · cases ht
  case countdown =>
    unfold Countdown.shw at ht
    split at ht
    · rename_i h; simp [GKey.existsIn, h]
    · cases ht
  case sampleSet =>
    unfold GSampleSet.shw at ht
    split at ht
    · rename_i h; simp [GKey.existsIn, h]
    · cases ht
  case overlayPosition =>
    unfold OverlayPosition.shw at ht
    split at ht
    · rename_i h; simp [GKey.existsIn, h]
    · cases ht
  case editorBookmarks =>
    split at ht
    · simp [GKey.existsIn]; omega
    · cases ht
  case editorDistanceSpacing =>
    split at ht
    · simp [GKey.existsIn]; omega
    · cases ht

/-- C04 (General): printing and reading back gives the section with exactly the fields that exist in the
version. -/
theorem C04_general (v : Nat) (sec : (General D).Section) (h : ∀ k x, sec k = some x → GKey.OK k x) :
    (General D).fromStr v ((General D).toStr v sec) = .ok (restrict (GKey.existsIn v) sec) := by
  apply Schema.roundtrip (General_lawful D)
  · intro k x t hx ht
    obtain ⟨h1, h2⟩ := GKey.field v k x t (h k x hx) ht
    refine ⟨h1, ?_⟩
    show GKey.parse k v t = _
    rw [h2]
    unfold restrict
    rw [hx]
    simp [Option.filter]
    rfl
  · intro k hk
    unfold restrict
    cases hx : sec k with
    | none => rfl
    | some x =>
      have := GKey.not_written v k x (hk x hx)
      simp [Option.filter, this]

/-- A section with a time, a sample set and a decimal that is no number; the sample set does not exist in version 3. -/
private def smallGeneral : (General Dec96).Section := fun k =>
  match k with
  | .audioLeadIn => some (-5 : Int32)
  | .sampleSet => some GSampleSet.soft
  | .stackLeniency => some (.right c!"much")
  | _ => none

private theorem smallGeneral_ok : ∀ k x, smallGeneral k = some x → GKey.OK k x := by
  intro k x h
  cases k <;> simp only [smallGeneral] at h <;> cases h
  · trivial
  · trivial
  · exact ⟨by decide, by decide⟩

example : (General Dec96).fromStr 3 c!"AudioLeadIn: -5\nStackLeniency: much" = .ok (restrict (GKey.existsIn 3) smallGeneral) :=
  C04_general 3 smallGeneral smallGeneral_ok

/-- C04 (General): if every present field exists in the version, the section is read back exactly. -/
theorem C04_general_exact (v : Nat) (sec : (General D).Section) (h : ∀ k x, sec k = some x → GKey.OK k x)
    (hv : ∀ k x, sec k = some x → GKey.existsIn v k x = true) :
    (General D).fromStr v ((General D).toStr v sec) = .ok sec := by
  rw [C04_general v sec h]
  congr 1
  funext k
  unfold restrict
  cases hx : sec k with
  | none => rfl
  | some x => simp [Option.filter, hv k x hx]

example : (General Dec96).fromStr 14 c!"AudioLeadIn: -5\nSampleSet: Soft\nStackLeniency: much" = .ok smallGeneral :=
  C04_general_exact 14 smallGeneral smallGeneral_ok fun k x h => by
    cases k <;> simp only [smallGeneral] at h <;> cases h <;> rfl

theorem EKey.field (v : Nat) (k : EKey) (x : k.Val D) (t : Str) (hok : k.OK x)
    (ht : EKey.shw k v x = some t) :
    GoodVal t ∧ EKey.parse k v t = .ok (if k.existsIn v x then some x else none) := by
  cases k <;> simp only [EKey.shw] at ht
  case bookmarks =>
    cases ht
    exact ⟨bookmarksToStr_good _, by simp only [EKey.parse]; rw [parseBookmarks_bookmarksToStr]; rfl⟩
  case distanceSpacing => cases ht; exact ⟨DecOK.good hok, decField_toStr (DecOK.wf hok)⟩
  case beatDivisor => cases ht; exact ⟨DecOK.good hok, decField_toStr (DecOK.wf hok)⟩
  case gridSize => cases ht; exact ⟨i32_good _, intField_i32 _⟩
  case timelineZoom => cases ht; exact ⟨DecOK.good hok, decField_toStr (DecOK.wf hok)⟩
  case currentTime =>
    split at ht
    · cases ht
    · rename_i hv
      cases ht
      have : v = 10 := by omega
      subst this
      exact ⟨i32_good _, intField_i32 _⟩

/-- C04 (Editor): same as for General. -/
theorem C04_editor (v : Nat) (sec : (Editor D).Section) (h : ∀ k x, sec k = some x → EKey.OK k x) :
    (Editor D).fromStr v ((Editor D).toStr v sec) = .ok (restrict (EKey.existsIn v) sec) := by
  apply Schema.roundtrip (Editor_lawful D)
  · intro k x t hx ht
    obtain ⟨h1, h2⟩ := EKey.field v k x t (h k x hx) ht
    refine ⟨h1, ?_⟩
    show EKey.parse k v t = _
    rw [h2]
    unfold restrict
    rw [hx]
    simp [Option.filter]
    rfl
  · intro k hk
    unfold restrict
    cases hx : sec k with
    | none => rfl
    | some x =>
      have hs : EKey.shw k v x = none := hk x hx
      cases k <;> simp only [EKey.shw] at hs <;> try (cases hs; done)
      split at hs
      · rename_i hv; simp [Option.filter, EKey.existsIn, hv]
      · cases hs

/-- A section with bookmarks and a number. -/
private def smallEditor : (Editor Dec96).Section := fun k =>
  match k with
  | .bookmarks => some [1, -2]
  | .distanceSpacing => some (.left ⟨false, 15, 1⟩)
  | _ => none

example : (Editor Dec96).fromStr 14 c!"Bookmarks: 1,-2\nDistanceSpacing: 1.5" = .ok (restrict (EKey.existsIn 14) smallEditor) :=
  C04_editor 14 smallEditor fun k x h => by
    cases k <;> simp only [smallEditor] at h <;> cases h
    · trivial
    · show Dec96.Canon _; decide

/-- C04 (Difficulty): every section is read back exactly, in every version. -/
theorem C04_difficulty (v : Nat) (sec : (Difficulty D).Section) (h : ∀ k x, sec k = some x → DecOK x) :
    (Difficulty D).fromStr v ((Difficulty D).toStr v sec) = .ok sec := by
  apply Schema.roundtrip (Difficulty_lawful D)
  · intro k x t hx ht
    cases ht
    refine ⟨DecOK.good (h k x hx), ?_⟩
    show decField _ = _
    rw [decField_toStr (DecOK.wf (h k x hx)), hx]; rfl
  · intro k hk
    cases hx : sec k with
    | none => rfl
    | some x => have := hk x hx; cases this

/-- A section with a number and a text for a number. -/
private def smallDifficulty : (Difficulty Dec96).Section := fun k =>
  match k with
  | .circleSize => some (.left ⟨false, 4, 0⟩)
  | .approachRate => some (.right c!"9,3")
  | _ => none

example : (Difficulty Dec96).fromStr 14 c!"CircleSize:4\nApproachRate:9,3" = .ok smallDifficulty :=
  C04_difficulty 14 smallDifficulty fun k x h => by
    cases k <;> simp only [smallDifficulty] at h <;> cases h
    · show Dec96.Canon _; decide
    · exact ⟨by decide, by decide⟩

end

theorem MKey.field (v : Nat) (k : MKey) (x : k.Val) (t : Str) (hok : k.OK x) (ht : MKey.shw k v x = some t) :
    GoodVal t ∧ MKey.parse k v t = .ok (some x) := by
  cases k <;> simp only [MKey.shw] at ht <;> cases ht
  case tags =>
    exact ⟨(goodVal_iff _).2 hok.2.2, by simp only [MKey.parse]; rw [parseTags_tagsToStr hok.1 hok.2.1]; rfl⟩
  case beatmapID => exact ⟨i32_good _, idField_i32 _⟩
  case beatmapSetID => exact ⟨i32_good _, idField_i32 _⟩
  all_goals exact ⟨(goodVal_iff _).2 hok, rfl⟩

/-- C04 (Metadata): every section is read back exactly, in every version. -/
theorem C04_metadata (v : Nat) (sec : Metadata.Section) (h : ∀ k x, sec k = some x → MKey.OK k x) :
    Metadata.fromStr v (Metadata.toStr v sec) = .ok sec := by
  apply Schema.roundtrip Metadata_lawful
  · intro k x t hx ht
    have hok := h k x hx
    show GoodVal t ∧ MKey.parse k v t = .ok (sec k)
    rw [hx]
    exact MKey.field v k x t hok ht
  · intro k hk
    cases hx : sec k with
    | none => rfl
    | some x =>
      have hs : MKey.shw k v x = none := hk x hx
      cases k <;> simp only [MKey.shw] at hs <;> cases hs

example : Metadata.fromStr 14 c!"Title:Re: start\nTags:a  b\nBeatmapID:-1" =
    .ok fun k => match k with
      | .title => some c!"Re: start" | .tags => some [c!"a", c!"", c!"b"] | .beatmapID => some (-1 : Int32) | _ => none :=
  C04_metadata 14 (fun k => match k with
      | .title => some c!"Re: start" | .tags => some [c!"a", c!"", c!"b"] | .beatmapID => some (-1 : Int32) | _ => none) fun k x h => by
    cases k <;> simp only at h <;> cases h
    · show TextOK c!"Re: start"; decide
    · exact ⟨by decide, by decide, by decide⟩
    · trivial

/-- A section with a title, tags and an id. -/
def exampleMetadata : Metadata.Section := fun k =>
  match k with
  | .title => some c!"Re: start"
  | .tags => some [c!"a", c!"", c!"b"]
  | .beatmapID => some (-1 : Int32)
  | _ => none

example : Metadata.toStr 14 exampleMetadata = c!"Title:Re: start\nTags:a  b\nBeatmapID:-1" := by decide
theorem exampleMetadata_ok : ∀ k x, exampleMetadata k = some x → MKey.OK k x := by
  intro k x h
  cases k <;> simp only [exampleMetadata] at h <;> cases h
  · show TextOK c!"Re: start"; decide
  · exact ⟨by decide, by decide, by decide⟩
  · trivial

/-! ## C05, C06 -/

/-- C05: permuting the lines of an accepted key/value section gives the same section. -/
theorem C05_permutation {S : Schema} (hS : S.Lawful) {eol : Str} (he : IsEol eol) {ls ls' : List KVLine}
    (hok : ∀ l ∈ ls, l.OK) (hp : ls.Perm ls') {v : Nat} {sec : S.Section}
    (h : S.fromStr v (kvText eol ls) = .ok sec) : S.fromStr v (kvText eol ls') = .ok sec := by
  have hm : ∀ l, l ∈ ls' ↔ l ∈ ls := fun l => hp.symm.mem_iff
  have hok' : ∀ l ∈ ls', l.OK := fun l hl => hok l ((hm l).1 hl)
  rw [Schema.fromStr_text_ok_iff hS he hok] at h
  rw [Schema.fromStr_text_ok_iff hS he hok']
  refine ⟨(hp.map _).nodup_iff.1 h.1, fun l hl => h.2.1 l ((hm l).1 hl), fun k hk => ?_⟩
  exact h.2.2 k fun l hl => hk l ((hm l).2 hl)

private def lineTitle : KVLine := ⟨c!"Title", c!" ", c!"a"⟩
private def lineArtist : KVLine := ⟨c!"Artist", [], c!"b c"⟩
private def lineID : KVLine := ⟨c!"BeatmapID", [], c!"x1"⟩
private def lineOdd : KVLine := ⟨c!"Colour", [], c!"red"⟩
private theorem lineTitle_ok : lineTitle.OK := ⟨by decide, .cons (by decide), by decide, by decide, .cons (by decide)⟩
private theorem lineArtist_ok : lineArtist.OK := ⟨by decide, .cons (by decide), by decide, by decide, .cons (by decide)⟩
private theorem lineID_ok : lineID.OK := ⟨by decide, .cons (by decide), by decide, by decide, .cons (by decide)⟩
private theorem lineOdd_ok : lineOdd.OK := ⟨by decide, .cons (by decide), by decide, by decide, .cons (by decide)⟩

/-- What the two lines stand for. -/
private def titleArtist : Metadata.Section := fun k =>
  match k with
  | .title => some c!"a"
  | .artist => some c!"b c"
  | _ => none

private theorem two_read (eol : Str) (he : eol = c!"\n" ∨ eol = c!"\r\n") :
    Metadata.fromStr 14 (kvText eol [lineTitle, lineArtist]) = .ok titleArtist := by
  rcases he with rfl | rfl
  · refine congrArg Res.ok ?_
    funext k; cases k <;> rfl
  · refine congrArg Res.ok ?_
    funext k; cases k <;> rfl

private theorem two_ok : ∀ l ∈ [lineTitle, lineArtist], l.OK := by
  intro l hl
  rcases List.mem_cons.1 hl with rfl | hl
  · exact lineTitle_ok
  · rw [List.mem_singleton.1 hl]; exact lineArtist_ok

private theorem three_ok {x : KVLine} (hx : x.OK) : ∀ l ∈ [lineTitle, lineArtist] ++ x :: [lineTitle], l.OK := by
  intro l hl
  rcases List.mem_append.1 hl with hl | hl
  · exact two_ok l hl
  · rcases List.mem_cons.1 hl with rfl | hl
    · exact hx
    · rw [List.mem_singleton.1 hl]; exact lineTitle_ok

example : Metadata.fromStr 14 c!"Artist:b c\nTitle: a" = .ok titleArtist :=
  C05_permutation Metadata_lawful (.inl rfl) two_ok (.swap _ _ _) (two_read _ (.inl rfl))

/-- C05: the line ending (`\n` or `\r\n`) does not matter either. -/
theorem C05_line_ending {S : Schema} (hS : S.Lawful) {e e' : Str} (he : IsEol e) (he' : IsEol e')
    {ls : List KVLine} (hok : ∀ l ∈ ls, l.OK) {v : Nat} {sec : S.Section}
    (h : S.fromStr v (kvText e ls) = .ok sec) : S.fromStr v (kvText e' ls) = .ok sec := by
  rw [Schema.fromStr_text_ok_iff hS he hok] at h
  rwa [Schema.fromStr_text_ok_iff hS he' hok]

example : Metadata.fromStr 14 c!"Title: a\r\nArtist:b c" = .ok titleArtist :=
  C05_line_ending Metadata_lawful (.inl rfl) (.inr rfl) two_ok (two_read _ (.inl rfl))

/-- C06: exactly which texts are accepted: keys distinct, known, values accepted by their field. -/
theorem C06_accepted_iff {S : Schema} (hS : S.Lawful) {eol : Str} (he : IsEol eol) {ls : List KVLine}
    (hok : ∀ l ∈ ls, l.OK) (v : Nat) (sec : S.Section) :
    S.fromStr v (kvText eol ls) = .ok sec ↔
      (ls.map KVLine.key).Nodup ∧
      (∀ l ∈ ls, ∃ k, S.name k = l.key ∧ S.parse k v l.value = .ok (sec k)) ∧
      (∀ k, (∀ l ∈ ls, l.key ≠ S.name k) → sec k = none) :=
  Schema.fromStr_text_ok_iff hS he hok v sec

example : ([lineTitle, lineArtist].map KVLine.key).Nodup ∧ titleArtist .creator = none :=
  have h := (C06_accepted_iff Metadata_lawful (.inl rfl) two_ok 14 titleArtist).1 (two_read _ (.inl rfl))
  ⟨h.1, h.2.2 .creator (by decide)⟩

/-- C06: the first repeated key is reported at its line. -/
theorem C06_duplicate {S : Schema} (hS : S.Lawful) {eol : Str} (he : IsEol eol) {ls rs : List KVLine}
    {l : KVLine} (hok : ∀ x ∈ ls ++ l :: rs, x.OK) {v : Nat} {sec : S.Section}
    (hacc : S.fromStr v (kvText eol ls) = .ok sec) (hdup : l.key ∈ ls.map KVLine.key) :
    S.fromStr v (kvText eol (ls ++ l :: rs)) = .err ⟨ls.length, .duplicateField⟩ :=
  Schema.fromStr_duplicate hS he hok hacc hdup

example : Metadata.fromStr 14 c!"Title: a\nArtist:b c\nArtist:b c\nTitle: a" = .err ⟨2, .duplicateField⟩ :=
  C06_duplicate Metadata_lawful (.inl rfl) (three_ok lineArtist_ok) (two_read _ (.inl rfl)) (by decide)

/-- C06: the first unknown key is reported at its line. -/
theorem C06_unknown {S : Schema} (hS : S.Lawful) {eol : Str} (he : IsEol eol) {ls rs : List KVLine}
    {l : KVLine} (hok : ∀ x ∈ ls ++ l :: rs, x.OK) {v : Nat} {sec : S.Section}
    (hacc : S.fromStr v (kvText eol ls) = .ok sec) (hunk : ∀ k, S.name k ≠ l.key) :
    S.fromStr v (kvText eol (ls ++ l :: rs)) = .err ⟨ls.length, .invalidKey⟩ :=
  Schema.fromStr_unknown hS he hok hacc hunk

example : Metadata.fromStr 14 c!"Title: a\nArtist:b c\nColour:red\nTitle: a" = .err ⟨2, .invalidKey⟩ :=
  C06_unknown Metadata_lawful (.inl rfl) (three_ok lineOdd_ok) (two_read _ (.inl rfl)) (by intro k; cases k <;> decide)

/-- C06: the first rejected value is reported at its line. -/
theorem C06_bad_value {S : Schema} (hS : S.Lawful) {eol : Str} (he : IsEol eol) {ls rs : List KVLine}
    {l : KVLine} (hok : ∀ x ∈ ls ++ l :: rs, x.OK) {v : Nat} {sec : S.Section}
    (hacc : S.fromStr v (kvText eol ls) = .ok sec) (hnew : l.key ∉ ls.map KVLine.key)
    {k : S.Key} (hk : S.name k = l.key) {e : S.Err} (hp : S.parse k v l.value = .err e) :
    S.fromStr v (kvText eol (ls ++ l :: rs)) = .err ⟨ls.length, .field e⟩ :=
  Schema.fromStr_badValue hS he hok hacc hnew hk hp

example : (Editor Dec96).fromStr 14 c!"GridSize:x\nBookmarks:1" = .err ⟨0, .field (.parseInt .invalidDigit)⟩ :=
  C06_bad_value (Editor_lawful Dec96) (ls := []) (rs := [⟨c!"Bookmarks", [], c!"1"⟩]) (l := ⟨c!"GridSize", [], c!"x"⟩) (k := EKey.gridSize)
    (sec := fun _ => none) (.inl rfl)
    (by
      intro x hx
      rcases List.mem_cons.1 hx with rfl | hx
      · exact ⟨by decide, .cons (by decide), by decide, by decide, .cons (by decide)⟩
      · rw [List.mem_singleton.1 hx]; exact ⟨by decide, .cons (by decide), by decide, by decide, .cons (by decide)⟩)
    (by rfl) (by decide) rfl (by rfl)

/-- C06: a line without a colon is reported at its line, whatever follows. -/
theorem C06_no_colon {S : Schema} {eol : Str} (he : IsEol eol) {ls : List KVLine} (hok : ∀ x ∈ ls, x.OK)
    {b t : Str} (hb : ':' ∉ b ∧ '\n' ∉ b) (hh : HeadNot isMultispace b) (hws : ¬ AllC isWs b)
    (ht : t = [] ∨ ∃ u, t = '\n' :: u) (v : Nat) :
    S.fromStr v (join eol (ls.map KVLine.text ++ [b]) ++ t) = .err ⟨ls.length, .invalidColonSet⟩ := by
  refine Schema.fromStr_noColon he hok ?_ hh hws ?_ v
  · intro c hc
    have e1 : c ≠ ':' := by rintro rfl; exact hb.1 hc
    have e2 : c ≠ '\n' := by rintro rfl; exact hb.2 hc
    simp [e1, e2]
  · rcases ht with rfl | ⟨u, rfl⟩
    · exact .nil
    · exact .cons (by decide)

example : Metadata.fromStr 14 c!"Title: a\nArtist:b c\nno colon \nTitle: b" = .err ⟨2, .invalidColonSet⟩ :=
  C06_no_colon (.inl rfl) two_ok (b := c!"no colon ") (by decide) (.cons (by decide)) (by decide) (.inr ⟨c!"Title: b", rfl⟩) 14

/-- C06: every text is, in one way, a list of `key: value` entries and a rest whose first line has no colon. -/
theorem C06_split (s : Str) : ∃ es r, KVSplits s es r ∧ ∀ es' r', KVSplits s es' r' → es' = es ∧ r' = r := by
  obtain ⟨es, r, h⟩ := kvSplits_exists s
  exact ⟨es, r, h, fun _ _ h' => kvSplits_unique h' h⟩

/-- The two lines of this text are one entry and a rest without entries; no other division exists. -/
example : ∃ es r, KVSplits c!"Title:a\nArtist" es r ∧ ∀ es' r', KVSplits c!"Title:a\nArtist" es' r' → es' = es ∧ r' = r :=
  C06_split _

/-- C06: which of all texts are accepted, and what they mean. -/
theorem C06_any_text_accepted {S : Schema} (hS : S.Lawful) (v : Nat) (s : Str) (sec : S.Section) :
    S.fromStr v s = .ok sec ↔ ∃ es r, KVSplits s es r ∧ Blank r ∧ (es.map fun e => e.1.key).Nodup ∧
      (∀ e ∈ es, ∃ k, S.name k = e.1.key ∧ S.parse k v e.1.value = .ok (sec k)) ∧
      (∀ k, (∀ e ∈ es, e.1.key ≠ S.name k) → sec k = none) := by
  rw [Schema.fromStr_ok_iff hS]
  simp only [trim_eq_nil]
  rfl

example : ∃ es r, KVSplits c!"Title: a\nArtist:b c" es r ∧ Blank r ∧ (es.map fun e => e.1.key).Nodup :=
  have ⟨es, r, h1, h2, h3, _⟩ := (C06_any_text_accepted Metadata_lawful 14 c!"Title: a\nArtist:b c" titleArtist).1 (two_read _ (.inl rfl))
  ⟨es, r, h1, h2, h3⟩

/-- C06: which texts are rejected because of a line without colon; this takes precedence over everything else. -/
theorem C06_any_text_no_colon {S : Schema} (v : Nat) (s : Str) (n : Nat) :
    S.fromStr v s = .err ⟨n, .invalidColonSet⟩ ↔ ∃ es r, KVSplits s es r ∧ ¬Blank r ∧ n = kvCount es := by
  rw [Schema.fromStr_colon_iff]
  simp only [ne_eq, trim_eq_nil]
  rfl

example : Metadata.fromStr 14 c!"Title:a\nArtist" = .err ⟨1, .invalidColonSet⟩ ∧
    ∃ es r, KVSplits c!"Title:a\nArtist" es r ∧ ¬Blank r ∧ 1 = kvCount es :=
  ⟨by rfl, (C06_any_text_no_colon (S := Metadata) 14 _ 1).1 (by rfl)⟩

/-- C06: which texts are rejected because of a repeated key. -/
theorem C06_any_text_duplicate {S : Schema} (hS : S.Lawful) (v : Nat) (s : Str) (n : Nat) :
    S.fromStr v s = .err ⟨n, .duplicateField⟩ ↔ ∃ pre e post r, KVSplits s (pre ++ e :: post) r ∧ Blank r ∧
      S.Accepts v pre ∧ n = kvCount pre ∧ ∃ e' ∈ pre, e'.1.key = e.1.key := by
  rw [Schema.fromStr_stops hS v s _ rfl (by intro n h; cases h)]
  simp only [trim_eq_nil]
  constructor
  · rintro ⟨pre, e, post, r, h1, h2, h3, h4⟩
    cases h4 with | duplicate h => exact ⟨pre, e, post, r, h1, h2, h3, rfl, by simpa [toFieldLine] using h⟩
  · rintro ⟨pre, e, post, r, h1, h2, h3, rfl, h⟩
    exact ⟨pre, e, post, r, h1, h2, h3, .duplicate (by simpa [toFieldLine] using h)⟩

example : ∃ pre e post r, KVSplits c!"Title: a\nTitle:b" (pre ++ e :: post) r ∧ 1 = kvCount pre ∧ ∃ e' ∈ pre, e'.1.key = e.1.key :=
  have ⟨pre, e, post, r, h1, _, _, h4, h5⟩ := (C06_any_text_duplicate Metadata_lawful 14 c!"Title: a\nTitle:b" 1).1 (by rfl)
  ⟨pre, e, post, r, h1, h4, h5⟩

/-- C06: which texts are rejected because of an unknown key. -/
theorem C06_any_text_unknown {S : Schema} (hS : S.Lawful) (v : Nat) (s : Str) (n : Nat) :
    S.fromStr v s = .err ⟨n, .invalidKey⟩ ↔ ∃ pre e post r, KVSplits s (pre ++ e :: post) r ∧ Blank r ∧
      S.Accepts v pre ∧ n = kvCount pre ∧ ∀ k, S.name k ≠ e.1.key := by
  rw [Schema.fromStr_stops hS v s _ rfl (by intro n h; cases h)]
  simp only [trim_eq_nil]
  constructor
  · rintro ⟨pre, e, post, r, h1, h2, h3, h4⟩
    cases h4 with | unknown h hk => exact ⟨pre, e, post, r, h1, h2, h3, rfl, hk⟩
  · rintro ⟨pre, e, post, r, h1, h2, h3, rfl, hk⟩
    refine ⟨pre, e, post, r, h1, h2, h3, .unknown ?_ hk⟩
    intro hm
    obtain ⟨e', he', heq⟩ := List.mem_map.1 hm
    obtain ⟨k, x, hk', -⟩ := h3.2 e' he'
    exact hk k (by rw [hk']; exact heq)

example : ∃ pre e post r, KVSplits c!"Title: a\nColour:b" (pre ++ e :: post) r ∧ 1 = kvCount pre ∧ ∀ k, Metadata.name k ≠ e.1.key :=
  have ⟨pre, e, post, r, h1, _, _, h4, h5⟩ := (C06_any_text_unknown Metadata_lawful 14 c!"Title: a\nColour:b" 1).1 (by rfl)
  ⟨pre, e, post, r, h1, h4, h5⟩

/-- C06: which texts are rejected because of a value. -/
theorem C06_any_text_bad_value {S : Schema} (hS : S.Lawful) (v : Nat) (s : Str) (n : Nat) (err : S.Err) :
    S.fromStr v s = .err ⟨n, .field err⟩ ↔ ∃ pre e post r, KVSplits s (pre ++ e :: post) r ∧ Blank r ∧
      S.Accepts v pre ∧ n = kvCount pre ∧ (∀ e' ∈ pre, e'.1.key ≠ e.1.key) ∧
      ∃ k, S.name k = e.1.key ∧ S.parse k v e.1.value = .err err := by
  rw [Schema.fromStr_stops hS v s _ rfl (by intro n h; cases h)]
  simp only [trim_eq_nil]
  constructor
  · rintro ⟨pre, e, post, r, h1, h2, h3, h4⟩
    cases h4 with | value h hk hp => exact ⟨pre, e, post, r, h1, h2, h3, rfl, by simpa [toFieldLine] using h, _, hk, hp⟩
  · rintro ⟨pre, e, post, r, h1, h2, h3, rfl, h, k, hk, hp⟩
    exact ⟨pre, e, post, r, h1, h2, h3, .value (by simpa [toFieldLine] using h) hk hp⟩

example : KVSplits c!"Title:a\n\n  Tags:\n\n" [(⟨c!"Title", [], c!"a"⟩, c!"\n\n  "), (⟨c!"Tags", [], []⟩, c!"\n\n")] [] :=
  ⟨.cons (l := ⟨c!"Title", [], c!"a"⟩) (gap := c!"\n\n  ") (s := c!"Tags:\n\n") (by decide) (by decide) (by decide)
    (by intro c r e; cases e; rfl) (by decide) (by intro c r e; cases e; rfl) (by intro c r e; cases e; rfl) (by decide)
    (.cons (l := ⟨c!"Tags", [], []⟩) (gap := c!"\n\n") (s := []) (by decide) (by decide) (by decide)
    (by intro c r e; cases e) (by decide) (by intro c r e; cases e; rfl) (by intro c r e; cases e) (by decide) (.nil _)),
    by intro a b h; simp at h⟩
example : (Metadata.fromStr 14 c!"Title: a\r\nArtist:b\r\nTitle: c" ).isErr = true := by decide
example : (KVLine.mk c!"Title" c!" " c!"a").OK :=
  ⟨by decide, .cons (by decide), by decide, by decide, .cons (by decide)⟩
example : (match Metadata.fromStr 14 c!"Title: a\r\nArtist:b\r\nTitle: c" with
  | .err e => some e | _ => none) = some ⟨2, .duplicateField⟩ := by rfl
example : (match Metadata.fromStr 14 c!"Title: a\nArtist b\nTitle: c" with
  | .err e => some e | _ => none) = some ⟨1, .invalidColonSet⟩ := by rfl

/-! ## C07 -/

section
variable {D : Type} [DecLib D]

/-- C07: `Countdown` is read and written exactly outside versions 3 and 4. -/
theorem C07_countdown (v : Nat) (x : Countdown) (s : Str) :
    ((Countdown.shw v x).isSome ↔ ¬ (3 ≤ v ∧ v ≤ 4)) ∧
    (3 ≤ v ∧ v ≤ 4 → Countdown.parse v s = .ok none) ∧
    (¬ (3 ≤ v ∧ v ≤ 4) → Countdown.parse v s ≠ .ok none) := by
  refine ⟨?_, ?_, ?_⟩
  · unfold Countdown.shw; split <;> simp_all
  · intro h; unfold Countdown.parse; rw [if_pos h]
  · intro h
    unfold Countdown.parse Countdown.fromRepr
    simp only [h, if_false]
    cases parseUsize s with
    | err e => simp
    | panic => simp
    | ok n =>
      simp only
      split
      · simp
      · simp
      · simp

example : Countdown.parse 4 c!"half" = .ok none ∧ Countdown.parse 5 c!"2" ≠ .ok none :=
  ⟨(C07_countdown 4 .half c!"half").2.1 (by decide), (C07_countdown 5 .half c!"2").2.2 (by decide)⟩

/-- C07: `SampleSet` is read and written exactly outside version 3. -/
theorem C07_sampleSet (v : Nat) (x : GSampleSet) (s : Str) :
    ((GSampleSet.shw v x).isSome ↔ v ≠ 3) ∧ (v = 3 → GSampleSet.parse v s = .ok none) ∧
    (v ≠ 3 → GSampleSet.parse v s ≠ .ok none) := by
  refine ⟨?_, ?_, ?_⟩
  · unfold GSampleSet.shw; split <;> simp_all
  · intro h; unfold GSampleSet.parse; rw [if_pos h]
  · intro h
    unfold GSampleSet.parse
    simp only [h, if_false]
    repeat' (split; · simp)
    simp

example : GSampleSet.parse 3 c!"Loud" = .ok none ∧ GSampleSet.parse 4 c!"Loud" ≠ .ok none :=
  ⟨(C07_sampleSet 3 .soft c!"Loud").2.1 rfl, (C07_sampleSet 4 .soft c!"Loud").2.2 (by decide)⟩

/-- C07: `OverlayPosition` is read and written exactly outside versions 3 to 13. -/
theorem C07_overlay (v : Nat) (x : OverlayPosition) (s : Str) :
    ((OverlayPosition.shw v x).isSome ↔ ¬ (3 ≤ v ∧ v ≤ 13)) ∧
    (3 ≤ v ∧ v ≤ 13 → OverlayPosition.parse v s = .ok none) ∧
    (¬ (3 ≤ v ∧ v ≤ 13) → OverlayPosition.parse v s ≠ .ok none) := by
  refine ⟨?_, ?_, ?_⟩
  · unfold OverlayPosition.shw; split <;> simp_all
  · intro h; unfold OverlayPosition.parse; rw [if_pos h]
  · intro h
    unfold OverlayPosition.parse
    simp only [h, if_false]
    repeat' (split; · simp)
    simp

example : OverlayPosition.parse 13 c!"Below" = .ok none ∧ OverlayPosition.parse 14 c!"Below" ≠ .ok none :=
  ⟨(C07_overlay 13 .below c!"Below").2.1 (by decide), (C07_overlay 14 .below c!"Below").2.2 (by decide)⟩

/-- C07: a mode that a version accepts exists in that version. -/
theorem C07_mode_read (v : Nat) (s : Str) (m : Mode) (h : Mode.parse v s = .ok (some m)) :
    m.existsIn v = true := by
  unfold Mode.parse at h
  split at h
  · cases h
  · cases h
  · simp only at h
    split at h
    · cases h
    · rename_i m' _
      split at h
      · cases h
      · rename_i h1
        split at h
        · cases h
        · rename_i h2
          split at h
          · cases h
          · rename_i h3
            cases h
            cases m <;> simp [Mode.existsIn] at h1 h2 h3 ⊢ <;> omega

example : Mode.existsIn 7 .catch = true := C07_mode_read 7 c!"2" .catch (by decide)

/-- C07: an existing mode is read back; a mode that does not exist in the version is dropped. -/
theorem C07_mode_roundtrip (v : Nat) (m : Mode) :
    Mode.parse v (natToStr m.repr) = .ok (if m.existsIn v then some m else none) := Mode.parse_shw v m

example : Mode.parse 6 c!"2" = .ok none ∧ Mode.parse 7 c!"2" = .ok (some .catch) := by decide

/-- C07: fields gated on writing. -/
theorem C07_written (v : Nat) :
    (∀ x : Str, (GKey.shw (D := D) .audioHash v x).isSome ↔ v ≤ 13) ∧
    (∀ x : List Int32, (GKey.shw (D := D) .editorBookmarks v x).isSome ↔ v ≤ 5) ∧
    (∀ x : Decimal D, (GKey.shw .editorDistanceSpacing v x).isSome ↔ v ≤ 5) ∧
    (∀ x : Int32, (EKey.shw (D := D) .currentTime v x).isSome ↔ v = 10) := by
  refine ⟨?_, ?_, ?_, ?_⟩
  · intro x; simp only [GKey.shw]; split <;> simp <;> omega
  · intro x; simp only [GKey.shw]; split <;> simp <;> omega
  · intro x; simp only [GKey.shw]; split <;> simp <;> omega
  · intro x; simp only [EKey.shw]; split <;> simp_all

example : (GKey.shw (D := Dec96) .audioHash 13 c!"a").isSome ∧ ¬(GKey.shw (D := Dec96) .audioHash 14 c!"a").isSome :=
  ⟨((C07_written 13).1 _).2 (by decide), fun h => absurd (((C07_written (D := Dec96) 14).1 _).1 h) (by decide)⟩

end

/-- C07: `Mode` is written in every version, also where it is not read: the field is lost when such a file is read. -/
theorem C07_false_mode : ∀ v, 3 ≤ v → v ≤ 9 → ∃ m t, Mode.shw v m = some t ∧ Mode.parse v t = .ok none := by
  intro v h1 h2
  refine ⟨.mania, _, rfl, ?_⟩
  rw [C07_mode_roundtrip]
  have : Mode.existsIn v .mania = false := by simp [Mode.existsIn]; omega
  rw [this]; rfl

example : Mode.parse 9 c!"3" = .ok none := by decide
example : Mode.parse 10 c!"3" = .ok (some .mania) := by decide

/-! ## C08 -/

/-- C08: every bookmark list is read back. -/
theorem C08_bookmarks_roundtrip (l : List Int32) : parseBookmarks (bookmarksToStr l) = .ok l :=
  parseBookmarks_bookmarksToStr l

example : parseBookmarks (bookmarksToStr [5, -2, 5]) = .ok [5, -2, 5] := C08_bookmarks_roundtrip _

/-- C08: a bookmark text is accepted exactly when it is empty or a comma separated list of integers. -/
theorem C08_bookmarks_accepts (s : Str) (l : List Int32) :
    parseBookmarks s = .ok l ↔
      (s = [] ∧ l = []) ∨ (splitOnC ',' s).map parseI32 = l.map .ok := by
  constructor
  · intro h
    rcases parseBookmarks_spec s with ⟨hs, h'⟩ | ⟨as, ha, h'⟩ | ⟨_, _, _, _, _, _, _, _, _, h'⟩
    · rw [h'] at h; cases h; exact .inl ⟨hs, rfl⟩
    · rw [h'] at h; cases h; exact .inr ha
    · rw [h'] at h; cases h
  · rintro (⟨rfl, rfl⟩ | h)
    · decide
    · rcases parseBookmarks_spec s with ⟨rfl, h'⟩ | ⟨as, ha, h'⟩ | ⟨_, ps, b, bs, as, e, h1, _, h3, _⟩
      · exfalso
        cases l with
        | nil => simp [splitOnC] at h
        | cons n l => simp [splitOnC, parseI32_nil] at h
      · rw [h'] ; rw [ha] at h; rw [map_ok_inj h]
      · exfalso
        have hb : parseI32 b ∈ (splitOnC ',' s).map parseI32 := List.mem_map.2 ⟨b, by simp [h1], rfl⟩
        rw [h, List.mem_map] at hb
        obtain ⟨n, _, hn⟩ := hb
        rw [h3] at hn; cases hn

example : parseBookmarks c!"5,+2,-03" = .ok [5, 2, -3] := (C08_bookmarks_accepts _ _).2 (.inr (by decide))

/-- C08: no text makes the bookmark parser panic. -/
theorem C08_bookmarks_no_panic (s : Str) : parseBookmarks s ≠ .panic := parseBookmarks_no_panic s

example : parseBookmarks c!"1,,2" ≠ .panic := C08_bookmarks_no_panic _

/-- C08: an empty piece is reported as a bad list, any other bad piece as an integer error. -/
theorem C08_bookmarks_error (s : Str) (e : FieldErr) (h : parseBookmarks s = .err e) :
    ∃ (ps : List Str) (b : Str) (bs : List Str) (ie : IntErr), splitOnC ',' s = ps ++ b :: bs ∧
      (∀ p ∈ ps, (parseI32 p).isOk = true) ∧ parseI32 b = .err ie ∧
      e = if b = [] then .invalidCommaList else .parseInt ie := by
  rcases parseBookmarks_spec s with ⟨_, h'⟩ | ⟨_, _, h'⟩ | ⟨_, ps, b, bs, as, ie, h1, h2, h3, h'⟩
  · rw [h'] at h; cases h
  · rw [h'] at h; cases h
  · rw [h'] at h; cases h
    refine ⟨ps, b, bs, ie, h1, ?_, h3, ?_⟩
    · intro p hp
      have : parseI32 p ∈ ps.map parseI32 := List.mem_map.2 ⟨p, hp, rfl⟩
      rw [h2, List.mem_map] at this
      obtain ⟨n, _, hn⟩ := this
      rw [← hn]; rfl
    · have : ie = .empty ↔ b = [] := by
        constructor
        · rintro rfl
          cases b with
          | nil => rfl
          | cons c r =>
            exfalso
            have aux : ∀ (ov : IntErr) (mx : Nat) (a : Nat) (t : Str), ov ≠ .empty →
                parseDigits ov mx a t ≠ .err .empty := by
              intro ov mx a t hov
              induction t generalizing a with
              | nil => simp [parseDigits]
              | cons c t ih =>
                rw [parseDigits]
                split
                · simp
                · split
                  · simpa using hov
                  · exact ih _
            unfold parseI32 parseSigned at h3
            simp only at h3
            have bnd : ∀ {α : Type} (r : Res IntErr Nat) (f : Nat → Res IntErr α), (∀ n, f n ≠ .err .empty) →
                r.bind f = .err .empty → r = .err .empty := by
              intro α r f hf hr
              cases r with
              | ok n => exact absurd hr (hf n)
              | err e => simpa [Res.bind] using hr
              | panic => cases hr
            have bnd2 : ∀ (r : Res IntErr Int) (f : Int → Res IntErr Int32), (∀ n, f n ≠ .err .empty) →
                r.bind f = .err .empty → r = .err .empty := by
              intro r f hf hr
              cases r with
              | ok n => exact absurd hr (hf n)
              | err e => simpa [Res.bind] using hr
              | panic => cases hr
            have h4 := bnd2 _ _ (by simp) h3
            split at h4
            · cases h4
            · split at h4
              · exact aux _ _ _ _ (by simp) (bnd _ _ (by simp) h4)
              · split at h4
                · exact aux _ _ _ _ (by simp) (bnd _ _ (by simp) h4)
                · exact aux _ _ _ _ (by simp) (bnd _ _ (by simp) h4)
        · rintro rfl
          rw [parseI32_nil] at h3; cases h3; rfl
      by_cases hb : b = []
      · rw [if_pos (this.2 hb), if_pos hb]
      · rw [if_neg (fun h => hb (this.1 h)), if_neg hb]

example : ∃ (ps : List Str) (b : Str) (bs : List Str), splitOnC ',' c!"5,-3,x,,7" = ps ++ b :: bs ∧ ∀ p ∈ ps, (parseI32 p).isOk = true :=
  have ⟨ps, b, bs, _, h1, h2, _⟩ := C08_bookmarks_error c!"5,-3,x,,7" (.parseInt .invalidDigit) (by decide)
  ⟨ps, b, bs, h1, h2⟩

/-- C08: for every text, the tags read from it print the same text. -/
theorem C08_tags_text (s : Str) : ∃ l, parseTags s = .ok l ∧ tagsToStr l = s :=
  ⟨_, parseTags_eq s, join_splitOnC ' ' s⟩

example : ∃ l, parseTags c!" a  b" = .ok l ∧ tagsToStr l = c!" a  b" := C08_tags_text _

/-- C08: every non-empty list of tags without blanks is read back. -/
theorem C08_tags_roundtrip (l : List Str) (h1 : l ≠ []) (h2 : ∀ t ∈ l, ' ' ∉ t) :
    parseTags (tagsToStr l) = .ok l := parseTags_tagsToStr h1 h2

example : parseTags c!"a  é" = .ok [c!"a", c!"", c!"é"] := C08_tags_roundtrip [c!"a", c!"", c!"é"] (by decide) (by decide)

/-- C08: no parsed tag has a blank. -/
theorem C08_tags_no_blank (s : Str) (l : List Str) (h : parseTags s = .ok l) : ∀ t ∈ l, ' ' ∉ t := by
  rw [parseTags_eq] at h
  cases h
  intro t ht hc
  have := splitOnC_chars ' ' s t ht ' ' hc
  simp at this

example : ∀ t ∈ [c!"a", c!"", c!"é"], ' ' ∉ t := C08_tags_no_blank c!"a  é" _ (by decide)

/-- The empty tag list (the type's default) is not read back: it prints as empty text, which is read as
one empty tag. -/
theorem C08_empty_tags_not_read_back : parseTags (tagsToStr []) ≠ .ok [] := by decide

example : parseBookmarks c!"1,,2" = .err .invalidCommaList := by decide
example : parseBookmarks c!"" = .ok [] := by decide
example : parseBookmarks c!"5,-3" = .ok [5, -3] := by decide

/-! ## C10 -/

/-- C10 is false: an id that is not an integer makes the parser panic. -/
theorem C10_false : ∃ s v, Metadata.fromStr v s = .panic := by
  refine ⟨c!"BeatmapID: x", 14, ?_⟩
  rfl

theorem MKey_parse_no_panic (k : MKey) (v : Nat) (s : Str) (h : MKey.parse k v s = .panic) :
    (k = .beatmapID ∨ k = .beatmapSetID) ∧ ∀ n, parseI32 s ≠ .ok n := by
  cases k <;> simp only [MKey.parse, textField] at h <;> try (cases h; done)
  case tags => rw [parseTags_eq] at h; cases h
  case beatmapID =>
    refine ⟨.inl rfl, fun n hn => ?_⟩
    unfold idField at h; rw [hn] at h; cases h
  case beatmapSetID =>
    refine ⟨.inr rfl, fun n hn => ?_⟩
    unfold idField at h; rw [hn] at h; cases h

/-- C10: a text panics exactly if it has no line without colon, and after entries that are accepted there is a new
`BeatmapID` or `BeatmapSetID` entry whose value is not an integer. -/
theorem C10_exact (v : Nat) (s : Str) : Metadata.fromStr v s = .panic ↔
    ∃ pre e post r, KVSplits s (pre ++ e :: post) r ∧ Blank r ∧ Metadata.Accepts v pre ∧
      (∀ e' ∈ pre, e'.1.key ≠ e.1.key) ∧ (e.1.key = c!"BeatmapID" ∨ e.1.key = c!"BeatmapSetID") ∧
      ∀ n, parseI32 e.1.value ≠ .ok n := by
  rw [Schema.fromStr_stops Metadata_lawful v s _ rfl (by intro n h; cases h)]
  simp only [trim_eq_nil]
  constructor
  · rintro ⟨pre, e, post, r, h1, h2, h3, h4⟩
    cases h4 with
    | @panic h k hk hp =>
      obtain ⟨h5, h6⟩ := MKey_parse_no_panic k v _ hp
      refine ⟨pre, e, post, r, h1, h2, h3, by simpa [toFieldLine] using h, ?_, h6⟩
      rcases h5 with rfl | rfl
      · exact .inl hk.symm
      · exact .inr hk.symm
  · rintro ⟨pre, e, post, r, h1, h2, h3, h, hk, hp⟩
    have hid : ∀ u, (∀ n, parseI32 u ≠ .ok n) → idField u = .panic := by
      intro u hu
      unfold idField
      cases hq : parseI32 u with
      | ok n => exact absurd hq (hu n)
      | err _ => rfl
      | panic => rfl
    refine ⟨pre, e, post, r, h1, h2, h3, ?_⟩
    rcases hk with hk | hk
    · exact .panic (k := MKey.beatmapID) (by simpa [toFieldLine] using h) hk.symm (hid _ hp)
    · exact .panic (k := MKey.beatmapSetID) (by simpa [toFieldLine] using h) hk.symm (hid _ hp)

example : Metadata.fromStr 14 c!"Title: x\nBeatmapID: 12x" = .panic ∧
    (Metadata.fromStr 14 c!"Title: x\nTitle: y\nBeatmapID: 12x").isErr = true := ⟨by rfl, by rfl⟩

/-! ## C42 / C50 for key/value sections -/

section
variable {D : Type} [DecLib D]

theorem General_stable : (General D).Stable := by
  intro k v s x t hs hp ht
  show GoodVal t ∧ GKey.parse k v t = .ok (some x)
  have hp' : GKey.parse k v s = .ok (some x) := hp
  have ht' : GKey.shw k v x = some t := ht
  have dec : ∀ y : Decimal D, decField s = .ok (some y) → DecOK y := by
    intro y hy
    simp only [decField, Res.ok.injEq, Option.some.injEq] at hy
    subst hy
    have := Decimal.ofStr_WF (D := D) s
    unfold Decimal.ofStr at this ⊢
    split
    · rename_i d hd; rw [hd] at this; exact this
    · rename_i hd; exact ⟨hd, (goodVal_iff s).1 hs⟩
  have hok : GKey.OK k x := by
    cases k <;> simp only [GKey.OK]
    case audioFilename => cases hp'; exact (goodVal_iff s).1 hs
    case audioHash => cases hp'; exact (goodVal_iff s).1 hs
    case skinPreference => cases hp'; exact (goodVal_iff s).1 hs
    case stackLeniency => exact dec x hp'
    case editorDistanceSpacing => exact dec x hp'
  obtain ⟨h1, h2⟩ := GKey.field v k x t hok ht'
  refine ⟨h1, ?_⟩
  rw [h2]
  have : GKey.existsIn v k x = true := by
    cases k <;> simp only [GKey.existsIn] <;> simp only [GKey.shw] at ht'
    case audioHash =>
      split at ht'
      · cases ht'
      · simp; omega
    case countdown =>
      have := (C07_countdown v x []).1.1 (by rw [ht']; rfl)
      simp; omega
    case sampleSet =>
      have := (C07_sampleSet v x []).1.1 (by rw [ht']; rfl)
      simp [this]
    case mode => exact C07_mode_read v s x hp'
    case overlayPosition =>
      have := (C07_overlay v x []).1.1 (by rw [ht']; rfl)
      simp; omega
    case editorBookmarks =>
      split at ht'
      · cases ht'
      · simp; omega
    case editorDistanceSpacing =>
      split at ht'
      · cases ht'
      · simp; omega
  simp [this]

theorem Editor_stable : (Editor D).Stable := by
  intro k v s x t hs hp ht
  show GoodVal t ∧ EKey.parse k v t = .ok (some x)
  have hp' : EKey.parse k v s = .ok (some x) := hp
  have ht' : EKey.shw k v x = some t := ht
  have dec : ∀ y : Decimal D, decField s = .ok (some y) → DecOK y := by
    intro y hy
    simp only [decField, Res.ok.injEq, Option.some.injEq] at hy
    subst hy
    have := Decimal.ofStr_WF (D := D) s
    unfold Decimal.ofStr at this ⊢
    split
    · rename_i d hd; rw [hd] at this; exact this
    · rename_i hd; exact ⟨hd, (goodVal_iff s).1 hs⟩
  have hok : EKey.OK k x := by
    cases k <;> simp only [EKey.OK]
    case distanceSpacing => exact dec x hp'
    case beatDivisor => exact dec x hp'
    case timelineZoom => exact dec x hp'
  obtain ⟨h1, h2⟩ := EKey.field v k x t hok ht'
  refine ⟨h1, ?_⟩
  rw [h2]
  have : EKey.existsIn v k x = true := by
    cases k <;> simp only [EKey.existsIn] <;> simp only [EKey.shw] at ht'
    split at ht'
    · cases ht'
    · rename_i h; simpa using h
  simp [this]

theorem Difficulty_stable : (Difficulty D).Stable := by
  intro k v s x t hs hp ht
  have hp' : decField s = .ok (some x) := hp
  cases ht
  cases hp'
  refine ⟨hs.decimal, ?_⟩
  show decField _ = _
  rw [decField_toStr (Decimal.ofStr_WF s)]; rfl

end

theorem Metadata_stable : Metadata.Stable := by
  intro k v s x t hs hp ht
  show GoodVal t ∧ MKey.parse k v t = .ok (some x)
  have hp' : MKey.parse k v s = .ok (some x) := hp
  have ht' : MKey.shw k v x = some t := ht
  have idf : ∀ n : Int32, GoodVal (i32ToStr n) ∧ idField (i32ToStr n) = .ok (some n) :=
    fun n => ⟨i32_good n, idField_i32 n⟩
  cases k <;> simp only [MKey.parse, textField] at hp' <;> simp only [MKey.shw] at ht' <;> cases ht'
  case tags =>
    rw [parseTags_eq] at hp'
    cases hp'
    have : tagsToStr (splitOnC ' ' s) = s := join_splitOnC ' ' s
    rw [this]
    exact ⟨hs, by simp [MKey.parse, parseTags_eq]⟩
  case beatmapID => exact idf x
  case beatmapSetID => exact idf x
  all_goals cases hp'; exact ⟨hs, rfl⟩

/-- Stability of a key/value section: what is read from *any* accepted text prints to a text that is
accepted, reads back as the written fields, and prints the same again. -/
theorem kv_stable {S : Schema} (hS : S.Lawful) (hst : S.Stable) {v : Nat} {s : Str} {sec : S.Section}
    (h : S.fromStr v s = .ok sec) :
    ∃ sec', S.fromStr v (S.toStr v sec) = .ok sec' ∧ S.toStr v sec' = S.toStr v sec ∧
      ∀ k x, sec' k = some x → sec k = some x := by
  refine ⟨S.written v sec, Schema.stable hS hst h, Schema.toStr_written v sec, ?_⟩
  intro k x hx
  unfold Schema.written at hx
  cases hy : sec k with
  | none => rw [hy] at hx; cases hx
  | some y =>
    rw [hy] at hx
    simp only at hx
    split at hx
    · exact hx
    · cases hx

section
variable {D : Type} [DecLib D]

theorem intField_no_panic (s : Str) : intField s ≠ .panic := by
  unfold intField
  cases h : parseI32 s with
  | ok n => simp
  | err e => simp
  | panic => exact absurd h (parseI32_no_panic s)

theorem boolField_no_panic (s : Str) : boolField s ≠ .panic := by
  unfold boolField
  cases h : parseZeroOneBool s with
  | ok n => simp
  | err e => simp
  | panic => exact absurd h (C09_no_panic s)

theorem parseUsize_no_panic' (s : Str) : parseUsize s ≠ .panic := parseUsize_no_panic s

/-- C50 (General): any text gives a section or an error. -/
theorem C50_general (v : Nat) (s : Str) : (General D).fromStr v s ≠ .panic := by
  apply Schema.fromStr_no_panic
  intro k t _
  show GKey.parse k v t ≠ .panic
  cases k <;> simp only [GKey.parse, textField, decField]
  case countdown =>
    unfold Countdown.parse
    split
    · simp
    · cases h : parseUsize t with
      | ok n => simp only; split <;> simp
      | err e => simp
      | panic => exact absurd h (parseUsize_no_panic t)
  case sampleSet => unfold GSampleSet.parse; repeat' (split; · simp)
                    simp
  case mode =>
    unfold Mode.parse
    cases h : parseUsize t with
    | ok n =>
      simp only
      split
      · simp
      · repeat' (split; · simp)
        simp
    | err e => simp
    | panic => exact absurd h (parseUsize_no_panic t)
  case overlayPosition => unfold OverlayPosition.parse; repeat' (split; · simp)
                          simp
  case editorBookmarks =>
    cases h : parseBookmarks t with
    | ok n => simp
    | err e => simp
    | panic => exact absurd h (parseBookmarks_no_panic t)
  all_goals first
    | exact intField_no_panic t
    | exact boolField_no_panic t
    | simp

example : (General Dec96).fromStr 14 c!"Mode: 9" ≠ .panic := C50_general _ _

/-- C50 (Editor): any text gives a section or an error. -/
theorem C50_editor (v : Nat) (s : Str) : (Editor D).fromStr v s ≠ .panic := by
  apply Schema.fromStr_no_panic
  intro k t _
  show EKey.parse k v t ≠ .panic
  cases k <;> simp only [EKey.parse, decField]
  case bookmarks =>
    cases h : parseBookmarks t with
    | ok n => simp
    | err e => simp
    | panic => exact absurd h (parseBookmarks_no_panic t)
  all_goals first
    | exact intField_no_panic t
    | simp

example : (Editor Dec96).fromStr 14 c!"Bookmarks: ,:\n:" ≠ .panic := C50_editor _ _

/-- C50 (Difficulty): any text gives a section or an error. -/
theorem C50_difficulty (v : Nat) (s : Str) : (Difficulty D).fromStr v s ≠ .panic := by
  apply Schema.fromStr_no_panic
  intro k t _ h
  cases h

example : (Difficulty Dec96).fromStr 3 c!"CircleSize" ≠ .panic := C50_difficulty _ _

/-- C42 for General. -/
theorem C42_general {v : Nat} {s : Str} {sec : (General D).Section} (h : (General D).fromStr v s = .ok sec) :
    ∃ sec', (General D).fromStr v ((General D).toStr v sec) = .ok sec' ∧
      (General D).toStr v sec' = (General D).toStr v sec ∧ ∀ k x, sec' k = some x → sec k = some x :=
  kv_stable (General_lawful D) General_stable h

example : ∃ sec', (General Dec96).fromStr 3 ((General Dec96).toStr 3 smallGeneral) = .ok sec' ∧
    (General Dec96).toStr 3 sec' = (General Dec96).toStr 3 smallGeneral :=
  have ⟨sec', h1, h2, _⟩ := C42_general (v := 3) (s := c!"AudioLeadIn: -5\nStackLeniency: much")
    (C04_general 3 smallGeneral smallGeneral_ok)
  have e : (General Dec96).toStr 3 (restrict (GKey.existsIn 3) smallGeneral) = (General Dec96).toStr 3 smallGeneral := by rfl
  ⟨sec', by rw [← e]; exact h1, by rw [← e]; exact h2⟩

/-- C42 for Editor. -/
theorem C42_editor {v : Nat} {s : Str} {sec : (Editor D).Section} (h : (Editor D).fromStr v s = .ok sec) :
    ∃ sec', (Editor D).fromStr v ((Editor D).toStr v sec) = .ok sec' ∧
      (Editor D).toStr v sec' = (Editor D).toStr v sec ∧ ∀ k x, sec' k = some x → sec k = some x :=
  kv_stable (Editor_lawful D) Editor_stable h

example : ∃ sec : (Editor Dec96).Section, (Editor Dec96).fromStr 14 c!"GridSize:+7\nCurrentTime: 007" = .ok sec ∧
    ∃ sec', (Editor Dec96).fromStr 14 ((Editor Dec96).toStr 14 sec) = .ok sec' ∧ (Editor Dec96).toStr 14 sec' = (Editor Dec96).toStr 14 sec := by
  refine ⟨_, by rfl, ?_⟩
  obtain ⟨sec', h1, h2, -⟩ := C42_editor (D := Dec96) (v := 14) (s := c!"GridSize:+7\nCurrentTime: 007") (by rfl)
  exact ⟨sec', h1, h2⟩

/-- C42 for Difficulty. -/
theorem C42_difficulty {v : Nat} {s : Str} {sec : (Difficulty D).Section}
    (h : (Difficulty D).fromStr v s = .ok sec) :
    (Difficulty D).fromStr v ((Difficulty D).toStr v sec) = .ok sec := by
  have := Schema.stable (Difficulty_lawful D) Difficulty_stable h
  rw [this]
  congr 1
  funext k
  unfold Schema.written
  cases sec k with
  | none => rfl
  | some x => rfl

example : (Difficulty Dec96).fromStr 14 c!"CircleSize:4\nApproachRate:9,3" = .ok smallDifficulty :=
  C42_difficulty (sec := smallDifficulty) (v := 14) (s := c!"ApproachRate: 9,3\r\n\r\nCircleSize:4") (by
    refine congrArg Res.ok ?_
    funext k; cases k <;> rfl)

end

/-- C42 for Metadata. -/
theorem C42_metadata {v : Nat} {s : Str} {sec : Metadata.Section} (h : Metadata.fromStr v s = .ok sec) :
    Metadata.fromStr v (Metadata.toStr v sec) = .ok sec := by
  rw [Schema.stable Metadata_lawful Metadata_stable h]
  congr 1
  funext k
  unfold Schema.written
  cases hx : sec k with
  | none => rfl
  | some x => cases k <;> rfl

example : ((Editor Dec96).fromStr 14 c!"Bookmarks: 1,2\nGridSize:x").isErr = true := by decide
example : (Metadata.fromStr 14 c!"Title:  a b \n\n  Tags: x  y\n").isOk = true := by decide

/-! ## C52 -/

/-- A difficulty section with only a tick rate. -/
def tickRateOnly (x : Decimal Dec96) : (Difficulty Dec96).Section := fun k =>
  match k with
  | .sliderTickRate => some x
  | _ => none

/-- C52 is false: same version and same key, but one value gets a blank after the colon and another does
not. -/
theorem C52_false :
    (Difficulty Dec96).toStr 3 (tickRateOnly (Decimal.ofStr c!"1")) = c!"SliderTickRate:1" ∧
    (Difficulty Dec96).toStr 3 (tickRateOnly (Decimal.ofStr c!"SliderTickRate")) =
      c!"SliderTickRate: SliderTickRate" := ⟨by decide, by decide⟩

/-- C52: the printed section. A blank follows the colon exactly if the version is 3 or 4 and the value is one of two
texts, whatever the key. -/
theorem C52_exact {D : Type} [DecLib D] (v : Nat) (sec : (Difficulty D).Section) :
    (Difficulty D).toStr v sec = join ['\n'] ([DKey.hpDrainRate, .circleSize, .overallDifficulty, .approachRate,
      .sliderMultiplier, .sliderTickRate].filterMap fun k => (sec k).map fun x : Decimal D => k.name ++ [':'] ++
        (if (v = 3 ∨ v = 4) ∧ (x.toStr = c!"SliderTickRate" ∨ x.toStr = c!"SliderMultipler") then [' '] else []) ++ x.toStr) := by
  unfold Schema.toStr
  congr 1
  show List.filterMap _ _ = List.filterMap _ _
  congr 1
  funext k
  unfold Schema.fieldStr
  cases hx : sec k with
  | none => rfl
  | some x =>
    show some (DKey.name k ++ [':'] ++ diffSpacing v x.toStr ++ x.toStr) = some _
    have : diffSpacing v x.toStr =
        if (v = 3 ∨ v = 4) ∧ (x.toStr = c!"SliderTickRate" ∨ x.toStr = c!"SliderMultipler") then [' '] else [] := by
      unfold diffSpacing
      by_cases hv : v = 3 ∨ v = 4
      · rw [if_pos (by omega)]
        by_cases h1 : x.toStr = c!"SliderTickRate"
        · rw [if_pos h1, if_pos ⟨hv, .inl h1⟩]
        · by_cases h2 : x.toStr = c!"SliderMultipler"
          · rw [if_neg h1, if_pos h2, if_pos ⟨hv, .inr h2⟩]
          · rw [if_neg h1, if_neg h2, if_neg (by simp only [h1, h2]; simp)]
      · rw [if_neg (by omega), if_neg (fun h => hv h.1)]
    rw [this]

example : (Difficulty Dec96).toStr 4 (tickRateOnly (Decimal.ofStr c!"SliderMultipler")) = c!"SliderTickRate: SliderMultipler" :=
  (C52_exact 4 _).trans (by decide)

/-- C52: so if all values are numbers, no line of the printed section has a blank, in any version. -/
theorem C52_numbers_no_blank {D : Type} [DecLib D] (v : Nat) (sec : (Difficulty D).Section)
    (h : ∀ k x, sec k = some x → ∃ d : D, DecLib.canon d ∧ x = .left d) :
    ' ' ∉ (Difficulty D).toStr v sec := by
  rw [Schema.toStr_eq]
  unfold kvText
  intro hc
  have hall : ∀ p ∈ ((Difficulty D).keys.filterMap ((Difficulty D).printed v sec)).map KVLine.text, ' ' ∉ p := by
    intro p hp hcp
    obtain ⟨l, hl, rfl⟩ := List.mem_map.1 hp
    obtain ⟨k, _, hk⟩ := List.mem_filterMap.1 hl
    unfold Schema.printed at hk
    cases hx : sec k with
    | none => rw [hx] at hk; cases hk
    | some x =>
      obtain ⟨d, hd, rfl⟩ := h k x hx
      rw [hx] at hk
      cases hk
      have hch : AllC isDecChar (DecLib.shw d) := DecLib.shw_chars _
      have hsp : diffSpacing v (DecLib.shw d) = [] := by
        unfold diffSpacing
        split
        · rw [if_neg, if_neg]
          · intro e; rw [e] at hch; revert hch; decide
          · intro e; rw [e] at hch; revert hch; decide
        · rfl
      have hname : ' ' ∉ DKey.name k := by cases k <;> exact (by decide)
      simp only [KVLine.text] at hcp
      rcases List.mem_append.1 hcp with h1 | h1
      · exact hname h1
      · rcases List.mem_cons.1 h1 with h2 | h2
        · revert h2; decide
        · rcases List.mem_append.1 h2 with h3 | h3
          · have h3' : ' ' ∈ diffSpacing v (DecLib.shw d) := h3
            rw [hsp] at h3'; cases h3'
          · have := hch ' ' h3; revert this; decide
  generalize hps : ((Difficulty D).keys.filterMap ((Difficulty D).printed v sec)).map KVLine.text = ps at *
  clear hps
  induction ps with
  | nil => cases hc
  | cons p ps ih =>
    cases ps with
    | nil => exact hall p (by simp) (by simpa [join] using hc)
    | cons q ps =>
      simp only [join] at hc
      rcases List.mem_append.1 hc with h1 | h1
      · rcases List.mem_append.1 h1 with h2 | h2
        · exact hall p (by simp) h2
        · revert h2; decide
      · exact ih h1 (fun r hr => hall r (by simp [hr]))

example : ' ' ∉ (Difficulty Dec96).toStr 3 (tickRateOnly (.left ⟨false, 15, 1⟩)) :=
  C52_numbers_no_blank 3 _ fun k x h => by
    cases k <;> simp only [tickRateOnly] at h <;> cases h
    exact ⟨_, by show Dec96.Canon _; decide, rfl⟩

end Osu
