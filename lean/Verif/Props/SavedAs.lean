/-
C85: what is left of a loaded file that is saved under some version; C42 for files, exactly.
-/
import Verif.Props.SaveAs

namespace Osu
open Parser Ev

section
variable {D : Type} [DecLib D]

/-! ### Specification -/

/-- What version `w` keeps of a file: the fields of `General` and `Editor` that exist, no colour transformations in version 14
and quotes around paths that need them, the defaults for what versions 3 and 4 do not write of timing points, no colours
before version 5, and what is read back of hit samples. -/
def savedAs (w : Nat) (f : OsuFile D) : OsuFile D :=
  { f with
    version := w
    general := f.general.map fun x => restrict (GKey.existsIn w) x
    editor := f.editor.map fun x => restrict (EKey.existsIn w) x
    events := f.events.map fun l => (l.filter (writtenIn w)).map quoted
    timingPoints := f.timingPoints.map fun l => l.map (tpDefaults w)
    colours := if w ≤ 4 then none else f.colours
    hitobjects := f.hitobjects.map fun l => l.map (hoBack w) }

/-- A file value, loaded from a file of its version, whose text in version `w` is read as what version `w` keeps: each section has
something to write, times and sample indices fit, a beat length from version 3 has no comma, a timing point from version 5 does
not end after its uninherited flag, file names of hit samples are not blanks, and no first line of a section begins with a blank. -/
structure KeptAs (w : Nat) (f : OsuFile D) : Prop where
  general : ∀ x, f.general = some x → (General D).toStr w x ≠ []
  editor : ∀ x, f.editor = some x → (Editor D).toStr w x ≠ []
  metadata : ∀ x, f.metadata = some x → Metadata.toStr w x ≠ []
  difficulty : ∀ x, f.difficulty = some x → (Difficulty D).toStr w x ≠ []
  events : ∀ x, f.events = some x → (w = 14 → ∃ e ∈ x, ∀ c, e ≠ .colourTransformation c) ∧ x ≠ [] ∧
    (w ≤ 4 → ∀ e ∈ x, ∀ t ∈ movedTimes e, -2147483624 ≤ t.toInt)
  colours : 5 ≤ w → f.colours ≠ some []
  points : ∀ x, f.timingPoints = some x → x ≠ [] ∧ FirstPlain (x.map TimingPoint.time)
  index : 4 ≤ w → ∀ x, f.timingPoints = some x → ∀ t ∈ x, ∀ n, t.sampleIndex = .index n → n.toNat ≤ 2147483647
  beatLength : f.version = 3 → 4 ≤ w → ∀ x, f.timingPoints = some x → ∀ t ∈ x, ',' ∉ t.beatLength.text
  flags : f.version = 5 → 6 ≤ w → ∀ x, f.timingPoints = some x → ∀ t ∈ x, t.effects = none → t.uninherited = none
  objects : ∀ x, f.hitobjects = some x → x ≠ [] ∧ FirstPlain (x.map fun o => o.position.x)
  filename : 12 ≤ w → ∀ x, f.hitobjects = some x → ∀ o ∈ x, ∀ h, o.hitsample = some h → h.filename = [] ∨ blanks h.filename = false
  slider : w = 3 → ∀ x, f.hitobjects = some x → ∀ o ∈ x, ∀ p, o.params = .slider p →
    ∀ c ∈ ['|', '\r'], c ∉ o.position.x.text ∧ c ∉ o.position.y.text
  pointTimes : f.version ≤ 4 ∨ w ≤ 4 → ∀ x, f.timingPoints = some x → ∀ t ∈ x, ∀ d, t.time = .left d → TimeBack w d
  objectTimes : f.version ≤ 4 ∨ w ≤ 4 → ∀ x, f.hitobjects = some x → ∀ o ∈ x, ∀ d, timeNumber o d → TimeBack w d

/-- The game mode exists in version `w`. -/
def ModeIn (w : Nat) (f : OsuFile D) : Prop := ∀ x : (General D).Section, f.general = some x → ∀ m : Mode, x .mode = some m → m.existsIn w = true

/-! ### Proof -/

theorem tpDefaults_survives {v w : Nat} (hv : 3 ≤ v) (hw : 3 ≤ w) {s : Str} {t : TimingPoint D} (h : TimingPoint.parse v s = .ok t)
    (ht : v ≤ 4 ∨ w ≤ 4 → ∀ d, t.time = .left d → TimeBack w d)
    (hi : 4 ≤ w → ∀ n, t.sampleIndex = .index n → n.toNat ≤ 2147483647) (hb : v = 3 → 4 ≤ w → ',' ∉ t.beatLength.text)
    (h56 : v = 5 → 6 ≤ w → t.effects = none → t.uninherited = none) : TPSurvives w (tpDefaults w t) := by
  obtain ⟨g1, g2, g3, g4, g5, g6⟩ := tp_parts_at hv hw h ht hi hb h56
  unfold tpDefaults
  by_cases h3 : w ≤ 3
  · rw [if_pos h3]
    exact ⟨g1, g2, fun h => absurd h (by omega), fun _ => trivial, fun h => absurd h (by omega), fun h => absurd h (by omega),
      fun _ => ⟨rfl, rfl, rfl⟩, fun _ => ⟨rfl, rfl, rfl⟩⟩
  · rw [if_neg h3]
    by_cases h4 : w = 4
    · rw [if_pos h4]
      exact ⟨g1, g2, g3, g4, fun h => absurd h (by omega), fun h => absurd h (by omega), fun h => absurd h (by omega), fun _ => ⟨rfl, rfl, rfl⟩⟩
    · rw [if_neg h4]
      exact ⟨g1, g2, g3, g4, g5, g6, fun h => absurd h (by omega), fun h => absurd h (by omega)⟩

theorem tpDefaults_time (w : Nat) (t : TimingPoint D) : (tpDefaults w t).time = t.time ∧ (tpDefaults w t).beatLength = t.beatLength := by
  unfold tpDefaults
  split
  · exact ⟨rfl, rfl⟩
  · split <;> exact ⟨rfl, rfl⟩

/-- What is read back of a hit sample that was read. -/
theorem sampleBack_survives {w : Nat} (hw : 3 ≤ w) {s : Str} {h : HO.HitSample} (hr : SampleReads (splitOnC ':' s) h)
    (hf : 12 ≤ w → h.filename = [] ∨ blanks h.filename = false) (h9 : ¬ NoSample w) :
    ∃ h', sampleBack w h = some h' ∧ SampleSurvives w h' := by
  obtain ⟨h1, h2, h3, h4, h5⟩ := sample_read hr
  unfold sampleBack
  rw [if_neg h9]
  by_cases hs : ShortSample w
  · rw [if_pos hs]
    exact ⟨_, rfl, h1, h2, h3, fun _ => ⟨rfl, rfl⟩, nofun, nofun, .inl rfl⟩
  · rw [if_neg hs]
    refine ⟨_, rfl, h1, h2, h3, fun h => absurd h hs, h4, h5, hf ?_⟩
    unfold NoSample at h9
    unfold ShortSample at hs
    omega

theorem tailBack_survives {w : Nat} (hw : 3 ≤ w) {qs : List Str} {o : Option HO.HitSample} (ht : SampleTail qs o)
    (hf : 12 ≤ w → ∀ h, o = some h → h.filename = [] ∨ blanks h.filename = false) : TailSurvives w (o.bind (sampleBack w)) := by
  intro h' hh
  obtain ⟨h, rfl, hb⟩ := Option.bind_eq_some_iff.1 hh
  have h9 : ¬ NoSample w := by
    intro h9
    unfold sampleBack at hb
    rw [if_pos h9] at hb
    cases hb
  refine ⟨h9, ?_⟩
  cases qs with
  | nil => cases ht
  | cons q qs =>
    obtain ⟨x, hr, e⟩ := ht
    cases e
    obtain ⟨x, e, hx⟩ := sampleBack_survives hw hr (fun h12 => hf h12 _ rfl) h9
    rw [e] at hb; cases hb
    exact hx

theorem hoBack_position (w : Nat) (o : HitObject D) : (hoBack w o).position = o.position ∧ (hoBack w o).time = o.time := by
  unfold hoBack
  cases o.params <;> exact ⟨rfl, rfl⟩

theorem hoBack_survives {v w : Nat} (hw : 3 ≤ w) {s : Str} {o : HitObject D} (h : HitObject.parse v s = .ok o) (hlf : '\n' ∉ s)
    (ht : v ≤ 4 ∨ w ≤ 4 → ∀ d, timeNumber o d → TimeBack w d)
    (hf : 12 ≤ w → ∀ h, o.hitsample = some h → h.filename = [] ∨ blanks h.filename = false)
    (hb : w = 3 → ∀ p, o.params = .slider p → ∀ c ∈ ['|', '\r'], c ∉ o.position.x.text ∧ c ∉ o.position.y.text) :
    HOSurvives w (hoBack w o) := by
  have hskip := C24_combo_skip_read h
  have htx := fun (t : Str) (ht : t ∈ o.texts) => fun hm => hlf (ho_texts h (by decide) (List.mem_append_left _ ht) hm)
  have ht : v ≤ 4 ∨ w ≤ 4 → ∀ d, timeNumber o d → TimeSurvives w (.left d) := fun a d e => (timeBack_iff hw).2 (ht a d e)
  have h' := HitObject.parse_iff.1 h
  have hch : ∀ p ∈ splitOnC ',' s, ',' ∉ p := fun p hp => noC_mem.1 (splitOnC_chars ',' s p hp)
  generalize hps : splitOnC ',' s = ps at h' hch
  have head : ∀ {x y t ty hs : Str} {n : Int32} {rest : List Str}, ps = x :: y :: t :: rest → HOHead v x y t ty hs n o →
      FieldSurvives o.position.x ∧ FieldSurvives o.position.y ∧ TimeSurvives w o.time := by
    intro x y t ty hs n rest e hh
    rw [e] at hch
    refine ⟨?_, ?_, time_at hh.time (hch t (by simp)) fun a d e => ht a d (.inl e)⟩
    · rw [hh.x]; exact ofStr_field (hch x (by simp))
    · rw [hh.y]; exact ofStr_field (hch y (by simp))
  cases h' with
  | @circle x y t ty hs qs n o hh h0 hp hq =>
    obtain ⟨h1, h2, h3⟩ := head rfl hh
    unfold hoBack
    rw [hp]
    refine ⟨h1, h2, h3, hskip, ?_⟩
    show if w = 3 then (if w = 3 then some HO.HitSample.default else _) = some HO.HitSample.default else TailSurvives w (if w = 3 then _ else _)
    by_cases h3 : w = 3
    · rw [if_pos h3, if_pos h3]
    · rw [if_neg h3, if_neg h3]
      exact tailBack_survives hw hq hf
  | @spinner x y t ty hs e qs n o et hh h0 h1 h3 hp he hq =>
    obtain ⟨g1, g2, g3⟩ := head rfl hh
    unfold hoBack
    rw [hp]
    exact ⟨g1, g2, g3, hskip, time_at he (hch e (by simp)) fun a d e' => ht a d (.inr (.inl (e' ▸ hp))), tailBack_survives hw hq hf⟩
  | @hold x y t ty hs q qs n o et hh h0 h1 h3 h7 hp hq =>
    obtain ⟨g1, g2, g3⟩ := head rfl hh
    obtain ⟨a, b, h', e, ha, het, hr, ho⟩ := hq
    unfold hoBack
    rw [hp]
    refine ⟨g1, g2, g3, hskip, hold_end_at het (noC_mem.1 (lacks_iff.1 ha)) fun a d e' => ht a d (.inr (.inr (e' ▸ hp))), ?_⟩
    show if NoSample w then some ((o.hitsample.bind (sampleBack w)).getD HO.HitSample.default) = some HO.HitSample.default else
      ∃ h, some ((o.hitsample.bind (sampleBack w)).getD HO.HitSample.default) = some h ∧ SampleSurvives w h
    rw [ho, Option.bind_some]
    by_cases h9 : NoSample w
    · rw [if_pos h9]
      unfold sampleBack
      rw [if_pos h9]; rfl
    · rw [if_neg h9]
      obtain ⟨x, e, hx⟩ := sampleBack_survives hw hr (fun h12 => hf h12 _ ho) h9
      rw [e]
      exact ⟨x, rfl, hx⟩
  | @slider x y t ty hs c m l qs n o p hh h0 h1 hp hq =>
    obtain ⟨g1, g2, g3⟩ := head rfl hh
    have hedge := hq.edges
    have hlfx : '\n' ∉ o.position.x.text ∧ '\n' ∉ o.position.y.text := ⟨htx _ (by simp [HitObject.texts]), htx _ (by simp [HitObject.texts])⟩
    unfold hoBack
    rw [hp]
    refine ⟨g1, g2, g3, hskip, curve_points hq.curve (hch c (by simp)), fun h3 d hd => ?_, ?_, ?_, ?_, ?_, ?_⟩
    · simp only [List.mem_cons, List.mem_nil_iff, or_false] at hd
      rcases hd with rfl | rfl | rfl
      · exact hb h3 p hp _ (by simp)
      · exact hb h3 p hp _ (by simp)
      · exact hlfx
    · show FieldSurvives p.length
      rw [hq.length]; exact ofStr_field (hch l (by simp))
    · show ∀ e ∈ p.edgeSets, _
      revert hedge
      generalize p.edgeSounds = v1; generalize p.edgeSoundsShort = v2; generalize p.edgeSets = v3
      generalize p.edgeSetsShort = v4; generalize o.hitsample = v5
      intro hedge
      cases hedge with
      | none => nofun
      | sounds => nofun
      | sets _ h2 => exact sets_named_last h2
      | sample _ h2 _ => exact sets_named h2
    · simp only [Bool.not_eq_true', decide_eq_false_iff_not, not_or, Classical.not_not]
      exact fun h => ⟨h.1, h.2.2⟩
    · simp only [Bool.not_eq_true', decide_eq_false_iff_not, not_or, Classical.not_not]
      rintro ⟨h1, -, h2⟩
      refine ⟨h1, ?_⟩
      cases he : o.hitsample with
      | none => rfl
      | some y => rw [he] at h2; exact absurd rfl h2
    · show TailSurvives w (o.hitsample.bind (sampleBack w))
      revert hedge hf
      generalize p.edgeSounds = v1; generalize p.edgeSoundsShort = v2; generalize p.edgeSets = v3
      generalize p.edgeSetsShort = v4; generalize o.hitsample = v5
      intro hf hedge
      cases hedge with
      | none => nofun
      | sounds => nofun
      | sets _ h2 => nofun
      | sample _ h2 ho => exact tailBack_survives hw ho hf

theorem quotePath_writable {cr : Bool} {p : FilePath} (h : PathWritableC cr p) : PathWritableC cr (quotePath p) := by
  unfold quotePath
  split
  · exact h
  · intro c hc
    simp only [List.mem_cons, List.mem_append, List.mem_nil_iff, or_false] at hc
    rcases hc with rfl | hc | rfl
    · cases cr <;> decide
    · exact h c hc
    · cases cr <;> decide

theorem quoted_fits {cr : Bool} {w : Nat} {e : Event D} (h : EvWritableC cr w e) : EvWritableC cr w (quoted e) := by
  refine ⟨?_, by rw [cmdsOf_quoted]; exact h.2⟩
  have h1 := h.1
  cases e with
  | background b => exact ⟨quotePath_writable h1.1, h1.2⟩
  | video b => exact ⟨h1.1, quotePath_writable h1.2.1, h1.2.2⟩
  | spriteLegacy b => exact ⟨quotePath_writable h1.1, h1.2⟩
  | animationLegacy b => exact ⟨quotePath_writable h1.1, h1.2⟩
  | sampleLegacy b => exact ⟨h1.1, quotePath_writable h1.2.1, h1.2.2⟩
  | audioSample b => exact ⟨quotePath_writable h1.1, h1.2⟩
  | object o =>
    obtain ⟨la, og, pos, ty, cs⟩ := o
    cases ty with
    | sprite f => exact ⟨h1.1, h1.2.1, h1.2.2.1, quotePath_writable h1.2.2.2⟩
    | animation n d l f => exact ⟨h1.1, h1.2.1, h1.2.2.1, h1.2.2.2.1, quotePath_writable h1.2.2.2.2⟩
  | comment s => exact h1
  | break_ b => exact h1
  | colourTransformation c => exact h1

theorem quoted_paths {e : Event D} {p : FilePath} (h : pathOf (quoted e) = some p) : PathPlain p := by
  cases e with
  | object o =>
    obtain ⟨la, og, pos, ty, cs⟩ := o
    cases ty with
    | sprite f => cases h; exact quotePath_plain _
    | animation n d l f => cases h; exact quotePath_plain _
  | comment s => cases h
  | break_ b => cases h
  | colourTransformation c => cases h
  | background b => cases h; exact quotePath_plain _
  | video b => cases h; exact quotePath_plain _
  | spriteLegacy b => cases h; exact quotePath_plain _
  | animationLegacy b => cases h; exact quotePath_plain _
  | sampleLegacy b => cases h; exact quotePath_plain _
  | audioSample b => cases h; exact quotePath_plain _

theorem movedTimes_quoted (e : Event D) : movedTimes (quoted e) = movedTimes e := by
  cases e with
  | object o =>
    obtain ⟨la, og, pos, ty, cs⟩ := o
    cases ty <;> rfl
  | _ => rfl

theorem writtenIn_iff {w : Nat} (hw : w ≤ 14) {e : Event D} : writtenIn w e = true ↔ (w = 14 → ∀ c, e ≠ .colourTransformation c) := by
  cases e with
  | colourTransformation c =>
    show decide (w < 14) = true ↔ _
    rw [decide_eq_true_eq]
    exact ⟨fun h e => absurd e (by omega), fun h => Nat.lt_of_le_of_ne hw fun e => h e c rfl⟩
  | _ => exact ⟨fun _ _ _ => nofun, fun _ => rfl⟩

theorem hoBack_texts {w : Nat} {o : HitObject D} {c : Char} (h : ∀ t ∈ o.texts, c ∉ t) : ∀ t ∈ (hoBack w o).texts, c ∉ t := by
  obtain ⟨pos, time, params, nc, sk, snd, smp⟩ := o
  have hs : ∀ x, smp.bind (sampleBack w) = some x → c ∉ x.filename := by
    intro x hx
    obtain ⟨y, rfl, hy⟩ := Option.bind_eq_some_iff.1 hx
    unfold sampleBack at hy
    split at hy
    · cases hy
    · split at hy
      · cases hy; nofun
      · cases hy
        exact h _ (by simp [HitObject.texts])
  intro t ht
  have base : ∀ t ∈ [pos.x.text, pos.y.text, time.text], c ∉ t := fun t ht => h t (by
    simp only [HitObject.texts, List.append_assoc, List.mem_append]; exact .inl ht)
  cases params with
  | hitCircle =>
    simp only [hoBack, HitObject.texts, List.append_nil, List.mem_append] at ht
    rcases ht with ht | ht
    · exact base t ht
    · by_cases h3 : w = 3
      · simp only [h3, if_true, List.mem_singleton] at ht
        subst ht; nofun
      · rw [if_neg h3] at ht
        cases hb : smp.bind (sampleBack w) with
        | none => rw [hb] at ht; cases ht
        | some x => rw [hb] at ht; rw [List.mem_singleton.1 ht]; exact hs x hb
  | slider p =>
    simp only [hoBack, HitObject.texts, List.append_assoc, List.mem_append] at ht
    rcases ht with ht | ht | ht
    · exact base t ht
    · exact h t (by simp only [HitObject.texts, List.append_assoc, List.mem_append]; exact .inr (.inl ht))
    · cases hb : smp.bind (sampleBack w) with
      | none => rw [hb] at ht; cases ht
      | some x => rw [hb] at ht; rw [List.mem_singleton.1 ht]; exact hs x hb
  | spinner e =>
    simp only [hoBack, HitObject.texts, List.append_assoc, List.mem_append] at ht
    rcases ht with ht | ht | ht
    · exact base t ht
    · exact h t (by simp only [HitObject.texts, List.append_assoc, List.mem_append]; exact .inr (.inl ht))
    · cases hb : smp.bind (sampleBack w) with
      | none => rw [hb] at ht; cases ht
      | some x => rw [hb] at ht; rw [List.mem_singleton.1 ht]; exact hs x hb
  | hold e =>
    simp only [hoBack, HitObject.texts, List.append_assoc, List.mem_append] at ht
    rcases ht with ht | ht | ht
    · exact base t ht
    · exact h t (by simp only [HitObject.texts, List.append_assoc, List.mem_append]; exact .inr (.inl ht))
    · rw [List.mem_singleton.1 ht]
      cases hb : smp.bind (sampleBack w) with
      | none => nofun
      | some x => exact hs x hb

/-- The text of a section depends only on the fields that exist, but for the game mode. -/
theorem general_restrict (w : Nat) (x : (General D).Section) (hm : ∀ m : Mode, x .mode = some m → m.existsIn w = true) :
    (General D).toStr w (restrict (GKey.existsIn w) x) = (General D).toStr w x := by
  have key : ∀ (k : GKey) (y : k.Val D), k ≠ .mode → GKey.existsIn w k y = false → GKey.shw k w y = none := by
    intro k y hk h
    cases k <;> simp [GKey.existsIn] at h hk <;> simp [GKey.shw, Countdown.shw, GSampleSet.shw, OverlayPosition.shw, h]
  unfold Schema.toStr
  congr 1
  apply congrArg (fun f => List.filterMap f (General D).keys)
  funext k
  unfold Schema.fieldStr restrict
  cases hx : x k with
  | none => rfl
  | some y =>
    cases he : GKey.existsIn w k y with
    | true => simp [Option.filter, he]
    | false =>
      by_cases hk : k = .mode
      · subst hk
        rw [show GKey.existsIn (D := D) w .mode y = Mode.existsIn w y from rfl, hm y hx] at he
        cases he
      · have := key k y hk he
        simp only [Option.filter, he]
        show none = match GKey.shw k w y with | none => none | some t => _
        rw [this]

theorem editor_restrict (w : Nat) (x : (Editor D).Section) : (Editor D).toStr w (restrict (EKey.existsIn w) x) = (Editor D).toStr w x := by
  have key : ∀ (k : EKey) (y : k.Val D), EKey.existsIn w k y = false → EKey.shw k w y = none := by
    intro k y h
    cases k <;> simp [EKey.existsIn] at h <;> simp [EKey.shw, h]
  unfold Schema.toStr
  congr 1
  apply congrArg (fun f => List.filterMap f (Editor D).keys)
  funext k
  unfold Schema.fieldStr restrict
  cases hx : x k with
  | none => rfl
  | some y =>
    cases he : EKey.existsIn w k y with
    | true => simp [Option.filter, he]
    | false =>
      have := key k y he
      simp only [Option.filter, he]
      show none = match EKey.shw k w y with | none => none | some t => _
      rw [this]

variable [UniLib]

/-- All but the general section of what is kept survives. -/
theorem kept_survives {s : Str} {f : OsuFile D} (h : OsuFile.parse s = .ok f) {w : Nat} (hw : 3 ≤ w ∧ w ≤ 14) (hf : KeptAs w f) :
    FileSurvives { savedAs w f with general := none } := by
  obtain ⟨hv, hosb, hbody⟩ := loaded_parts h
  refine ⟨hw, hosb, nofun, ?_, ?_, ?_, ?_, ?_, ?_, ?_⟩
  · intro x' hx'
    obtain ⟨x, hx, rfl⟩ := Option.map_eq_some_iff.1 (show f.editor.map _ = some x' from hx')
    rcases hbody .editor with ha | ⟨body, -, -, -, y, e1, e2⟩
    · rw [show f.editor = none from ha] at hx; cases hx
    · rw [hx] at e2; cases e2
      refine ⟨?_, fun k y hy => ?_⟩
      · show (Editor D).toStr w (restrict (EKey.existsIn w) x) ≠ []
        rw [editor_restrict]
        exact hf.editor x hx
      · obtain ⟨hy, hex⟩ := Option.filter_eq_some_iff.1 hy
        exact ⟨C04_editor_read e1 k y hy, hex⟩
  · intro x hx
    replace hx : f.metadata = some x := hx
    rcases hbody .metadata with ha | ⟨body, -, -, -, y, e1, e2⟩
    · rw [show f.metadata = none from ha] at hx; cases hx
    · rw [show f.metadata = some x from hx] at e2; cases e2
      exact ⟨hf.metadata x hx, fun k y hy => C04_metadata_read e1 k y hy⟩
  · intro x hx
    replace hx : f.difficulty = some x := hx
    rcases hbody .difficulty with ha | ⟨body, -, -, -, y, e1, e2⟩
    · rw [show f.difficulty = none from ha] at hx; cases hx
    · rw [show f.difficulty = some x from hx] at e2; cases e2
      exact ⟨hf.difficulty x hx, fun k y hy => C04_difficulty_read e1 k y hy⟩
  · intro x' hx'
    obtain ⟨x, hx, rfl⟩ := Option.map_eq_some_iff.1 (show f.events.map _ = some x' from hx')
    rcases hbody .events with ha | ⟨body, -, hb, -, y, e1, e2⟩
    · rw [show f.events = none from ha] at hx; cases hx
    · rw [hx] at e2; cases e2
      obtain ⟨h1, h2, h3⟩ := hf.events x hx
      refine ⟨?_, fun e he => ?_⟩
      · have : ∃ e ∈ x, writtenIn w e = true := by
          by_cases h14 : w = 14
          · obtain ⟨e, he, hc⟩ := h1 h14
            exact ⟨e, he, (writtenIn_iff hw.2).2 fun _ => hc⟩
          · obtain ⟨e, es, rfl⟩ := List.exists_cons_of_ne_nil h2
            exact ⟨e, by simp, (writtenIn_iff hw.2).2 fun e => absurd e h14⟩
        obtain ⟨e, he, hw⟩ := this
        intro hnil
        rw [List.map_eq_nil_iff, List.filter_eq_nil_iff] at hnil
        exact hnil e he hw
      · obtain ⟨e', he', rfl⟩ := List.mem_map.1 he
        obtain ⟨he', hwr⟩ := List.mem_filter.1 he'
        refine ⟨quoted_fits (evFits_at hw.1 ?_ (fun h4 => h3 h4 e' he') (C34_read_fits e1 e' he')), fun p => quoted_paths⟩
        rintro c rfl
        have : w < 14 := of_decide_eq_true hwr
        omega
  · intro x' hx'
    obtain ⟨x, hx, rfl⟩ := Option.map_eq_some_iff.1 (show f.timingPoints.map _ = some x' from hx')
    rcases hbody .timingPoints with ha | ⟨body, hne, hb, -, y, e1, e2⟩
    · rw [show f.timingPoints = none from ha] at hx; cases hx
    · rw [hx] at e2; cases e2
      have hlf : ∀ t ∈ x, '\n' ∉ t.time.text ∧ '\n' ∉ t.beatLength.text := fun t htx => by
        obtain ⟨l, hl, -, hp⟩ := parseLines_mem e1 t htx
        have hlf := noC_mem.1 (lines_noLF _ l hl)
        exact ⟨fun hm => hlf (tp_texts hp (.inl hm)), fun hm => hlf (tp_texts hp (.inr hm))⟩
      obtain ⟨k1, k2⟩ := hf.points x hx
      have etimes : (x.map (tpDefaults w)).map TimingPoint.time = x.map TimingPoint.time := by
        rw [List.map_map]
        exact List.map_congr_left fun t _ => (tpDefaults_time w t).1
      refine ⟨by simpa using k1, fun t' htx' => ?_, ?_⟩
      · obtain ⟨t, htx, rfl⟩ := List.mem_map.1 htx'
        obtain ⟨l, hl, -, hp⟩ := parseLines_mem e1 t htx
        refine ⟨tpDefaults_survives hv.1 hw.1 hp (fun h4 => hf.pointTimes h4 x hx t htx) (fun h4 => hf.index h4 x hx t htx)
          (fun h3 h4 => hf.beatLength h3 h4 x hx t htx) (fun h5 h6 => hf.flags h5 h6 x hx t htx), ?_⟩
        rw [(tpDefaults_time w t).1, (tpDefaults_time w t).2]
        exact hlf t htx
      · rw [etimes]
        refine (firstPlain_iff ?_ ?_).2 k2
        · intro d hd
          obtain ⟨t, ht, rfl⟩ := List.mem_map.1 hd
          exact (hlf t ht).1
        · intro d hd
          rw [← List.map_tail] at hd
          obtain ⟨t, ht, rfl⟩ := List.mem_map.1 hd
          exact items_rest (lead := TimingPoint.time) (fun _ _ => tp_lead) hb e1 t ht
  · intro x hx
    by_cases h4 : w ≤ 4
    · rw [show (savedAs w f).colours = if w ≤ 4 then none else f.colours from rfl, if_pos h4] at hx; cases hx
    rw [show (savedAs w f).colours = if w ≤ 4 then none else f.colours from rfl, if_neg h4] at hx
    rcases hbody .colours with ha | ⟨body, -, hb, -, y, e1, e2⟩
    · rw [show f.colours = none from ha] at hx; cases hx
    · rw [hx] at e2; cases e2
      refine ⟨?_, show 5 ≤ w by omega, fun c hc => ?_⟩
      · rintro rfl
        exact hf.colours (by omega) hx
      unfold Colours.parse at e1
      split at e1
      · cases e1
      · obtain ⟨l', h1, h2⟩ := Res.bind_eq_ok'.1 e1
        cases h2
        obtain ⟨_, _, _, h3⟩ := parseLines_mem h1 c hc
        exact C11_read_is_writable h3
  · intro x' hx'
    obtain ⟨x, hx, rfl⟩ := Option.map_eq_some_iff.1 (show f.hitobjects.map _ = some x' from hx')
    rcases hbody .hitobjects with ha | ⟨body, hne, hb, -, y, e1, e2⟩
    · rw [show f.hitobjects = none from ha] at hx; cases hx
    · rw [hx] at e2; cases e2
      have hlf : ∀ o ∈ x, ∀ t ∈ o.texts, '\n' ∉ t := fun o ho t ht hm => by
        obtain ⟨l, hl, -, hp⟩ := parseLines_mem e1 o ho
        exact noC_mem.1 (lines_noLF _ l hl) (ho_texts hp (by decide) (List.mem_append_left _ ht) hm)
      obtain ⟨k1, k2⟩ := hf.objects x hx
      have epos : (x.map (hoBack w)).map (fun o => o.position.x) = x.map fun o => o.position.x := by
        rw [List.map_map]
        exact List.map_congr_left fun o _ => by simp only [Function.comp, (hoBack_position w o).1]
      refine ⟨by simpa using k1, fun o' ho' => ?_, ?_⟩
      · obtain ⟨o, ho, rfl⟩ := List.mem_map.1 ho'
        obtain ⟨l, hl, -, hp⟩ := parseLines_mem e1 o ho
        exact ⟨hoBack_survives hw.1 hp (noC_mem.1 (lines_noLF _ l hl)) (fun h4 => hf.objectTimes h4 x hx o ho)
          (fun h12 => hf.filename h12 x hx o ho) (fun h3 => hf.slider h3 x hx o ho), hoBack_texts (hlf o ho)⟩
      · rw [epos]
        refine (firstPlain_iff ?_ ?_).2 k2
        · intro d hd
          obtain ⟨o, ho, rfl⟩ := List.mem_map.1 hd
          exact hlf o ho _ (by simp [HitObject.texts])
        · intro d hd
          rw [← List.map_tail] at hd
          obtain ⟨o, ho, rfl⟩ := List.mem_map.1 hd
          exact items_rest (lead := fun o : HitObject D => o.position.x) (fun _ _ => ho_lead) hb e1 o ho

omit [UniLib] in
/-- The mode of a file that was read exists in its version and in all later ones. -/
theorem mode_up {v w : Nat} {m : Mode} (hvw : v ≤ w) (hv : 3 ≤ v) (h : m.existsIn v = true) : m.existsIn w = true := by
  cases m <;> simp [Mode.existsIn] at h ⊢ <;> omega

theorem loaded_mode {s : Str} {f : OsuFile D} (h : OsuFile.parse s = .ok f) {w : Nat} (hvw : f.version ≤ w) : ModeIn w f := by
  intro x hx m hm
  obtain ⟨hv, -, hbody⟩ := loaded_parts h
  rcases hbody .general with ha | ⟨body, -, -, -, y, e1, e2⟩
  · rw [show f.general = none from ha] at hx; cases hx
  · rw [hx] at e2; cases e2
    obtain ⟨t, -, hp⟩ := Schema.fromStr_post (General_lawful D) e1 .mode m hm
    exact mode_up hvw hv.1 (C07_mode_read _ _ _ hp)

omit [UniLib] in
theorem hoBack_sample {w : Nat} (hw : 12 ≤ w) {o : HitObject D} {h : HO.HitSample} (hh : o.hitsample = some h) :
    (hoBack w o).hitsample = some h := by
  have hb : sampleBack w h = some h := by
    unfold sampleBack
    rw [if_neg (by unfold NoSample; omega), if_neg (by unfold ShortSample; omega)]
  unfold hoBack
  cases o.params with
  | hitCircle =>
    show (if w = 3 then _ else o.hitsample.bind (sampleBack w)) = _
    rw [if_neg (by omega), hh, Option.bind_some, hb]
  | slider p => show o.hitsample.bind (sampleBack w) = _; rw [hh, Option.bind_some, hb]
  | spinner e => show o.hitsample.bind (sampleBack w) = _; rw [hh, Option.bind_some, hb]
  | hold e => show some ((o.hitsample.bind (sampleBack w)).getD _) = _; rw [hh, Option.bind_some, hb]; rfl

omit [UniLib] in
theorem hoBack_times {w : Nat} {o : HitObject D} {d : D} (h : timeNumber o d) : timeNumber (hoBack w o) d := by
  rcases h with h | h | h
  · exact .inl ((hoBack_position w o).2.trans h)
  · exact .inr (.inl (by unfold hoBack; rw [h]))
  · exact .inr (.inr (by unfold hoBack; rw [h]))

/-- And only what can be kept survives. -/
theorem kept_of_survives {f : OsuFile D} {w : Nat} (hw : 3 ≤ w ∧ w ≤ 14) (hm : ModeIn w f) (h : FileSurvives (savedAs w f)) : KeptAs w f where
  general x hx := by
    rw [← general_restrict w x (hm x hx)]
    exact (h.general _ (congrArg (Option.map _) hx)).1
  editor x hx := by
    rw [← editor_restrict w x]
    exact (h.editor _ (congrArg (Option.map _) hx)).1
  metadata x hx := (h.metadata x hx).1
  difficulty x hx := (h.difficulty x hx).1
  events x hx := by
    obtain ⟨h1, h2⟩ := h.events _ (congrArg (Option.map _) hx)
    have h1 : x.filter (writtenIn w) ≠ [] := by simpa using h1
    obtain ⟨e, es, he⟩ := List.exists_cons_of_ne_nil h1
    obtain ⟨he, hwr⟩ := List.mem_filter.1 (show e ∈ x.filter (writtenIn w) by rw [he]; simp)
    refine ⟨fun h14 => ⟨e, he, (writtenIn_iff hw.2).1 hwr h14⟩, List.ne_nil_of_mem he, fun h4 e' he' t ht => ?_⟩
    refine moved_of_fits hw.1 (h2 (quoted e') (List.mem_map_of_mem (List.mem_filter.2 ⟨he', ?_⟩))).1 h4 t (by rw [movedTimes_quoted]; exact ht)
    exact (writtenIn_iff hw.2).2 fun e => absurd e (by omega)
  colours h5 hx := (h.colours [] (by show (if w ≤ 4 then none else f.colours) = _; rw [if_neg (by omega)]; exact hx)).1 rfl
  points x hx := by
    obtain ⟨h1, h2, h3⟩ := h.timingPoints _ (congrArg (Option.map _) hx)
    have etimes : (x.map (tpDefaults w)).map TimingPoint.time = x.map TimingPoint.time := by
      rw [List.map_map]
      exact List.map_congr_left fun t _ => (tpDefaults_time w t).1
    refine ⟨by simpa using h1, etimes ▸ (firstPlain_iff ?_ ?_).1 h3⟩
    · intro d hd
      obtain ⟨t, ht, rfl⟩ := List.mem_map.1 hd
      exact (h2 t ht).2.1
    · cases hm : (x.map (tpDefaults w)).map TimingPoint.time with
      | nil => nofun
      | cons d ds => rw [hm] at h3; exact h3.2
  index h4 x hx t ht n hn := by
    have := ((h.timingPoints _ (congrArg (Option.map _) hx)).2.1 _ (List.mem_map_of_mem ht)).1.index h4
    have e : (tpDefaults w t).sampleIndex = t.sampleIndex := by
      unfold tpDefaults
      rw [if_neg (by omega)]
      split <;> rfl
    rw [e, hn] at this
    exact this.2
  beatLength h3 h4 x hx t ht := by
    have := ((h.timingPoints _ (congrArg (Option.map _) hx)).2.1 _ (List.mem_map_of_mem ht)).1.beatLength
    rw [(tpDefaults_time w t).2] at this
    revert this
    cases hb : t.beatLength with
    | left d => intro _; simp [Decimal.text]
    | right q => exact fun this => this.2 h4
  flags _ h6 x hx t ht := by
    have := ((h.timingPoints _ (congrArg (Option.map _) hx)).2.1 _ (List.mem_map_of_mem ht)).1.effects h6
    have e : tpDefaults w t = t := by
      unfold tpDefaults
      rw [if_neg (by omega), if_neg (by omega)]
    rwa [e] at this
  objects x hx := by
    obtain ⟨h1, h2, h3⟩ := h.hitobjects _ (congrArg (Option.map _) hx)
    have epos : (x.map (hoBack w)).map (fun o => o.position.x) = x.map fun o => o.position.x := by
      rw [List.map_map]
      exact List.map_congr_left fun o _ => by simp only [Function.comp, (hoBack_position w o).1]
    refine ⟨by simpa using h1, epos ▸ (firstPlain_iff ?_ ?_).1 h3⟩
    · intro d hd
      obtain ⟨o, ho, rfl⟩ := List.mem_map.1 hd
      exact (h2 o ho).2 _ (by simp [HitObject.texts])
    · cases hm : (x.map (hoBack w)).map (fun o : HitObject D => o.position.x) with
      | nil => nofun
      | cons d ds => rw [hm] at h3; exact h3.2
  filename h12 x hx o ho y hy := by
    have := (sampleKept_of hw.1 ((h.hitobjects _ (congrArg (Option.map _) hx)).2.1 _ (List.mem_map_of_mem ho)).1).2 y (hoBack_sample h12 hy)
    rwa [if_neg (by omega), if_neg (by omega)] at this
  slider h3 x hx o ho p hp c hc := by
    have := ((h.hitobjects _ (congrArg (Option.map _) hx)).2.1 _ (List.mem_map_of_mem ho)).1.kind
    have e := (hoBack_position w o).1
    unfold hoBack at this e
    rw [hp] at this e
    have h' := SliderSurvives.position this h3 c (by
      simp only [List.mem_cons, List.mem_nil_iff, or_false] at hc ⊢
      rcases hc with rfl | rfl <;> simp)
    exact h'
  pointTimes _ x hx t ht d hd := by
    have := ((h.timingPoints _ (congrArg (Option.map _) hx)).2.1 _ (List.mem_map_of_mem ht)).1.time
    rw [(tpDefaults_time w t).1, hd] at this
    exact (timeBack_iff hw.1).1 this
  objectTimes _ x hx o ho d hd := times_of_survives hw.1
    ((h.hitobjects _ (congrArg (Option.map _) hx)).2.1 _ (List.mem_map_of_mem ho)).1 d (hoBack_times hd)

omit [DecLib D] [UniLib] in
theorem printLinesP_map {α β : Type} {f : α → Option Str} {g : β → Option Str} {b : α → β} {l : List α} (h : ∀ a ∈ l, g (b a) = f a) :
    printLinesP g (l.map b) = printLinesP f l := by
  unfold printLinesP
  have : (l.map b).mapM g = l.mapM f := by
    induction l with
    | nil => rfl
    | cons a l ih =>
      simp only [List.map_cons, List.mapM_cons]
      rw [h a (by simp), ih fun x hx => h x (by simp [hx])]
  rw [this]

/-- What is kept has the text of the whole, but for the general section, section by section. -/
theorem kept_prints {s : Str} {f : OsuFile D} (h : OsuFile.parse s = .ok f) {w : Nat} (hw : 3 ≤ w) {n : SName} (hn : n ≠ .general)
    {t : Option Str} : SectPrints (savedAs w f) t n ↔ SectPrints { f with version := w } t n := by
  obtain ⟨hv, hosb, hbody⟩ := loaded_parts h
  have opt : ∀ {α : Type} {o : Option α} {b : α → α} {g : α → Option Str}, (∀ x, o = some x → g (b x) = g x) →
      ((o.map b = none ∧ t = none ∨ ∃ x s, o.map b = some x ∧ g x = some s ∧ t = some s) ↔
        (o = none ∧ t = none ∨ ∃ x s, o = some x ∧ g x = some s ∧ t = some s)) := by
    intro α o b g hg
    cases o with
    | none => simp
    | some x => simp [hg x rfl]
  cases n
  case general => exact absurd rfl hn
  case editor =>
    show t = (f.editor.map _).map _ ↔ t = f.editor.map _
    cases hx : f.editor with
    | none => rfl
    | some x => exact iff_of_eq (congrArg (fun g => t = some g) (editor_restrict w x))
  case metadata => exact Iff.rfl
  case difficulty => exact Iff.rfl
  case colours =>
    show t = (if w ≤ 4 then none else f.colours).bind (Colours.shw w) ↔ t = f.colours.bind (Colours.shw w)
    by_cases h4 : w ≤ 4
    · rw [if_pos h4]
      have : f.colours.bind (Colours.shw w) = none := by
        cases f.colours with
        | none => rfl
        | some x => show Colours.shw w x = none; unfold Colours.shw; rw [if_pos ⟨hw, h4⟩]
      rw [this]; rfl
    · rw [if_neg h4]
  case events =>
    refine opt (o := f.events) (b := fun l => (l.filter (writtenIn w)).map quoted) (g := Events.shw w) fun x hx => ?_
    show Events.shwVars w [] _ = Events.shwVars w [] _
    rw [shwVars_quoted, shwVars_filter]
  case timingPoints =>
    refine opt (o := f.timingPoints) (b := fun l => l.map (tpDefaults w)) (g := TimingPoints.shw w) fun x hx => ?_
    exact printLinesP_map fun a _ => tpDefaults_shw w a
  case hitobjects =>
    refine opt (o := f.hitobjects) (b := fun l => l.map (hoBack w)) (g := HitObjects.shw w) fun x hx => ?_
    refine printLinesP_map fun o ho => C20_text_stable fun e he => .inr ?_
    rcases hbody .hitobjects with ha | ⟨body, hne, hb, -, y, e1, e2⟩
    · rw [show f.hitobjects = none from ha] at hx; cases hx
    · rw [hx] at e2; cases e2
      obtain ⟨l, hl, -, hp⟩ := parseLines_mem e1 o ho
      exact hold_sample_of_parse hp he

theorem kept_prints_general {f : OsuFile D} {w : Nat} (hm : ModeIn w f) {t : Option Str} :
    SectPrints (savedAs w f) t .general ↔ SectPrints { f with version := w } t .general := by
  show t = (f.general.map _).map _ ↔ t = f.general.map _
  cases hx : f.general with
  | none => rfl
  | some x => exact iff_of_eq (congrArg (fun g => t = some g) (general_restrict w x (hm x hx)))

/-- What is kept of the general section is well formed and read. -/
theorem kept_general {s : Str} {f : OsuFile D} (h : OsuFile.parse s = .ok f) {w : Nat} (hf : KeptAs w f) {x : (General D).Section}
    (hx : f.general = some x) : WellText ((General D).toStr w x) ∧ SectReads w (savedAs w f) ((General D).toStr w x) .general := by
  obtain ⟨hv, hosb, hbody⟩ := loaded_parts h
  rcases hbody .general with ha | ⟨body, -, -, -, y, e1, e2⟩
  · rw [show f.general = none from ha] at hx; cases hx
  · rw [hx] at e2; cases e2
    have hok := C04_general_read e1
    exact ⟨Schema.wellText (General_lawful D) general_bracket (fun k y t hy ht => (GKey.field _ k y t (hok k y hy) ht).1) (hf.general x hx),
      _, C04_general w x hok, congrArg (Option.map _) hx⟩

/-- What is kept survives, if the mode does. -/
theorem kept_all_survive {s : Str} {f : OsuFile D} (h : OsuFile.parse s = .ok f) {w : Nat} (hw : 3 ≤ w ∧ w ≤ 14) (hm : ModeIn w f)
    (hf : KeptAs w f) : FileSurvives (savedAs w f) := by
  have h0 := kept_survives h hw hf
  refine ⟨hw, h0.osb, fun x' hx' => ?_, h0.editor, h0.metadata, h0.difficulty, h0.events, h0.timingPoints, h0.colours, h0.hitobjects⟩
  obtain ⟨x, hx, rfl⟩ := Option.map_eq_some_iff.1 (show f.general.map _ = some x' from hx')
  obtain ⟨hv, hosb, hbody⟩ := loaded_parts h
  rcases hbody .general with ha | ⟨body, -, -, -, y, e1, e2⟩
  · rw [show f.general = none from ha] at hx; cases hx
  · rw [hx] at e2; cases e2
    refine ⟨?_, fun k y hy => ?_⟩
    · show (General D).toStr w (restrict (GKey.existsIn w) x) ≠ []
      rw [general_restrict w x (hm x hx)]
      exact hf.general x hx
    · obtain ⟨hy, hex⟩ := Option.filter_eq_some_iff.1 hy
      exact ⟨C04_general_read e1 k y hy, hex⟩

/-- Without carriage returns in the lines that were read the sections written have none at the ends of lines. -/
theorem kept_cleanEnds {s : Str} {f : OsuFile D} (h : OsuFile.parse s = .ok f) (hs : NoBareCR s) {w : Nat} (hw : 3 ≤ w ∧ w ≤ 14)
    (hf : KeptAs w f) {n : SName} {t : Str} (hp : SectPrints { f with version := w } (some t) n) : CleanEnds t := by
  obtain ⟨hv, hosb, hbody⟩ := loaded_parts h
  have hsv := kept_survives h hw hf
  cases n
  case general =>
    obtain ⟨sec, hx, rfl⟩ := Option.map_eq_some_iff.1 (show some t = f.general.map _ from hp).symm
    exact wellText_cleanEnds (kept_general h hf hx).1
  case editor =>
    obtain ⟨sec, hx, rfl⟩ := Option.map_eq_some_iff.1 (show some t = f.editor.map _ from hp).symm
    rcases hbody .editor with ha | ⟨body, -, -, -, y, e1, e2⟩
    · rw [show f.editor = none from ha] at hx; cases hx
    · rw [show f.editor = some sec from hx] at e2; cases e2
      exact wellText_cleanEnds (Schema.wellText (Editor_lawful D) editor_bracket
        (fun k x t hx ht => (EKey.field _ k x t (C04_editor_read e1 k x hx) ht).1) (hf.editor sec hx))
  case metadata =>
    obtain ⟨sec, hx, rfl⟩ := Option.map_eq_some_iff.1 (show some t = f.metadata.map _ from hp).symm
    obtain ⟨h1, h2⟩ := hsv.metadata sec hx
    exact wellText_cleanEnds (Schema.wellText Metadata_lawful metadata_bracket (fun k x t hx ht => (MKey.field _ k x t (h2 k x hx) ht).1) h1)
  case difficulty =>
    obtain ⟨sec, hx, rfl⟩ := Option.map_eq_some_iff.1 (show some t = f.difficulty.map _ from hp).symm
    obtain ⟨h1, h2⟩ := hsv.difficulty sec hx
    exact wellText_cleanEnds (Schema.wellText (Difficulty_lawful D) difficulty_bracket (fun k x t hx ht => by cases ht; exact DecOK.good (h2 k x hx)) h1)
  case colours =>
    obtain ⟨x, hx, ht⟩ := Option.bind_eq_some_iff.1 (show some t = f.colours.bind (Colours.shw w) from hp).symm
    refine wellText_cleanEnds (colours_wellText ht ?_)
    rintro rfl
    refine hf.colours ?_ hx
    unfold Colours.shw at ht
    split at ht
    · cases ht
    · omega
  case events =>
    rcases hp with ⟨-, h1⟩ | ⟨x, t', hx, ht, h1⟩
    · cases h1
    cases h1
    rcases hbody .events with ha | ⟨body, -, -, hb, y, e1, e2⟩
    · rw [show f.events = none from ha] at hx; cases hx
    · rw [show f.events = some x from hx] at e2; cases e2
      obtain ⟨-, -, h2⟩ := hf.events x hx
      have ht' : Events.shwVars w [] (x.filter (writtenIn w)) = some t := (shwVars_filter w [] x).trans ht
      obtain ⟨t', g1, -, ls, rfl, g4, -⟩ := events_round_trip_fits (cr := false) (v := w) (evs := x.filter (writtenIn w))
        (fun e he => by
          obtain ⟨he, hwr⟩ := List.mem_filter.1 he
          refine evFits_at hw.1 ?_ (fun h4 => h2 h4 e he) (C34_read_is_writable (hb hs) e1 e he)
          rintro c rfl
          have : w < 14 := of_decide_eq_true hwr
          omega) nofun
      rw [show Events.shw w _ = some t from ht'] at g1; cases g1
      exact cleanEnds_lines g4
  case timingPoints =>
    rcases hp with ⟨-, h1⟩ | ⟨x, t', hx, ht, h1⟩
    · cases h1
    cases h1
    rcases hbody .timingPoints with ha | ⟨body, -, -, hb, y, e1, e2⟩
    · rw [show f.timingPoints = none from ha] at hx; cases hx
    · rw [show f.timingPoints = some x from hx] at e2; cases e2
      refine cleanEnds_of_noCR fun hc => ?_
      obtain ⟨a, ha, q, hq, hcq⟩ := items_char ht hc (by decide)
      obtain ⟨l, hl, -, hr⟩ := parseLines_mem e1 a ha
      exact body_line_noCR (hb hs) hl (tp_texts hr ((tp_line_char hq (by decide) (by decide) (by decide)).1 hcq))
  case hitobjects =>
    rcases hp with ⟨-, h1⟩ | ⟨x, t', hx, ht, h1⟩
    · cases h1
    cases h1
    rcases hbody .hitobjects with ha | ⟨body, -, -, hb, y, e1, e2⟩
    · rw [show f.hitobjects = none from ha] at hx; cases hx
    · rw [show f.hitobjects = some x from hx] at e2; cases e2
      refine cleanEnds_of_noCR fun hc => ?_
      obtain ⟨a, ha, q, hq, hcq⟩ := items_char ht hc (by decide)
      obtain ⟨l, hl, -, hr⟩ := parseLines_mem e1 a ha
      obtain ⟨z, hz, hcz⟩ := ho_line_lf hq (.inr rfl) hcq
      exact body_line_noCR (hb hs) hl (ho_texts hr (by decide) hz hcz)

/-- All sections of what is kept are printed. -/
theorem kept_all_print {s : Str} {f : OsuFile D} (h : OsuFile.parse s = .ok f) {w : Nat} (hw : 3 ≤ w ∧ w ≤ 14) (hf : KeptAs w f) :
    ∃ p : SName → Option Str, ∀ n, SectPrints { f with version := w } (p n) n := by
  obtain ⟨p, hp⟩ := survives_prints (kept_survives h hw hf)
  refine ⟨fun n => if n = .general then f.general.map ((General D).toStr w) else p n, fun n => ?_⟩
  by_cases hn : n = .general
  · subst hn; rfl
  · simp only [if_neg hn]
    refine (kept_prints h hw.1 hn).1 ?_
    have := hp n
    cases n
    case general => exact absurd rfl hn
    all_goals exact this

/-- The text of a value of which something is kept is read as that. -/
theorem kept_back {s : Str} {f : OsuFile D} (h : OsuFile.parse s = .ok f) {w : Nat} (hw : 3 ≤ w ∧ w ≤ 14) (hf : KeptAs w f)
    {p : SName → Option Str} (hp : ∀ n, SectPrints { f with version := w } (p n) n) (hc : ∀ n t, p n = some t → CleanEnds t) :
    ∃ t, OsuFile.shw { f with version := w } = some t ∧ OsuFile.parse t = .ok (savedAs w f) := by
  have h0 := kept_survives h hw hf
  have hosb := (loaded_parts h).2.1
  refine read_back (f := { f with version := w }) (g := savedAs w f) hw hp (fun n t hn => ?_) (fun n hn => ?_) rfl hosb
  · have hpn := hp n
    rw [hn] at hpn
    by_cases hg : n = .general
    · subst hg
      obtain ⟨x, hx, rfl⟩ := Option.map_eq_some_iff.1 (show some t = f.general.map _ from hpn).symm
      exact kept_general h hf hx
    · have hpn' : SectPrints { savedAs w f with general := none } (some t) n := by
        have := (kept_prints h hw.1 hg).2 hpn
        cases n
        case general => exact absurd rfl hg
        all_goals exact this
      obtain ⟨k1, k2⟩ := survives_sect hpn' (hc n t hn) h0
      refine ⟨k1, ?_⟩
      cases n
      case general => exact absurd rfl hg
      all_goals exact k2
  · have hpn := hp n
    rw [hn] at hpn
    cases n
    case general =>
      have : f.general = none := Option.map_eq_none_iff.1 (show none = f.general.map _ from hpn).symm
      exact congrArg (Option.map _) this
    case editor =>
      have : f.editor = none := Option.map_eq_none_iff.1 (show none = f.editor.map _ from hpn).symm
      exact congrArg (Option.map _) this
    case metadata => exact Option.map_eq_none_iff.1 (show none = f.metadata.map _ from hpn).symm
    case difficulty => exact Option.map_eq_none_iff.1 (show none = f.difficulty.map _ from hpn).symm
    case events =>
      rcases hpn with ⟨h1, -⟩ | ⟨_, _, _, _, h1⟩
      · exact congrArg (Option.map _) h1
      · cases h1
    case timingPoints =>
      rcases hpn with ⟨h1, -⟩ | ⟨_, _, _, _, h1⟩
      · exact congrArg (Option.map _) h1
      · cases h1
    case hitobjects =>
      rcases hpn with ⟨h1, -⟩ | ⟨_, _, _, _, h1⟩
      · exact congrArg (Option.map _) h1
      · cases h1
    case colours =>
      show (if w ≤ 4 then none else f.colours) = none
      by_cases h4 : w ≤ 4
      · rw [if_pos h4]
      rw [if_neg h4]
      cases hx : f.colours with
      | none => rfl
      | some x =>
        have hpn : none = f.colours.bind (Colours.shw w) := hpn
        rw [hx, Option.bind_some] at hpn
        unfold Colours.shw at hpn
        rw [if_neg (by omega)] at hpn
        cases hpn

/-! ### Theorems -/

/-- A loaded file of which version `w` keeps something of each section is written under that version. -/
theorem C85_written {s : Str} {f : OsuFile D} (h : OsuFile.parse s = .ok f) {w : Nat} (hw : 3 ≤ w ∧ w ≤ 14) (hf : KeptAs w f) :
    ∃ t, OsuFile.shw { f with version := w } = some t :=
  let ⟨p, hp⟩ := kept_all_print h hw hf
  ⟨_, shw_iff.2 ⟨p, hp, rfl⟩⟩

/-- The text written under version `w`, if no line of it ends in a carriage return, is read as what version `w` keeps. -/
theorem C85_saved {s : Str} {f : OsuFile D} (h : OsuFile.parse s = .ok f) {w : Nat} (hw : 3 ≤ w ∧ w ≤ 14) (hf : KeptAs w f) {t : Str}
    (hp : OsuFile.shw { f with version := w } = some t) (hcr : CleanEnds t) : OsuFile.parse t = .ok (savedAs w f) := by
  obtain ⟨p, hpp, e⟩ := shw_iff.1 hp
  obtain ⟨t', h1, h2⟩ := kept_back h hw hf hpp fun n t hn =>
    blocks_cleanEnds (CleanEnds.suffix (a := _) (show CleanEnds (_ ++ _) from e ▸ hcr)) (n.text, t) (listed_mem.2 ⟨n, hn, rfl⟩)
  rw [hp] at h1; cases h1
  exact h2

/-- If the lines of the loaded text have no carriage returns, nothing is asked of the written text. -/
theorem C85_save_as {s : Str} {f : OsuFile D} (h : OsuFile.parse s = .ok f) (hs : NoBareCR s) {w : Nat} (hw : 3 ≤ w ∧ w ≤ 14)
    (hf : KeptAs w f) : ∃ t, OsuFile.shw { f with version := w } = some t ∧ OsuFile.parse t = .ok (savedAs w f) :=
  let ⟨_, hp⟩ := kept_all_print h hw hf
  kept_back h hw hf hp fun n _ e => kept_cleanEnds h hs hw hf (e ▸ hp n)

/-- What is kept has the text of the whole value: saving once more changes nothing. -/
theorem C85_again {s : Str} {f : OsuFile D} (h : OsuFile.parse s = .ok f) {w : Nat} (hw : 3 ≤ w) (hm : ModeIn w f) :
    (savedAs w f).shw = OsuFile.shw { f with version := w } := by
  refine Option.ext fun t => ?_
  rw [shw_iff, shw_iff]
  refine exists_congr fun p => and_congr (forall_congr' fun n => ?_) Iff.rfl
  by_cases hn : n = .general
  · subst hn; exact kept_prints_general hm
  · exact kept_prints h hw hn

/-- Exactly then: with a mode that exists in version `w`, the text written is read as what version `w` keeps exactly if something
of each section is kept. -/
theorem C85_exact {s : Str} {f : OsuFile D} (h : OsuFile.parse s = .ok f) {w : Nat} (hw : 3 ≤ w ∧ w ≤ 14) (hm : ModeIn w f) {t : Str}
    (hp : OsuFile.shw { f with version := w } = some t) (hcr : CleanEnds t) : OsuFile.parse t = .ok (savedAs w f) ↔ KeptAs w f :=
  ⟨fun hr => kept_of_survives hw hm ((C41_iff ((C85_again h hw.1 hm).trans hp) hcr).1 hr), fun hf => C85_saved h hw hf hp hcr⟩

/-- Saving under a later version: the mode always exists there. -/
theorem C85_later {s : Str} {f : OsuFile D} (h : OsuFile.parse s = .ok f) {w : Nat} (hw : f.version ≤ w ∧ w ≤ 14) {t : Str}
    (hp : OsuFile.shw { f with version := w } = some t) (hcr : CleanEnds t) : OsuFile.parse t = .ok (savedAs w f) ↔ KeptAs w f :=
  C85_exact h ⟨Nat.le_trans (loaded_parts h).1.1 hw.1, hw.2⟩ (loaded_mode h hw.1) hp hcr

/-- What saving under the version of the file itself leaves is what reading the written text gives. -/
theorem resaved_eq {s : Str} {f : OsuFile D} (h : OsuFile.parse s = .ok f) : savedAs f.version f = resaved f := by
  obtain ⟨hv, -, hbody⟩ := loaded_parts h
  have e1 : f.general.map (fun x => restrict (GKey.existsIn f.version) x) = f.general.map ((General D).written f.version) := by
    cases hx : f.general with
    | none => rfl
    | some x =>
      refine congrArg some (funext fun k => ?_)
      show (x k).filter (GKey.existsIn f.version k) = (General D).written f.version x k
      unfold Schema.written
      cases hy : x k with
      | none => rfl
      | some y =>
        rcases hbody .general with ha | ⟨body, -, -, -, z, e1, e2⟩
        · rw [show f.general = none from ha] at hx; cases hx
        rw [hx] at e2; cases e2
        cases hsh : GKey.shw k f.version y with
        | none =>
          have := GKey.not_written f.version k y hsh
          simp [Option.filter, this, show (General D).shw k f.version y = none from hsh]
          rfl
        | some t =>
          obtain ⟨u, hu, hpu⟩ := Schema.fromStr_post (General_lawful D) e1 k y hy
          have h1 := (General_stable k _ u y t hu hpu hsh).2
          have h2 := (GKey.field f.version k y t (C04_general_read e1 k y hy) hsh).2
          rw [show GKey.parse k f.version t = _ from h1] at h2
          have he : GKey.existsIn f.version k y = true := by
            by_cases he : GKey.existsIn f.version k y = true
            · exact he
            · rw [if_neg he] at h2; cases h2
          simp [Option.filter, he, show (General D).shw k f.version y = some t from hsh]
          rfl
  have e2 : f.editor.map (fun x => restrict (EKey.existsIn f.version) x) = f.editor.map ((Editor D).written f.version) := by
    cases hx : f.editor with
    | none => rfl
    | some x =>
      refine congrArg some (funext fun k => ?_)
      show (x k).filter (EKey.existsIn f.version k) = (Editor D).written f.version x k
      unfold Schema.written
      cases hy : x k with
      | none => rfl
      | some y =>
        cases k <;> simp [Editor, EKey.shw, EKey.existsIn, Option.filter]
  have e3 : (if f.version ≤ 4 then none else f.colours) = f.colours := by
    by_cases h4 : f.version ≤ 4
    · rw [if_pos h4]
      rcases hbody .colours with ha | ⟨body, -, -, -, z, e1, e2⟩
      · exact (show f.colours = none from ha).symm
      · unfold Colours.parse at e1
        rw [if_pos ⟨hv.1, h4⟩] at e1
        cases e1
        exact e2.symm
    · rw [if_neg h4]
  have key : ∀ {a a' : Option (General D).Section} {b b' : Option (Editor D).Section} {c c' : Option (List Colour)}, a = a' → b = b' → c = c' →
      ({ resaved f with general := a, editor := b, colours := c } : OsuFile D) = { resaved f with general := a', editor := b', colours := c' } := by
    intro a a' b b' c c' h1 h2 h3
    rw [h1, h2, h3]
  exact key e1 e2 e3

/-- C42 for files, exactly: the text of a loaded file, if no line of it ends in a carriage return, is read as what the version
writes of the file exactly if something of each section is written, and what is read has the same text. -/
theorem C42_file_exact {s : Str} {f : OsuFile D} (h : OsuFile.parse s = .ok f) {t : Str} (hp : f.shw = some t) (hcr : CleanEnds t) :
    (OsuFile.parse t = .ok (resaved f) ↔ KeptAs f.version f) ∧ (resaved f).shw = some t := by
  rw [← resaved_eq h]
  exact ⟨C85_later h ⟨Nat.le_refl _, (loaded_parts h).1.2⟩ hp hcr,
    (C85_again h (loaded_parts h).1.1 (loaded_mode h (Nat.le_refl _))).trans hp⟩

omit [UniLib] in
theorem tpDefaults_self {w : Nat} {t : TimingPoint D} (h3 : w ≤ 3 → t.meter = 4 ∧ t.sampleSet = .normal ∧ t.sampleIndex = .index 1)
    (h4 : w ≤ 4 → t.volume = ⟨100⟩ ∧ t.uninherited = none ∧ t.effects = none) : tpDefaults w t = t := by
  obtain ⟨a, b, c, d, e, f, g, i⟩ := t
  unfold tpDefaults
  split
  · rename_i hw
    obtain ⟨rfl, rfl, rfl⟩ := h3 hw
    obtain ⟨rfl, rfl, rfl⟩ := h4 (by omega)
    rfl
  · split
    · rename_i hw
      obtain ⟨rfl, rfl, rfl⟩ := h4 (by omega)
      rfl
    · rfl

omit [UniLib] in
/-- An object that survives is what is read back of it. -/
theorem hoBack_self {v w : Nat} (hw : 3 ≤ w) {s : Str} {o : HitObject D} (hp : HitObject.parse v s = .ok o) (hlf : '\n' ∉ s)
    (h : HOSurvives w o) : hoBack w o = o := by
  have hk := sampleKept_of hw h
  have hb : HOSurvives w (hoBack w o) := by
    refine hoBack_survives hw hp hlf (fun _ d hd => times_of_survives hw h d hd) (fun h12 x hx => ?_) fun h3 p hp c hc => ?_
    · have := hk.2 x hx
      rwa [if_neg (by omega), if_neg (by omega)] at this
    · have := h.kind
      rw [hp] at this
      refine SliderSurvives.position this h3 c ?_
      simp only [List.mem_cons, List.mem_nil_iff, or_false] at hc ⊢
      rcases hc with rfl | rfl <;> simp
  obtain ⟨s1, h1, h2⟩ := C20_exact.2 h
  obtain ⟨s2, h3, h4⟩ := C20_exact.2 hb
  rw [C20_text_stable fun e he => .inr (hold_sample_of_parse hp he), h1] at h3
  cases h3
  rw [h2] at h4
  exact (Res.ok.inj h4).symm

/-- Nothing is lost exactly if what version `w` keeps is everything: the link to `C82_exact`. -/
theorem C85_nothing_lost {s : Str} {f : OsuFile D} (h : OsuFile.parse s = .ok f) {w : Nat} (hw : 3 ≤ w ∧ w ≤ 14) :
    SavableAs w f ↔ KeptAs w f ∧ savedAs w f = { f with version := w } := by
  constructor
  · intro hs
    have hsv := savable_survives h hw hs
    obtain ⟨hv, -, hbody⟩ := loaded_parts h
    have mapself : ∀ {α : Type} {o : Option α} {b : α → α}, (∀ x, o = some x → b x = x) → o.map b = o := by
      intro α o b hb
      cases o with
      | none => rfl
      | some x => exact congrArg some (hb x rfl)
    have listself : ∀ {α : Type} {l : List α} {b : α → α}, (∀ x ∈ l, b x = x) → l.map b = l := by
      intro α l b hb
      rw [List.map_congr_left (g := id) hb, List.map_id]
    have e1 : f.general.map (fun x => restrict (GKey.existsIn w) x) = f.general := mapself fun x hx => funext fun k => by
      show (x k).filter (GKey.existsIn w k) = x k
      cases hy : x k with
      | none => rfl
      | some y => exact Option.filter_eq_some_iff.2 ⟨rfl, (hs.general x hx).2 k y hy⟩
    have e2 : f.editor.map (fun x => restrict (EKey.existsIn w) x) = f.editor := mapself fun x hx => funext fun k => by
      show (x k).filter (EKey.existsIn w k) = x k
      cases hy : x k with
      | none => rfl
      | some y => exact Option.filter_eq_some_iff.2 ⟨rfl, (hs.editor x hx).2 k y hy⟩
    have e3 : f.events.map (fun l => (l.filter (writtenIn w)).map quoted) = f.events := mapself fun x hx => by
      obtain ⟨-, h2⟩ := hs.events x hx
      rw [List.filter_eq_self.2 fun e he => (writtenIn_iff hw.2).2 fun h14 c hc => by have := (h2 e he).1 c hc; omega]
      exact listself fun e he => quoted_eq_iff.2 (h2 e he).2.2
    have e4 : f.timingPoints.map (fun l => l.map (tpDefaults w)) = f.timingPoints := mapself fun x hx => listself fun t ht =>
      tpDefaults_self (fun h3 => hs.upTo3 (by omega) x hx t ht) fun h4 => hs.upTo4 h4 x hx t ht
    have e5 : (if w ≤ 4 then none else f.colours) = f.colours := by
      by_cases h4 : w ≤ 4
      · rw [if_pos h4]
        cases hx : f.colours with
        | none => rfl
        | some x => have := (hs.colours x hx).2; omega
      · rw [if_neg h4]
    have e6 : f.hitobjects.map (fun l => l.map (hoBack w)) = f.hitobjects := mapself fun x hx => listself fun o ho => by
      rcases hbody .hitobjects with ha | ⟨body, hne, hb, -, y, e1, e2⟩
      · rw [show f.hitobjects = none from ha] at hx; cases hx
      · rw [hx] at e2; cases e2
        obtain ⟨l, hl, -, hp⟩ := parseLines_mem e1 o ho
        exact hoBack_self hw.1 hp (noC_mem.1 (lines_noLF _ l hl)) ((hsv.hitobjects x hx).2.1 o ho).1
    have e : savedAs w f = { f with version := w } := by
      have key : ∀ {a a' : Option (General D).Section} {b b' : Option (Editor D).Section} {c c' : Option (List (Event D))}
          {d d' : Option (List (TimingPoint D))} {g g' : Option (List Colour)} {i i' : Option (List (HitObject D))},
          a = a' → b = b' → c = c' → d = d' → g = g' → i = i' →
          ({ f with version := w, general := a, editor := b, events := c, timingPoints := d, colours := g, hitobjects := i } : OsuFile D) =
            { f with version := w, general := a', editor := b', events := c', timingPoints := d', colours := g', hitobjects := i' } := by
        intro a a' b b' c c' d d' g g' i i' h1 h2 h3 h4 h5 h6
        rw [h1, h2, h3, h4, h5, h6]
      exact key e1 e2 e3 e4 e5 e6
    exact ⟨kept_of_survives hw (fun x hx m hm => (hs.general x hx).2 .mode m hm) (e ▸ hsv), e⟩
  · rintro ⟨hf, e⟩
    have hm : ModeIn w f := by
      intro x hx m hm
      have e1 : f.general.map (fun x => restrict (GKey.existsIn w) x) = f.general := congrArg OsuFile.general e
      rw [hx] at e1
      have e2 : (x .mode).filter (GKey.existsIn w .mode) = x .mode := congrFun (Option.some.inj e1) .mode
      rw [hm] at e2
      exact (Option.filter_eq_some_iff.1 e2).2
    have := kept_all_survive h hw hm hf
    rw [e] at this
    exact savable_of_survives hw.1 this

end

section
attribute [local instance] asciiUni

/-- A file of version 14 of which version 4 keeps little. -/
private def mixed : Str :=
  c!"osu file format v14\n[General]\nAudioLeadIn: 5\nMode: 1\n[Colours]\nCombo1 : 1,2,3\n[HitObjects]\n1,2,100,1,0,1:2:3:40:a.wav"

private def mixedObject : HitObject Dec96 :=
  ⟨⟨.left ⟨false, 1, 0⟩, .left ⟨false, 2, 0⟩⟩, .left ⟨false, 100, 0⟩, .hitCircle, false, ⟨0⟩, ⟨false, false, false, false⟩,
    some ⟨.normal, .soft, .index 3, ⟨some 40⟩, c!"a.wav"⟩⟩

/-- What the file has. -/
private def mixedView (f : OsuFile Dec96) : Nat × List Bool × Option Str × Option Str :=
  (f.version, [f.editor.isNone, f.metadata.isNone, f.difficulty.isNone, f.events.isNone, f.timingPoints.isNone],
    f.general.map ((General Dec96).toStr 4), f.colours.map (printLines Colour.shw))

private theorem mixed_parse : ∃ f : OsuFile Dec96, OsuFile.parse mixed = .ok f ∧
    mixedView f = (14, [true, true, true, true, true], some c!"AudioLeadIn: 5\nMode: 1", some c!"Combo1 : 1,2,3") ∧
    f.hitobjects = some [mixedObject] := by
  obtain ⟨f, hf⟩ := Res.of_isOk (r := (OsuFile.parse mixed : Res _ (OsuFile Dec96))) (by decide)
  have h1 : (OsuFile.parse mixed >>= fun f => Res.ok (mixedView f)) = .ok
      (14, [true, true, true, true, true], some c!"AudioLeadIn: 5\nMode: 1", some c!"Combo1 : 1,2,3") := by decide
  have h2 : ((OsuFile.parse mixed : Res _ (OsuFile Dec96)) >>= fun f => Res.ok f.hitobjects) = .ok (some [mixedObject]) := by rfl
  rw [hf] at h1 h2
  exact ⟨f, hf, Res.ok.inj h1, Res.ok.inj h2⟩

private theorem mixed_plain : NoBareCR mixed := by unfold NoBareCR; decide

private theorem mixed_kept {f : OsuFile Dec96}
    (hv : mixedView f = (14, [true, true, true, true, true], some c!"AudioLeadIn: 5\nMode: 1", some c!"Combo1 : 1,2,3"))
    (ho : f.hitobjects = some [mixedObject]) : KeptAs 4 f := by
  simp only [mixedView, Prod.mk.injEq, List.cons.injEq, Option.isNone_iff_eq_none] at hv
  obtain ⟨v1, ⟨v2, v3, v4, v5, v6, -⟩, v7, v8⟩ := hv
  have no : ∀ {α : Type} {o : Option α} {x : α} {P : Prop}, o = none → o = some x → P := by
    intro α o x P h1 h2
    rw [h1] at h2; cases h2
  exact {
    general := fun x hx => by
      rw [hx] at v7
      rw [show (General Dec96).toStr 4 x = _ from Option.some.inj v7]
      nofun
    editor := fun x hx => no v2 hx
    metadata := fun x hx => no v3 hx
    difficulty := fun x hx => no v4 hx
    events := fun x hx => no v5 hx
    colours := fun h => absurd h (by decide)
    points := fun x hx => no v6 hx
    index := fun _ x hx => no v6 hx
    beatLength := fun _ _ x hx => no v6 hx
    flags := fun _ h => absurd h (by decide)
    objects := fun x hx => by rw [ho] at hx; cases hx; exact ⟨by simp, trivial⟩
    filename := fun h => absurd h (by decide)
    slider := fun h => absurd h (by decide)
    pointTimes := fun _ x hx => no v6 hx
    objectTimes := fun _ x hx o ho' d hd => by
      rw [ho] at hx; cases hx
      obtain rfl := List.mem_singleton.1 ho'
      rcases hd with hd | hd | hd
      · cases hd
        exact ⟨⟨false, 76, 0⟩, ⟨false, 76, 0⟩, by with_unfolding_all decide, by with_unfolding_all decide, by with_unfolding_all decide⟩
      · cases hd
      · cases hd }

/-- Saved as version 4 the file loses its colours, the hit sample and, when it is read, the mode. -/
example : ∃ f : OsuFile Dec96, OsuFile.parse mixed = .ok f ∧
    OsuFile.shw { f with version := 4 } = some c!"osu file format v4\n\n[General]\nAudioLeadIn: 5\nMode: 1\n\n[HitObjects]\n1,2,76,1,0" ∧
    OsuFile.parse c!"osu file format v4\n\n[General]\nAudioLeadIn: 5\nMode: 1\n\n[HitObjects]\n1,2,76,1,0" = .ok (savedAs 4 f) ∧
    (savedAs 4 f).hitobjects = some [{ mixedObject with hitsample := none }] := by
  obtain ⟨f, hf, hv, ho⟩ := mixed_parse
  have hk := mixed_kept hv ho
  have ht : OsuFile.shw { f with version := 4 } = some c!"osu file format v4\n\n[General]\nAudioLeadIn: 5\nMode: 1\n\n[HitObjects]\n1,2,76,1,0" := by
    have : ((OsuFile.parse mixed : Res _ (OsuFile Dec96)) >>= fun f => Res.ok (OsuFile.shw { f with version := 4 })) =
        .ok (some c!"osu file format v4\n\n[General]\nAudioLeadIn: 5\nMode: 1\n\n[HitObjects]\n1,2,76,1,0") := by decide
    rw [hf] at this
    exact Res.ok.inj this
  refine ⟨f, hf, ht, C85_saved hf (by decide) hk ht (cleanEndsB_ok (by decide)), ?_⟩
  show f.hitobjects.map _ = _
  rw [ho]; rfl

example : ∃ (f : OsuFile Dec96) (t : Str), OsuFile.shw { f with version := 4 } = some t ∧ f.colours ≠ none ∧
    ∃ g : OsuFile Dec96, OsuFile.parse t = .ok g ∧ g.colours = none := by
  obtain ⟨f, hf, hv, ho⟩ := mixed_parse
  obtain ⟨t, h1, h2⟩ := C85_save_as hf mixed_plain (w := 4) (by decide) (mixed_kept hv ho)
  obtain ⟨t', h3⟩ := C85_written hf (w := 4) (by decide) (mixed_kept hv ho)
  have : f.colours ≠ none := by
    intro h
    simp only [mixedView, Prod.mk.injEq] at hv
    rw [h] at hv
    exact absurd hv.2.2.2 (by decide)
  exact ⟨f, t, h1, this, _, h2, rfl⟩

/-- The mode is the one thing that is written though it is not read: saving what was read changes the text again. -/
theorem C85_false : ∃ (s : Str) (f : OsuFile Dec96), OsuFile.parse s = .ok f ∧ NoBareCR s ∧ KeptAs 4 f ∧
    (savedAs 4 f).shw ≠ OsuFile.shw { f with version := 4 } := by
  obtain ⟨f, hf, hv, ho⟩ := mixed_parse
  refine ⟨mixed, f, hf, mixed_plain, mixed_kept hv ho, ?_⟩
  have h1 : ((OsuFile.parse mixed : Res _ (OsuFile Dec96)) >>= fun f => Res.ok (OsuFile.shw { f with version := 4 })) =
      .ok (some c!"osu file format v4\n\n[General]\nAudioLeadIn: 5\nMode: 1\n\n[HitObjects]\n1,2,76,1,0") := by decide
  have h2 : ((OsuFile.parse mixed : Res _ (OsuFile Dec96)) >>= fun f => Res.ok (savedAs 4 f).shw) =
      .ok (some c!"osu file format v4\n\n[General]\nAudioLeadIn: 5\n\n[HitObjects]\n1,2,76,1,0") := by decide
  rw [hf] at h1 h2
  rw [show OsuFile.shw { f with version := 4 } = _ from Res.ok.inj h1, show (savedAs 4 f).shw = _ from Res.ok.inj h2]
  decide

/-- A file of version 9 with a hit sample, which version 9 does not write. -/
private def nine : Str := c!"osu file format v9\n\n[HitObjects]\n1,2,100,1,0,1:2:3:40:a.wav"

private def nineFile : OsuFile Dec96 := ⟨9, none, none, none, none, none, none, none, none, some [mixedObject]⟩

private theorem nine_parse : OsuFile.parse nine = .ok nineFile := by rfl

private theorem nine_kept {w : Nat} (h : 9 ≤ w) : KeptAs w nineFile where
  general := nofun
  editor := nofun
  metadata := nofun
  difficulty := nofun
  events := nofun
  colours _ := nofun
  points := nofun
  index := nofun
  beatLength := nofun
  flags := nofun
  objects x hx := by cases hx; exact ⟨by simp, trivial⟩
  filename _ x hx o ho h hh := by
    cases hx
    obtain rfl := List.mem_singleton.1 ho
    cases hh
    exact .inr (by decide)
  slider h3 := absurd h3 (by omega)
  pointTimes := nofun
  objectTimes h4 := absurd h4 (by rw [show nineFile.version = 9 from rfl]; omega)

example : OsuFile.parse c!"osu file format v11\n\n[HitObjects]\n1,2,100,1,0,1:2:3" = .ok (savedAs 11 nineFile) ∧
    (savedAs 11 nineFile).shw = some c!"osu file format v11\n\n[HitObjects]\n1,2,100,1,0,1:2:3" := by
  have h : OsuFile.shw { nineFile with version := 11 } = some c!"osu file format v11\n\n[HitObjects]\n1,2,100,1,0,1:2:3" := by rfl
  exact ⟨(C85_later nine_parse (by decide) h (cleanEndsB_ok (by decide))).2 (nine_kept (by decide)),
    (C85_again nine_parse (by decide) nofun).trans h⟩

example : KeptAs 11 nineFile ∧ ¬ SavableAs 11 nineFile := by
  have h : OsuFile.shw { nineFile with version := 11 } = some c!"osu file format v11\n\n[HitObjects]\n1,2,100,1,0,1:2:3" := by rfl
  refine ⟨(C85_exact nine_parse (by decide) nofun h (cleanEndsB_ok (by decide))).1 (by rfl), fun hs => ?_⟩
  have := ((C85_nothing_lost nine_parse (by decide)).1 hs).2
  have := congrArg (fun f : OsuFile Dec96 => (f.hitobjects.getD []).map fun o => o.hitsample.map fun h => h.filename) this
  exact absurd this (by decide)

example : (OsuFile.parse c!"osu file format v9\n\n[HitObjects]\n1,2,100,1,0" = .ok (resaved nineFile) ↔ KeptAs 9 nineFile) ∧
    (resaved nineFile).shw = some c!"osu file format v9\n\n[HitObjects]\n1,2,100,1,0" :=
  C42_file_exact nine_parse (by rfl) (cleanEndsB_ok (by decide))

example : OsuFile.parse c!"osu file format v9\n\n[HitObjects]\n1,2,100,1,0" = .ok (resaved nineFile) :=
  (C42_file_exact nine_parse (by rfl) (cleanEndsB_ok (by decide))).1.2 (nine_kept (Nat.le_refl 9))

end

end Osu
