/-
C82: saving a file that was loaded under another version number.
-/
import Verif.Proof.Loaded

namespace Osu
open Parser Ev

section
variable {D : Type} [DecLib D]

/-! ### Specification -/

/-- The number is read back from its own text. -/
def NumberBack (d : D) : Prop := DecLib.parse (DecLib.shw d) = some d

/-- What version `w` keeps of the hit sample of an object is all of it: up to version 9 hit samples are not written, but
hold notes, and in version 3 circles, are read with the default one, in versions 10 and 11 volume and file name are not
written, and later a file name of blanks is not read. -/
def SampleKept (w : Nat) (o : HitObject D) : Prop :=
  (w = 3 → o.params = .hitCircle → o.hitsample ≠ none) ∧
  ∀ h, o.hitsample = some h →
    if w ≤ 9 then ((∃ e, o.params = .hold e) ∨ (w = 3 ∧ o.params = .hitCircle)) ∧ h = HO.HitSample.default
    else if w ≤ 11 then h.volume = ⟨none⟩ ∧ h.filename = []
    else h.filename = [] ∨ blanks h.filename = false

/-- The numbers among the times of an object. -/
def timeNumber (o : HitObject D) (d : D) : Prop := o.time = .left d ∨ o.params = .spinner (.left d) ∨ o.params = .hold (.left d)

/-- The number is read back when it is written as a time: from its own text, in versions 3 and 4 from that of the number 24
below. -/
def TimeBack (w : Nat) (d : D) : Prop :=
  if w ≤ 4 then ∃ d' d'', DecLib.sub24 d = some d' ∧ DecLib.parse (DecLib.shw d') = some d'' ∧ DecLib.add24 d'' = some d
  else NumberBack d

/-- The times of an event that versions 3 and 4 move by 24. -/
def movedTimes : Event D → List Int32
  | .video b => [b.startTime]
  | .break_ b => [b.startTime, b.endTime]
  | .colourTransformation c => [c.startTime]
  | _ => []

/-- The first of these decimals is not a text that begins with a blank. -/
def FirstPlain : List (Decimal D) → Prop
  | .right (c :: _) :: _ => c ≠ ' ' ∧ c ≠ '\t' ∧ c ≠ '\r'
  | _ => True

/-- A file value, loaded from a file of its version, that loses nothing when it is saved in version `w`: each section has
something to write, each field of `General` and `Editor` exists in `w`, the events, timing points and hit objects fit, paths
do not need quotes, and no first line of a section begins with a blank. -/
structure SavableAs (w : Nat) (f : OsuFile D) : Prop where
  general : ∀ x, f.general = some x → (General D).toStr w x ≠ [] ∧ ∀ k y, x k = some y → GKey.existsIn w k y = true
  editor : ∀ x, f.editor = some x → (Editor D).toStr w x ≠ [] ∧ ∀ k y, x k = some y → EKey.existsIn w k y = true
  metadata : ∀ x, f.metadata = some x → Metadata.toStr w x ≠ []
  difficulty : ∀ x, f.difficulty = some x → (Difficulty D).toStr w x ≠ []
  events : ∀ x, f.events = some x → x ≠ [] ∧ ∀ e ∈ x, (∀ c, e = .colourTransformation c → w ≤ 13) ∧
    (w ≤ 4 → ∀ t ∈ movedTimes e, -2147483624 ≤ t.toInt) ∧ ∀ p, pathOf e = some p → PathPlain p
  colours : ∀ x, f.colours = some x → x ≠ [] ∧ 5 ≤ w
  points : ∀ x, f.timingPoints = some x → x ≠ [] ∧ FirstPlain (x.map TimingPoint.time)
  index : 4 ≤ w → ∀ x, f.timingPoints = some x → ∀ t ∈ x, ∀ n, t.sampleIndex = .index n → n.toNat ≤ 2147483647
  beatLength : f.version = 3 → 4 ≤ w → ∀ x, f.timingPoints = some x → ∀ t ∈ x, ',' ∉ t.beatLength.text
  flags : f.version = 5 → 6 ≤ w → ∀ x, f.timingPoints = some x → ∀ t ∈ x, t.effects = none → t.uninherited = none
  upTo3 : w = 3 → ∀ x, f.timingPoints = some x → ∀ t ∈ x, t.meter = 4 ∧ t.sampleSet = .normal ∧ t.sampleIndex = .index 1
  upTo4 : w ≤ 4 → ∀ x, f.timingPoints = some x → ∀ t ∈ x, t.volume = ⟨100⟩ ∧ t.uninherited = none ∧ t.effects = none
  objects : ∀ x, f.hitobjects = some x → x ≠ [] ∧ FirstPlain (x.map fun o => o.position.x)
  sample : ∀ x, f.hitobjects = some x → ∀ o ∈ x, SampleKept w o
  slider : w = 3 → ∀ x, f.hitobjects = some x → ∀ o ∈ x, ∀ p, o.params = .slider p →
    ∀ c ∈ ['|', '\r'], c ∉ o.position.x.text ∧ c ∉ o.position.y.text
  pointTimes : f.version ≤ 4 ∨ w ≤ 4 → ∀ x, f.timingPoints = some x → ∀ t ∈ x, ∀ d, t.time = .left d → TimeBack w d
  objectTimes : f.version ≤ 4 ∨ w ≤ 4 → ∀ x, f.hitobjects = some x → ∀ o ∈ x, ∀ d, timeNumber o d → TimeBack w d

/-! ### Proof -/

theorem timeBack_iff {w : Nat} (hw : 3 ≤ w) {d : D} : TimeSurvives w (.left d) ↔ TimeBack w d := by
  show (if 3 ≤ w ∧ w ≤ 4 then _ else _) ↔ if w ≤ 4 then _ else NumberBack d
  by_cases h : w ≤ 4
  · rw [if_pos (show 3 ≤ w ∧ w ≤ 4 from ⟨hw, h⟩), if_pos h]
  · rw [if_neg (show ¬ (3 ≤ w ∧ w ≤ 4) by omega), if_neg h]; rfl

/-- What a timing point that was read in version `v` has for version `w`. -/
theorem tp_parts_at {v w : Nat} (hv : 3 ≤ v) (hw : 3 ≤ w) {s : Str} {t : TimingPoint D} (h : TimingPoint.parse v s = .ok t)
    (ht : v ≤ 4 ∨ w ≤ 4 → ∀ d, t.time = .left d → TimeBack w d)
    (hi : 4 ≤ w → ∀ n, t.sampleIndex = .index n → n.toNat ≤ 2147483647) (hb : v = 3 → 4 ≤ w → ',' ∉ t.beatLength.text)
    (h56 : v = 5 → 6 ≤ w → t.effects = none → t.uninherited = none) :
    TimeSurvives w t.time ∧ BeatSurvives w t.beatLength ∧ (4 ≤ w → IndexWritable t.sampleIndex) ∧ (4 ≤ w → SampleSetNamed t.sampleSet) ∧
      (5 ≤ w → t.uninherited = none → t.effects = none) ∧ (6 ≤ w → t.effects = none → t.uninherited = none) := by
  have h' := TimingPoint.parse_iff.1 h
  have ht : v ≤ 4 ∨ w ≤ 4 → ∀ d, t.time = .left d → TimeSurvives w (.left d) := fun a d e => (timeBack_iff hw).2 (ht a d e)
  have hch : ∀ p ∈ splitOnC ',' s, ',' ∉ p := fun p hp => noC_mem.1 (splitOnC_chars ',' s p hp)
  have hidx : ∀ si, TP.SampleIndex.parse si = .ok t.sampleIndex → 4 ≤ w → IndexWritable t.sampleIndex := by
    intro si hsi hv
    obtain ⟨n, _, h⟩ := Res.bind_eq_ok.1 hsi
    have h := (Res.ok.inj h).symm
    unfold TP.SampleIndex.ofU32 at h
    split at h
    · rw [h]; trivial
    · rename_i hn; have := hi hv n h; rw [h]; exact ⟨hn, this⟩
  have head : ∀ {p b m ss si : Str}, p ∈ splitOnC ',' s → b ∈ splitOnC ',' s → TPHead v p b m ss si t →
      (5 ≤ w → t.uninherited = none → t.effects = none) → (6 ≤ w → t.effects = none → t.uninherited = none) →
      TimeSurvives w t.time ∧ BeatSurvives w t.beatLength ∧ (4 ≤ w → IndexWritable t.sampleIndex) ∧ (4 ≤ w → SampleSetNamed t.sampleSet) ∧
      (5 ≤ w → t.uninherited = none → t.effects = none) ∧ (6 ≤ w → t.effects = none → t.uninherited = none) := by
    intro p b m ss si hp hb h h5 h6
    refine ⟨time_at h.time (hch p hp) ht, ?_, hidx si h.sampleIndex, fun _ => sampleSetNamed_parse h.sampleSet, h5, h6⟩
    rw [h.beatLength]
    have := ofStr_field (D := D) (hch b hb)
    revert this
    cases (Decimal.ofStr b : Decimal D) with
    | left d => exact id
    | right q => exact fun h => ⟨h.1, fun _ => h.2⟩
  generalize hps : splitOnC ',' s = ps at h' hch head
  cases h' with
  | @old p q qs time hv' ht' =>
    refine ⟨time_at ht' (hch p (by simp)) ht, ?_, fun _ => ⟨by decide, by decide⟩, fun _ => trivial,
      fun _ _ => rfl, fun _ _ => rfl⟩
    have hb := hb (by omega)
    revert hb
    show (4 ≤ w → ',' ∉ (Decimal.ofStr (join [','] (q :: qs)) : Decimal D).text) → BeatSurvives w (Decimal.ofStr (join [','] (q :: qs)) : Decimal D)
    unfold Decimal.ofStr
    cases hd : (DecLib.parse (join [','] (q :: qs)) : Option D) with
    | some d => exact fun _ => number_back (DecLib.parse_canon hd)
    | none => exact fun h => ⟨hd, h⟩
  | four hv' h hvol hu he => exact head (by simp) (by simp) h (fun _ _ => he) (fun _ _ => hu)
  | six hv' h hvol hu he => exact head (by simp) (by simp) h (fun _ _ => he) (fun _ _ => hu)
  | seven hv' h hvol hu hux he => exact head (by simp) (by simp) h (fun _ _ => he) (fun h6 => h56 hv' h6)
  | eight hv' h hvol hu hux he hex =>
    exact head (by simp) (by simp) h (fun _ e => by rw [hux] at e; cases e) (fun _ e => by rw [hex] at e; cases e)

/-- A timing point that was read in version `v` is read back from what version `w` writes. -/
theorem tpSurvives_at {v w : Nat} (hv : 3 ≤ v) (hw : 3 ≤ w) {s : Str} {t : TimingPoint D} (h : TimingPoint.parse v s = .ok t)
    (ht : v ≤ 4 ∨ w ≤ 4 → ∀ d, t.time = .left d → TimeBack w d)
    (hi : 4 ≤ w → ∀ n, t.sampleIndex = .index n → n.toNat ≤ 2147483647) (hb : v = 3 → 4 ≤ w → ',' ∉ t.beatLength.text)
    (h56 : v = 5 → 6 ≤ w → t.effects = none → t.uninherited = none)
    (h3 : w = 3 → t.meter = 4 ∧ t.sampleSet = .normal ∧ t.sampleIndex = .index 1)
    (h4 : w ≤ 4 → t.volume = ⟨100⟩ ∧ t.uninherited = none ∧ t.effects = none) : TPSurvives w t :=
  let ⟨g1, g2, g3, g4, g5, g6⟩ := tp_parts_at hv hw h ht hi hb h56
  ⟨g1, g2, g3, g4, g5, g6, fun _ => h3 (by omega), h4⟩

theorem sample_parts {w : Nat} {o : HitObject D} {h : HO.HitSample} (hk : SampleKept w o) (hh : o.hitsample = some h) (h9 : ¬ NoSample w)
    (hw : 3 ≤ w) : (ShortSample w → h.volume = ⟨none⟩ ∧ h.filename = []) ∧ (h.filename = [] ∨ blanks h.filename = false) := by
  have := hk.2 h hh
  rw [if_neg fun h => h9 ⟨hw, h⟩] at this
  by_cases h11 : w ≤ 11
  · rw [if_pos h11] at this
    exact ⟨fun _ => this, .inl this.2⟩
  · rw [if_neg h11] at this
    exact ⟨fun h => absurd h.2 h11, this⟩

/-- The hit sample at the end of a line that is not that of a hold note. -/
theorem tail_at {w : Nat} {o : HitObject D} {qs : List Str} (hw : 3 ≤ w) (hk : SampleKept w o) (ht : SampleTail qs o.hitsample)
    (hn : ∀ e, o.params ≠ .hold e) (hc : w = 3 → o.params ≠ .hitCircle) : TailSurvives w o.hitsample := by
  intro h hh
  have h9 : ¬ NoSample w := by
    intro h9
    have := hk.2 h hh
    rw [if_pos h9.2] at this
    rcases this.1 with ⟨e, he⟩ | ⟨e, he⟩
    · exact hn e he
    · exact hc e he
  refine ⟨h9, ?_⟩
  obtain ⟨k1, k2⟩ := sample_parts hk hh h9 hw
  cases qs with
  | nil => rw [show o.hitsample = none from ht] at hh; cases hh
  | cons q qs =>
    obtain ⟨h', hr, e⟩ := ht
    rw [hh] at e; cases e
    exact sample_at hr k1 k2

/-- The same for hit objects. -/
theorem hoSurvives_at {v w : Nat} (hw : 3 ≤ w) {s : Str} {o : HitObject D} (h : HitObject.parse v s = .ok o) (hlf : '\n' ∉ s)
    (ht : v ≤ 4 ∨ w ≤ 4 → ∀ d, timeNumber o d → TimeBack w d) (hk : SampleKept w o)
    (hb : w = 3 → ∀ p, o.params = .slider p → ∀ c ∈ ['|', '\r'], c ∉ o.position.x.text ∧ c ∉ o.position.y.text) : HOSurvives w o := by
  have hskip := C24_combo_skip_read h
  have hflags := fun p hp => slider_flags_of_parse (p := p) h hp
  have htx := fun (t : Str) (ht : t ∈ o.texts) => fun hm => hlf (ho_texts h (by decide) (List.mem_append_left _ ht) hm)
  have ht : v ≤ 4 ∨ w ≤ 4 → ∀ d, timeNumber o d → TimeSurvives w (.left d) := fun a d e => (timeBack_iff hw).2 (ht a d e)
  have h' := HitObject.parse_iff.1 h
  have hch : ∀ p ∈ splitOnC ',' s, ',' ∉ p := fun p hp => noC_mem.1 (splitOnC_chars ',' s p hp)
  generalize hps : splitOnC ',' s = ps at h' hch
  have head : ∀ {x y t ty hs : Str} {n : Int32} {rest : List Str}, ps = x :: y :: t :: rest → HOHead v x y t ty hs n o →
      FieldSurvives o.position.x ∧ FieldSurvives o.position.y ∧ TimeSurvives w o.time := by
    intro x y t ty hs n rest e hh
    rw [e] at hch
    refine ⟨?_, ?_, time_at hh.time (hch t (by simp)) fun a d e => ht a d (.inl e)⟩
    · rw [hh.x]; exact ofStr_field (hch x (by simp))
    · rw [hh.y]; exact ofStr_field (hch y (by simp))
  cases h' with
  | @circle x y t ty hs qs n o hh h0 hp hq =>
    obtain ⟨h1, h2, h3⟩ := head rfl hh
    refine ⟨h1, h2, h3, hskip, ?_⟩
    rw [hp]
    show if w = 3 then o.hitsample = some HO.HitSample.default else TailSurvives w o.hitsample
    by_cases h3 : w = 3
    · rw [if_pos h3]
      obtain ⟨y, hy⟩ := Option.ne_none_iff_exists'.1 (hk.1 h3 hp)
      have := hk.2 y hy
      rw [if_pos (by omega)] at this
      rw [hy, this.2]
    · rw [if_neg h3]
      exact tail_at hw hk hq (fun e he => by rw [hp] at he; cases he) fun e => absurd e h3
  | @spinner x y t ty hs e qs n o et hh h0 h1 h3 hp he hq =>
    obtain ⟨g1, g2, g3⟩ := head rfl hh
    refine ⟨g1, g2, g3, hskip, ?_⟩
    rw [hp]
    exact ⟨time_at he (hch e (by simp)) fun a d e' => ht a d (.inr (.inl (e' ▸ hp))),
      tail_at hw hk hq (fun e he => by rw [hp] at he; cases he) fun _ he => by rw [hp] at he; cases he⟩
  | @hold x y t ty hs q qs n o et hh h0 h1 h3 h7 hp hq =>
    obtain ⟨g1, g2, g3⟩ := head rfl hh
    obtain ⟨a, b, h', e, ha, het, hr, ho⟩ := hq
    refine ⟨g1, g2, g3, hskip, ?_⟩
    rw [hp]
    refine ⟨hold_end_at het (noC_mem.1 (lacks_iff.1 ha)) fun a d e' => ht a d (.inr (.inr (e' ▸ hp))), ?_⟩
    by_cases h9 : NoSample w
    · rw [if_pos h9]
      have := hk.2 h' ho
      rw [if_pos h9.2] at this
      rw [ho, this.2]
    · rw [if_neg h9]
      obtain ⟨k1, k2⟩ := sample_parts hk ho h9 hw
      exact ⟨h', ho, sample_at hr k1 k2⟩
  | @slider x y t ty hs c m l qs n o p hh h0 h1 hp hq =>
    obtain ⟨g1, g2, g3⟩ := head rfl hh
    refine ⟨g1, g2, g3, hskip, ?_⟩
    rw [hp]
    have hedge := hq.edges
    have tail : ∀ {qs : List Str}, SampleTail qs o.hitsample → TailSurvives w o.hitsample := fun hq =>
      tail_at hw hk hq (fun e he => by rw [hp] at he; cases he) fun _ he => by rw [hp] at he; cases he
    have hlfx : '\n' ∉ o.position.x.text ∧ '\n' ∉ o.position.y.text := ⟨htx _ (by simp [HitObject.texts]), htx _ (by simp [HitObject.texts])⟩
    refine ⟨curve_points hq.curve (hch c (by simp)), fun h3 d hd => ?_, ?_, ?_, (hflags p hp).1, (hflags p hp).2, ?_⟩
    · simp only [List.mem_cons, List.mem_nil_iff, or_false] at hd
      rcases hd with rfl | rfl | rfl
      · exact hb h3 p hp _ (by simp)
      · exact hb h3 p hp _ (by simp)
      · exact hlfx
    · rw [hq.length]; exact ofStr_field (hch l (by simp))
    · revert hedge
      generalize p.edgeSounds = v1; generalize p.edgeSoundsShort = v2; generalize p.edgeSets = v3
      generalize p.edgeSetsShort = v4; generalize o.hitsample = v5
      intro hedge
      cases hedge with
      | none => nofun
      | sounds => nofun
      | sets _ h2 => exact sets_named_last h2
      | sample _ h2 _ => exact sets_named h2
    · revert hedge tail
      generalize p.edgeSounds = v1; generalize p.edgeSoundsShort = v2; generalize p.edgeSets = v3
      generalize p.edgeSetsShort = v4; generalize o.hitsample = v5
      intro hedge tail
      cases hedge with
      | none => exact tail (qs := []) rfl
      | sounds => exact tail (qs := []) rfl
      | sets _ h2 => exact tail (qs := []) rfl
      | sample _ h2 ho => exact tail ho

/-- What survives in version `w` has its hit sample kept. -/
theorem sampleKept_of {w : Nat} (hw : 3 ≤ w) {o : HitObject D} (h : HOSurvives w o) : SampleKept w o := by
  have tail : TailSurvives w o.hitsample → (w = 3 → o.params ≠ .hitCircle) → SampleKept w o := by
    intro ht hc
    refine ⟨fun h3 he => absurd he (hc h3), fun x hx => ?_⟩
    obtain ⟨h1, h2⟩ := ht x hx
    have h9 : ¬ w ≤ 9 := fun h9 => h1 ⟨by omega, h9⟩
    rw [if_neg h9]
    by_cases h11 : w ≤ 11
    · rw [if_pos h11]; exact h2.short ⟨by omega, h11⟩
    · rw [if_neg h11]; exact h2.filename.2
  have hk := h.kind
  cases hp : o.params with
  | hitCircle =>
    rw [hp] at hk
    have hk : if w = 3 then o.hitsample = some HO.HitSample.default else TailSurvives w o.hitsample := hk
    by_cases h3 : w = 3
    · rw [if_pos h3] at hk
      refine ⟨fun _ _ => (by rw [hk]; nofun), fun x hx => ?_⟩
      rw [if_pos (by omega)]
      rw [hk] at hx
      exact ⟨.inr ⟨h3, hp⟩, (Option.some.inj hx).symm⟩
    · rw [if_neg h3] at hk
      exact tail hk fun e => absurd e h3
  | slider p =>
    rw [hp] at hk
    exact tail (SliderSurvives.sample hk) fun _ e => by rw [hp] at e; cases e
  | spinner e =>
    rw [hp] at hk
    exact tail hk.2 fun _ e => by rw [hp] at e; cases e
  | hold e =>
    rw [hp] at hk
    obtain ⟨-, hk⟩ : HoldEndSurvives w e ∧ if NoSample w then o.hitsample = some HO.HitSample.default
      else ∃ h, o.hitsample = some h ∧ SampleSurvives w h := hk
    refine ⟨fun _ e => (by rw [hp] at e; cases e), fun x hx => ?_⟩
    by_cases h9 : w ≤ 9
    · rw [if_pos (show NoSample w from ⟨by omega, h9⟩), hx] at hk
      rw [if_pos h9]
      exact ⟨.inl ⟨e, hp⟩, Option.some.inj hk⟩
    · rw [if_neg fun hn : NoSample w => h9 hn.2] at hk
      obtain ⟨y, hy, h2⟩ := hk
      rw [hx] at hy; cases hy
      rw [if_neg h9]
      by_cases h11 : w ≤ 11
      · rw [if_pos h11]; exact h2.short ⟨by omega, h11⟩
      · rw [if_neg h11]; exact h2.filename.2

theorem times_of_survives {w : Nat} (hw : 3 ≤ w) {o : HitObject D} (h : HOSurvives w o) (d : D) (hd : timeNumber o d) : TimeBack w d := by
  rw [← timeBack_iff hw]
  rcases hd with e | e | e
  · have := h.time
    rwa [e] at this
  · have := h.kind
    rw [e] at this
    exact this.1
  · have := h.kind
    rw [e] at this
    exact (show TimeSurvives w (.left d) from this.1)

/-- A time fits exactly if 24 can be taken off. -/
theorem timeFits_iff {w : Nat} (hw : 3 ≤ w) {t : Int32} : TimeFits w t ↔ (w ≤ 4 → -2147483624 ≤ t.toInt) := by
  unfold TimeFits OldTime
  constructor
  · rintro ⟨n, h⟩ h4
    rw [if_pos (by omega)] at h
    have := n.le_toInt
    omega
  · intro h
    by_cases h4 : w ≤ 4
    · have h := h h4
      have h2 := t.toInt_lt
      refine ⟨Int32.ofInt (t.toInt - 24), ?_⟩
      rw [if_pos (by omega), Int32.toInt_ofInt_of_le (by omega) (by omega)]
      omega
    · exact ⟨t, by rw [if_neg (by omega)]; simp⟩

/-- The events of a file that was read, but for colour transformations, can be written in every version in which their times fit. -/
theorem evFits_at {cr : Bool} {v w : Nat} (hw : 3 ≤ w) {e : Event D} (hc : ∀ c, e = .colourTransformation c → w ≤ 13)
    (ht : w ≤ 4 → ∀ t ∈ movedTimes e, -2147483624 ≤ t.toInt)
    (h : EvWritableC cr v e ∨ 14 ≤ v ∧ ∃ c, e = .colourTransformation c) : EvWritableC cr w e := by
  have fits : ∀ t ∈ movedTimes e, TimeFits w t := fun t h => (timeFits_iff hw).2 fun h4 => ht h4 t h
  rcases h with ⟨h1, h2⟩ | ⟨-, c, rfl⟩
  · refine ⟨?_, h2⟩
    cases e with
    | comment s => exact h1
    | background b => exact h1
    | video b => exact ⟨fits _ (by simp [movedTimes]), h1.2⟩
    | break_ b => exact ⟨fits _ (by simp [movedTimes]), fits _ (by simp [movedTimes])⟩
    | colourTransformation c => exact ⟨by have := hc c rfl; omega, fits _ (by simp [movedTimes])⟩
    | spriteLegacy x => exact h1
    | animationLegacy x => exact h1
    | sampleLegacy x => exact h1
    | object o => exact h1
    | audioSample a => exact h1
  · exact ⟨⟨by have := hc c rfl; omega, fits _ (by simp [movedTimes])⟩, fun x hx => by cases hx⟩

theorem moved_of_fits {w : Nat} (hw : 3 ≤ w) {e : Event D} (h : EvFits w e) (h4 : w ≤ 4) : ∀ t ∈ movedTimes e, -2147483624 ≤ t.toInt := by
  have key : ∀ t, TimeFits w t → -2147483624 ≤ t.toInt := fun t ht => (timeFits_iff hw).1 ht h4
  intro t ht
  have h1 := h.1
  cases e with
  | video b => simp [movedTimes] at ht; subst ht; exact key _ h1.1
  | break_ b =>
    simp [movedTimes] at ht
    rcases ht with rfl | rfl
    · exact key _ h1.1
    · exact key _ h1.2
  | colourTransformation c => simp [movedTimes] at ht; subst ht; exact key _ h1.2
  | _ => cases ht

/-- The first item of a section can stand there exactly if it does not begin with a blank. -/
theorem firstPlain_iff {l : List (Decimal D)} (hlf : ∀ x ∈ l, '\n' ∉ x.text) (hr : ∀ y ∈ l.tail, NotBracket y) : StartsOK l ↔ FirstPlain l := by
  cases l with
  | nil => exact Iff.rfl
  | cons x xs =>
    show NotIndented x ∧ (∀ y ∈ xs, NotBracket y) ↔ _
    rw [and_iff_left (show ∀ y ∈ xs, NotBracket y from hr)]
    cases x with
    | left d => exact Iff.rfl
    | right s =>
      cases s with
      | nil => exact ⟨fun _ => trivial, fun _ => .nil⟩
      | cons c s =>
        have hn : c ≠ '\n' := by rintro rfl; exact hlf (.right ('\n' :: s)) (by simp) (by simp [Decimal.text])
        show HeadNot isMultispace (c :: s) ↔ c ≠ ' ' ∧ c ≠ '\t' ∧ c ≠ '\r'
        constructor
        · intro h
          have := h.of_cons
          simp [isMultispace] at this
          simp [this]
        · intro h
          refine .cons ?_
          simp [isMultispace, h, hn]

variable [UniLib]

/-- The parts of a text that was read. -/
theorem loaded_parts {s : Str} {f : OsuFile D} (h : OsuFile.parse s = .ok f) :
    (3 ≤ f.version ∧ f.version ≤ 14) ∧ f.osb = none ∧
      ∀ n : SName, SectAbsent f n ∨ ∃ body, body ≠ [] ∧ (∀ a b, body ≠ a ++ '\n' :: '[' :: b) ∧ (NoBareCR s → '\r' ∉ body) ∧
        SectReads f.version f body n := by
  obtain ⟨ws, num, r, pre, xs, rest, hv, hk, hl, hp, hf⟩ := (C53_exact s f).1 h
  obtain ⟨-, h2, h3, h4, h5⟩ := hf
  obtain ⟨ls, k1, -, -, k4⟩ := hl
  obtain ⟨⟨bom, -, e⟩, -⟩ := hv
  refine ⟨⟨hk.2.1, hk.2.2⟩, h2, fun n => ?_⟩
  by_cases hn : n.text ∈ xs.map Sect.name
  · right
    obtain ⟨x, hx, e'⟩ := List.mem_map.1 hn
    obtain ⟨g1, m, g2, g3⟩ := h4 x hx
    have := SName.text_inj (g2.trans e')
    subst this
    have hb := sections_bodies k4 x hx g1
    refine ⟨x.body, g1, hb.bracket, fun hs hc => ?_, g3⟩
    obtain ⟨⟨a, c, e1, -⟩, -⟩ := hb
    refine (join_noCR (ls := ls) fun l hl hc => ?_) (by rw [e1]; simp [hc])
    obtain ⟨p, hp⟩ : ∃ p, p ++ l ∈ lines s := by
      rw [e]
      exact lines_app_mem (by rw [k1]; simp [hl])
    exact hs _ hp (by simp [hc])
  · exact .inl (h5 n hn)

/-- A file value that was loaded and can be saved as version `w` survives there. -/
theorem savable_survives {s : Str} {f : OsuFile D} (h : OsuFile.parse s = .ok f) {w : Nat} (hw : 3 ≤ w ∧ w ≤ 14) (hf : SavableAs w f) :
    FileSurvives { f with version := w } := by
  obtain ⟨hv, hosb, hbody⟩ := loaded_parts h
  refine ⟨hw, hosb, ?_, ?_, ?_, ?_, ?_, ?_, ?_, ?_⟩
  · intro x hx
    rcases hbody .general with ha | ⟨body, -, -, -, y, e1, e2⟩
    · rw [show f.general = none from ha] at hx; cases hx
    · rw [show f.general = some x from hx] at e2; cases e2
      exact ⟨(hf.general x hx).1, fun k y hy => ⟨C04_general_read e1 k y hy, (hf.general x hx).2 k y hy⟩⟩
  · intro x hx
    rcases hbody .editor with ha | ⟨body, -, -, -, y, e1, e2⟩
    · rw [show f.editor = none from ha] at hx; cases hx
    · rw [show f.editor = some x from hx] at e2; cases e2
      exact ⟨(hf.editor x hx).1, fun k y hy => ⟨C04_editor_read e1 k y hy, (hf.editor x hx).2 k y hy⟩⟩
  · intro x hx
    rcases hbody .metadata with ha | ⟨body, -, -, -, y, e1, e2⟩
    · rw [show f.metadata = none from ha] at hx; cases hx
    · rw [show f.metadata = some x from hx] at e2; cases e2
      exact ⟨hf.metadata x hx, fun k y hy => C04_metadata_read e1 k y hy⟩
  · intro x hx
    rcases hbody .difficulty with ha | ⟨body, -, -, -, y, e1, e2⟩
    · rw [show f.difficulty = none from ha] at hx; cases hx
    · rw [show f.difficulty = some x from hx] at e2; cases e2
      exact ⟨hf.difficulty x hx, fun k y hy => C04_difficulty_read e1 k y hy⟩
  · intro x hx
    rcases hbody .events with ha | ⟨body, -, hb, -, y, e1, e2⟩
    · rw [show f.events = none from ha] at hx; cases hx
    · rw [show f.events = some x from hx] at e2; cases e2
      obtain ⟨h1, h2⟩ := hf.events x hx
      exact ⟨h1, fun e he => ⟨evFits_at hw.1 (h2 e he).1 (h2 e he).2.1 (C34_read_fits e1 e he), (h2 e he).2.2⟩⟩
  · intro x hx
    rcases hbody .timingPoints with ha | ⟨body, hne, hb, -, y, e1, e2⟩
    · rw [show f.timingPoints = none from ha] at hx; cases hx
    · rw [show f.timingPoints = some x from hx] at e2; cases e2
      have hlf : ∀ t ∈ x, '\n' ∉ t.time.text ∧ '\n' ∉ t.beatLength.text := fun t htx => by
        obtain ⟨l, hl, -, hp⟩ := parseLines_mem e1 t htx
        have hlf := noC_mem.1 (lines_noLF _ l hl)
        exact ⟨fun hm => hlf (tp_texts hp (.inl hm)), fun hm => hlf (tp_texts hp (.inr hm))⟩
      obtain ⟨k1, k2⟩ := hf.points x hx
      refine ⟨k1, fun t htx => ?_, (firstPlain_iff ?_ ?_).2 k2⟩
      · obtain ⟨l, hl, -, hp⟩ := parseLines_mem e1 t htx
        exact ⟨tpSurvives_at hv.1 hw.1 hp (fun h4 => hf.pointTimes h4 x hx t htx) (fun h4 => hf.index h4 x hx t htx)
          (fun h3 h4 => hf.beatLength h3 h4 x hx t htx) (fun h5 h6 => hf.flags h5 h6 x hx t htx) (fun h3 => hf.upTo3 h3 x hx t htx)
          (fun h4 => hf.upTo4 h4 x hx t htx), hlf t htx⟩
      · intro d hd
        obtain ⟨t, ht, rfl⟩ := List.mem_map.1 hd
        exact (hlf t ht).1
      · intro d hd
        rw [← List.map_tail] at hd
        obtain ⟨t, ht, rfl⟩ := List.mem_map.1 hd
        exact items_rest (lead := TimingPoint.time) (fun _ _ => tp_lead) hb e1 t ht
  · intro x hx
    rcases hbody .colours with ha | ⟨body, -, hb, -, y, e1, e2⟩
    · rw [show f.colours = none from ha] at hx; cases hx
    · rw [show f.colours = some x from hx] at e2; cases e2
      refine ⟨(hf.colours x hx).1, (hf.colours x hx).2, fun c hc => ?_⟩
      unfold Colours.parse at e1
      split at e1
      · cases e1
      · obtain ⟨l', h1, h2⟩ := Res.bind_eq_ok'.1 e1
        cases h2
        obtain ⟨_, _, _, h3⟩ := parseLines_mem h1 c hc
        exact C11_read_is_writable h3
  · intro x hx
    rcases hbody .hitobjects with ha | ⟨body, hne, hb, -, y, e1, e2⟩
    · rw [show f.hitobjects = none from ha] at hx; cases hx
    · rw [show f.hitobjects = some x from hx] at e2; cases e2
      have hlf : ∀ o ∈ x, ∀ t ∈ o.texts, '\n' ∉ t := fun o ho t ht hm => by
        obtain ⟨l, hl, -, hp⟩ := parseLines_mem e1 o ho
        exact noC_mem.1 (lines_noLF _ l hl) (ho_texts hp (by decide) (List.mem_append_left _ ht) hm)
      obtain ⟨k1, k2⟩ := hf.objects x hx
      refine ⟨k1, fun o ho => ?_, (firstPlain_iff ?_ ?_).2 k2⟩
      · obtain ⟨l, hl, -, hp⟩ := parseLines_mem e1 o ho
        exact ⟨hoSurvives_at hw.1 hp (noC_mem.1 (lines_noLF _ l hl)) (fun h4 => hf.objectTimes h4 x hx o ho) (hf.sample x hx o ho)
          (fun h3 => hf.slider h3 x hx o ho), hlf o ho⟩
      · intro d hd
        obtain ⟨o, ho, rfl⟩ := List.mem_map.1 hd
        exact hlf o ho _ (by simp [HitObject.texts])
      · intro d hd
        rw [← List.map_tail] at hd
        obtain ⟨o, ho, rfl⟩ := List.mem_map.1 hd
        exact items_rest (lead := fun o : HitObject D => o.position.x) (fun _ _ => ho_lead) hb e1 o ho

/-- A file value that survives in version `w` and has another version can be saved as version `w`. -/
theorem savable_of_survives {f : OsuFile D} {w : Nat} (hw : 3 ≤ w) (h : FileSurvives { f with version := w }) : SavableAs w f where
  general x hx := ⟨(h.general x hx).1, fun k y hy => ((h.general x hx).2 k y hy).2⟩
  editor x hx := ⟨(h.editor x hx).1, fun k y hy => ((h.editor x hx).2 k y hy).2⟩
  metadata x hx := (h.metadata x hx).1
  difficulty x hx := (h.difficulty x hx).1
  events x hx := ⟨(h.events x hx).1, fun e he => ⟨fun c hc => by
    have := ((h.events x hx).2 e he).1.1
    rw [hc] at this
    have h1 : w < 14 := this.1
    omega, moved_of_fits hw ((h.events x hx).2 e he).1, ((h.events x hx).2 e he).2⟩⟩
  colours x hx := ⟨(h.colours x hx).1, (h.colours x hx).2.1⟩
  points x hx := by
    obtain ⟨h1, h2, h3⟩ := h.timingPoints x hx
    refine ⟨h1, (firstPlain_iff ?_ ?_).1 h3⟩
    · intro d hd
      obtain ⟨t, ht, rfl⟩ := List.mem_map.1 hd
      exact (h2 t ht).2.1
    · cases hm : x.map TimingPoint.time with
      | nil => nofun
      | cons d ds => rw [hm] at h3; exact h3.2
  index h4 x hx t ht n hn := by
    have := ((h.timingPoints x hx).2.1 t ht).1.index h4
    rw [hn] at this
    exact this.2
  beatLength h3 h4 x hx t ht := by
    have := ((h.timingPoints x hx).2.1 t ht).1.beatLength
    revert this
    cases hb : t.beatLength with
    | left d => intro _; simp [Decimal.text]
    | right q => exact fun this => this.2 h4
  flags _ h6 x hx t ht := ((h.timingPoints x hx).2.1 t ht).1.effects h6
  upTo3 h3 x hx t ht := ((h.timingPoints x hx).2.1 t ht).1.upTo3 (show w ≤ 3 by omega)
  upTo4 h4 x hx t ht := ((h.timingPoints x hx).2.1 t ht).1.upTo4 h4
  objects x hx := by
    obtain ⟨h1, h2, h3⟩ := h.hitobjects x hx
    refine ⟨h1, (firstPlain_iff ?_ ?_).1 h3⟩
    · intro d hd
      obtain ⟨o, ho, rfl⟩ := List.mem_map.1 hd
      exact (h2 o ho).2 _ (by simp [HitObject.texts])
    · cases hm : x.map (fun o : HitObject D => o.position.x) with
      | nil => nofun
      | cons d ds => rw [hm] at h3; exact h3.2
  sample x hx o ho := sampleKept_of hw ((h.hitobjects x hx).2.1 o ho).1
  slider h3 x hx o ho p hp c hc := by
    have := ((h.hitobjects x hx).2.1 o ho).1.kind
    rw [hp] at this
    refine SliderSurvives.position this h3 c ?_
    simp only [List.mem_cons, List.mem_nil_iff, or_false] at hc ⊢
    rcases hc with rfl | rfl <;> simp
  pointTimes _ x hx t ht d hd := by
    have := ((h.timingPoints x hx).2.1 t ht).1.time
    rw [hd] at this
    exact (timeBack_iff hw).1 this
  objectTimes _ x hx o ho d hd := times_of_survives hw ((h.hitobjects x hx).2.1 o ho).1 d hd

/-- What survives can be written. -/
theorem survives_prints {f : OsuFile D} (h : FileSurvives f) : ∃ p : SName → Option Str, ∀ n, SectPrints f (p n) n := by
  have lines : ∀ {α : Type} {shw : α → Option Str} {l : List α}, (∀ a ∈ l, ∃ s, shw a = some s) → ∃ t, printLinesP shw l = some t := by
    intro α shw l h
    suffices ∃ ls, l.mapM shw = some ls by
      obtain ⟨ls, e⟩ := this
      exact ⟨_, by unfold printLinesP; rw [e]; rfl⟩
    induction l with
    | nil => exact ⟨[], rfl⟩
    | cons a l ih =>
      obtain ⟨s, hs⟩ := h a (by simp)
      obtain ⟨ls, hl⟩ := ih fun b hb => h b (by simp [hb])
      exact ⟨s :: ls, by rw [List.mapM_cons, hs, hl]; rfl⟩
  have key : ∀ n, ∃ t, SectPrints f t n := by
    intro n
    cases n
    case general => exact ⟨_, rfl⟩
    case editor => exact ⟨_, rfl⟩
    case metadata => exact ⟨_, rfl⟩
    case difficulty => exact ⟨_, rfl⟩
    case colours => exact ⟨_, rfl⟩
    case events =>
      cases hx : f.events with
      | none => exact ⟨none, .inl ⟨hx, rfl⟩⟩
      | some x =>
        cases hs : Events.shw f.version x with
        | some t => exact ⟨some t, .inr ⟨x, t, hx, hs, rfl⟩⟩
        | none =>
          obtain ⟨t, ht, -⟩ := events_round_trip_fits (cr := true) (fun e he => ((h.events x hx).2 e he).1)
            (fun _ s h => by rw [hs] at h; cases h)
          rw [hs] at ht; cases ht
    case timingPoints =>
      cases hx : f.timingPoints with
      | none => exact ⟨none, .inl ⟨hx, rfl⟩⟩
      | some x =>
        obtain ⟨t, ht⟩ := lines (shw := TimingPoint.shw f.version) (l := x) fun a ha =>
          let ⟨s, hs, _⟩ := C15_exact.2 ((h.timingPoints x hx).2.1 a ha).1
          ⟨s, hs⟩
        exact ⟨some t, .inr ⟨x, t, hx, ht, rfl⟩⟩
    case hitobjects =>
      cases hx : f.hitobjects with
      | none => exact ⟨none, .inl ⟨hx, rfl⟩⟩
      | some x =>
        obtain ⟨t, ht⟩ := lines (shw := HitObject.shw f.version) (l := x) fun a ha =>
          let ⟨s, hs, _⟩ := C20_exact.2 ((h.hitobjects x hx).2.1 a ha).1
          ⟨s, hs⟩
        exact ⟨some t, .inr ⟨x, t, hx, ht, rfl⟩⟩
  exact ⟨fun n => (key n).choose, fun n => (key n).choose_spec⟩

theorem cleanEnds_lines {ls : List Str} (h : ∀ l ∈ ls, LineOK l) : CleanEnds (join ['\n'] ls) := by
  have one : ∀ {l : Str}, LineOK l → CleanEnds l := by
    intro l hl a b e
    refine ⟨?_, ?_⟩
    · rintro rfl
      exact hl.cr (by rw [e]; simp)
    · intro hb
      cases b with
      | nil => cases hb
      | cons c b =>
        cases hb
        exact noC_mem.1 hl.lf (by rw [e]; simp)
  induction ls with
  | nil => intro a b e; have := congrArg List.length e; simp [join] at this
  | cons x xs ih =>
    cases xs with
    | nil => exact one (h x (by simp))
    | cons y ys =>
      rw [join_cons_cons]
      have ih := ih fun l hl => h l (by simp [hl])
      intro a b e
      rw [List.append_assoc] at e
      rcases List.append_eq_append_iff.1 e with ⟨c, rfl, e'⟩ | ⟨c, e1, e2⟩
      · cases c with
        | nil => cases e'
        | cons d c =>
          injection e' with _ e'
          exact ih c b e'
      · cases c with
        | nil => cases e2
        | cons d c =>
          injection e2 with e2 e3
          subst e2
          obtain ⟨g1, g2⟩ := one (h x (by simp)) a c e1
          rw [e3]
          cases c with
          | nil => exact absurd rfl g1
          | cons d c => exact ⟨by simp, by simpa using g2⟩

theorem wellText_cleanEnds {t : Str} (h : WellText t) : CleanEnds t := by
  obtain ⟨ls, rfl, -, hl, -⟩ := h
  exact cleanEnds_lines hl

omit [DecLib D] [UniLib] in
theorem mapM_from {α β : Type} (f : α → Option β) (l : List α) (r : List β) (h : l.mapM f = some r) : ∀ y ∈ r, ∃ x ∈ l, f x = some y := by
  induction l generalizing r with
  | nil => cases h; simp
  | cons x l ih =>
    rw [List.mapM_cons] at h
    cases h1 : f x with
    | none => rw [h1] at h; cases h
    | some y =>
      cases h2 : l.mapM f with
      | none => rw [h1, h2] at h; cases h
      | some ys =>
        rw [h1, h2] at h
        cases h
        intro z hz
        rcases List.mem_cons.1 hz with rfl | hz
        · exact ⟨x, by simp, h1⟩
        · obtain ⟨w, hw, e⟩ := ih ys h2 z hz
          exact ⟨w, by simp [hw], e⟩

omit [DecLib D] [UniLib] in
/-- The text of a list of items has a character only from the text of an item. -/
theorem items_char {α : Type} {shw : α → Option Str} {l : List α} {t : Str} (ht : printLinesP shw l = some t) {c : Char} (hc : c ∈ t) (hn : c ≠ '\n') :
    ∃ a ∈ l, ∃ s, shw a = some s ∧ c ∈ s := by
  unfold printLinesP at ht
  obtain ⟨ls, hl, rfl⟩ := Option.map_eq_some_iff.1 ht
  have : ∃ s ∈ ls, c ∈ s := by
    clear hl ht
    induction ls with
    | nil => cases hc
    | cons x xs ih =>
      cases xs with
      | nil => exact ⟨x, by simp, hc⟩
      | cons y ys =>
        rw [join_cons_cons] at hc
        simp only [List.append_assoc, List.mem_append, List.mem_singleton] at hc
        rcases hc with hc | hc | hc
        · exact ⟨x, by simp, hc⟩
        · exact absurd hc hn
        · obtain ⟨s, hs, h⟩ := ih hc
          exact ⟨s, by simp [hs], h⟩
  obtain ⟨s, hs, hcs⟩ := this
  obtain ⟨a, ha, e⟩ := mapM_from shw l ls hl s hs
  exact ⟨a, ha, s, e, hcs⟩

theorem body_line_noCR {body : Str} (h : '\r' ∉ body) {l : Str} (hl : l ∈ lines body) : '\r' ∉ l := by
  intro hc
  obtain ⟨a, b, e, -⟩ := lines_mem_split h hl
  exact h (by rw [e]; simp [hc])

/-- Saved under version `w`, the sections of a file loaded from a text without carriage returns in its lines have no line that ends
in one. -/
theorem saved_cleanEnds {s : Str} {f : OsuFile D} (h : OsuFile.parse s = .ok f) (hs : NoBareCR s) {w : Nat} (hw : 3 ≤ w ∧ w ≤ 14)
    (hf : SavableAs w f) {n : SName} {t : Str} (hp : SectPrints { f with version := w } (some t) n) : CleanEnds t := by
  obtain ⟨hv, hosb, hbody⟩ := loaded_parts h
  have hsv := savable_survives h hw hf
  cases n
  case general =>
    obtain ⟨sec, hx, rfl⟩ := Option.map_eq_some_iff.1 (show some t = f.general.map _ from hp).symm
    obtain ⟨h1, h2⟩ := hsv.general sec hx
    exact wellText_cleanEnds (Schema.wellText (General_lawful D) general_bracket (fun k x t hx ht => (GKey.field _ k x t (h2 k x hx).1 ht).1) h1)
  case editor =>
    obtain ⟨sec, hx, rfl⟩ := Option.map_eq_some_iff.1 (show some t = f.editor.map _ from hp).symm
    obtain ⟨h1, h2⟩ := hsv.editor sec hx
    exact wellText_cleanEnds (Schema.wellText (Editor_lawful D) editor_bracket (fun k x t hx ht => (EKey.field _ k x t (h2 k x hx).1 ht).1) h1)
  case metadata =>
    obtain ⟨sec, hx, rfl⟩ := Option.map_eq_some_iff.1 (show some t = f.metadata.map _ from hp).symm
    obtain ⟨h1, h2⟩ := hsv.metadata sec hx
    exact wellText_cleanEnds (Schema.wellText Metadata_lawful metadata_bracket (fun k x t hx ht => (MKey.field _ k x t (h2 k x hx) ht).1) h1)
  case difficulty =>
    obtain ⟨sec, hx, rfl⟩ := Option.map_eq_some_iff.1 (show some t = f.difficulty.map _ from hp).symm
    obtain ⟨h1, h2⟩ := hsv.difficulty sec hx
    exact wellText_cleanEnds (Schema.wellText (Difficulty_lawful D) difficulty_bracket (fun k x t hx ht => by cases ht; exact DecOK.good (h2 k x hx)) h1)
  case colours =>
    obtain ⟨x, hx, ht⟩ := Option.bind_eq_some_iff.1 (show some t = f.colours.bind (Colours.shw w) from hp).symm
    exact wellText_cleanEnds (colours_wellText ht (hf.colours x hx).1)
  case events =>
    rcases hp with ⟨-, h1⟩ | ⟨x, t', hx, ht, h1⟩
    · cases h1
    cases h1
    rcases hbody .events with ha | ⟨body, -, -, hb, y, e1, e2⟩
    · rw [show f.events = none from ha] at hx; cases hx
    · rw [show f.events = some x from hx] at e2; cases e2
      obtain ⟨h1, h2⟩ := hf.events x hx
      obtain ⟨t', g1, -, ls, rfl, g4, -⟩ := events_round_trip_fits (cr := false) (v := w) (evs := x)
        (fun e he => evFits_at hw.1 (h2 e he).1 (h2 e he).2.1 (C34_read_is_writable (hb hs) e1 e he)) nofun
      rw [show Events.shw w x = some t from ht] at g1; cases g1
      exact cleanEnds_lines g4
  case timingPoints =>
    rcases hp with ⟨-, h1⟩ | ⟨x, t', hx, ht, h1⟩
    · cases h1
    cases h1
    rcases hbody .timingPoints with ha | ⟨body, -, -, hb, y, e1, e2⟩
    · rw [show f.timingPoints = none from ha] at hx; cases hx
    · rw [show f.timingPoints = some x from hx] at e2; cases e2
      refine cleanEnds_of_noCR fun hc => ?_
      obtain ⟨a, ha, q, hq, hcq⟩ := items_char ht hc (by decide)
      obtain ⟨l, hl, -, hr⟩ := parseLines_mem e1 a ha
      exact body_line_noCR (hb hs) hl (tp_texts hr ((tp_line_char hq (by decide) (by decide) (by decide)).1 hcq))
  case hitobjects =>
    rcases hp with ⟨-, h1⟩ | ⟨x, t', hx, ht, h1⟩
    · cases h1
    cases h1
    rcases hbody .hitobjects with ha | ⟨body, -, -, hb, y, e1, e2⟩
    · rw [show f.hitobjects = none from ha] at hx; cases hx
    · rw [show f.hitobjects = some x from hx] at e2; cases e2
      refine cleanEnds_of_noCR fun hc => ?_
      obtain ⟨a, ha, q, hq, hcq⟩ := items_char ht hc (by decide)
      obtain ⟨l, hl, -, hr⟩ := parseLines_mem e1 a ha
      obtain ⟨z, hz, hcz⟩ := ho_line_lf hq (.inr rfl) hcq
      exact body_line_noCR (hb hs) hl (ho_texts hr (by decide) hz hcz)

/-! ### Theorems -/

/-- Saving a loaded file under version `w`: the text, if no line of it ends in a carriage return, is read as the same value with
the new version exactly if the value can be saved as version `w`. -/
theorem C82_exact {s : Str} {f : OsuFile D} (h : OsuFile.parse s = .ok f) {w : Nat} (hw : 3 ≤ w ∧ w ≤ 14) {t : Str}
    (hp : OsuFile.shw { f with version := w } = some t) (hcr : CleanEnds t) :
    OsuFile.parse t = .ok { f with version := w } ↔ SavableAs w f :=
  ⟨fun hr => savable_of_survives hw.1 ((C41_iff hp hcr).1 hr), fun hf => (C41_iff hp hcr).2 (savable_survives h hw hf)⟩

/-- A loaded file that can be saved as version `w` is written under that version. -/
theorem C82_written {s : Str} {f : OsuFile D} (h : OsuFile.parse s = .ok f) {w : Nat} (hw : 3 ≤ w ∧ w ≤ 14) (hf : SavableAs w f) :
    ∃ t, OsuFile.shw { f with version := w } = some t :=
  let ⟨p, hp⟩ := survives_prints (savable_survives h hw hf)
  ⟨_, shw_iff.2 ⟨p, hp, rfl⟩⟩

/-- If the lines of the loaded text have no carriage returns, the text written under version `w` is read as the same value with
the new version. -/
theorem C82_save_as {s : Str} {f : OsuFile D} (h : OsuFile.parse s = .ok f) (hs : NoBareCR s) {w : Nat} (hw : 3 ≤ w ∧ w ≤ 14)
    (hf : SavableAs w f) : ∃ t, OsuFile.shw { f with version := w } = some t ∧ OsuFile.parse t = .ok { f with version := w } :=
  let ⟨_, hp⟩ := survives_prints (savable_survives h hw hf)
  survives_back hp (fun n t e => saved_cleanEnds h hs hw hf (e ▸ hp n)) (savable_survives h hw hf)

/-- And only then: if the text written under version `w` is read as the same value, the value can be saved as version `w`. -/
theorem C82_only {f : OsuFile D} {w : Nat} (hw : 3 ≤ w) {t : Str} (hp : OsuFile.shw { f with version := w } = some t) (hcr : CleanEnds t)
    (hr : OsuFile.parse t = .ok { f with version := w }) : SavableAs w f :=
  savable_of_survives hw ((C41_iff hp hcr).1 hr)

/-- Which fields stand in the way of the newest version. -/
theorem C82_newest_fields (x : (General D).Section) (y : (Editor D).Section) :
    ((∀ k z, x k = some z → GKey.existsIn 14 k z = true) ↔
      x .audioHash = none ∧ x .editorBookmarks = none ∧ x .editorDistanceSpacing = none) ∧
    ((∀ k z, y k = some z → EKey.existsIn 14 k z = true) ↔ y .currentTime = none) := by
  have none_of : ∀ {α : Type} {o : Option α}, (∀ z, o ≠ some z) → o = none := by
    intro α o h
    cases o with
    | none => rfl
    | some z => exact absurd rfl (h z)
  refine ⟨⟨fun h => ⟨none_of fun z hz => ?_, none_of fun z hz => ?_, none_of fun z hz => ?_⟩, ?_⟩, ⟨fun h => none_of fun z hz => ?_, ?_⟩⟩
  · exact absurd (h _ _ hz) (by simp [GKey.existsIn])
  · exact absurd (h _ _ hz) (by simp [GKey.existsIn])
  · exact absurd (h _ _ hz) (by simp [GKey.existsIn])
  · rintro ⟨h1, h2, h3⟩ k z hz
    cases k
    case audioHash => rw [h1] at hz; cases hz
    case editorBookmarks => rw [h2] at hz; cases hz
    case editorDistanceSpacing => rw [h3] at hz; cases hz
    case mode => cases z <;> rfl
    all_goals rfl
  · exact absurd (h _ _ hz) (by simp [EKey.existsIn])
  · intro h k z hz
    cases k
    case currentTime => rw [h] at hz; cases hz
    all_goals rfl

example : ∀ (k : GKey) z, (fun k => match k with | .audioLeadIn => some (5 : Int32) | _ => none : (General Dec96).Section) k = some z →
    GKey.existsIn 14 k z = true :=
  ((C82_newest_fields (D := Dec96) _ fun _ => none).1).2 ⟨rfl, rfl, rfl⟩

end

/-- With decimals of 96 bits the numbers of times that were moved are read back. -/
theorem C82_moved_times {d e : Dec96} (hd : DecLib.canon d) (h : DecLib.add24 d = some e) : NumberBack e := by
  refine Dec96.parse_shw ?_
  have h : Dec96.add24 d = some e := h
  unfold Dec96.add24 at h
  simp only at h
  split at h
  · rename_i hm
    cases h
    refine ⟨hm, hd.2.1, fun hn => ?_⟩
    simp only [Dec96.ofInt, decide_eq_true_eq] at hn ⊢
    omega
  · cases h

section
attribute [local instance] asciiUni

/-- A file of version 9 with a hit sample. -/
private def nine : Str := c!"osu file format v9\n\n[HitObjects]\n1,2,3,1,0,1:2:3:40:a.wav"

private def nineObject : HitObject Dec96 :=
  ⟨⟨.left ⟨false, 1, 0⟩, .left ⟨false, 2, 0⟩⟩, .left ⟨false, 3, 0⟩, .hitCircle, false, ⟨0⟩, ⟨false, false, false, false⟩,
    some ⟨.normal, .soft, .index 3, ⟨some 40⟩, c!"a.wav"⟩⟩

private def nineFile : OsuFile Dec96 := ⟨9, none, none, none, none, none, none, none, none, some [nineObject]⟩

private theorem nine_parse : OsuFile.parse nine = .ok nineFile := by rfl

private theorem nine_savable : SavableAs 14 nineFile where
  general := nofun
  editor := nofun
  metadata := nofun
  difficulty := nofun
  events := nofun
  colours := nofun
  points := nofun
  index := nofun
  beatLength := nofun
  flags := nofun
  upTo3 := nofun
  upTo4 := nofun
  objects x hx := by cases hx; exact ⟨by simp, trivial⟩
  sample x hx o ho := by
    cases hx
    obtain rfl := List.mem_singleton.1 ho
    refine ⟨nofun, fun h hh => ?_⟩
    cases hh
    exact .inr (by decide)
  slider := nofun
  pointTimes := nofun
  objectTimes h := absurd h (by decide)

private theorem nine_plain : NoBareCR nine := by unfold NoBareCR; decide

example : OsuFile.parse c!"osu file format v14\n\n[HitObjects]\n1,2,3,1,0,1:2:3:40:a.wav" = .ok { nineFile with version := 14 } := by
  obtain ⟨t, h1, h2⟩ := C82_save_as nine_parse nine_plain (w := 14) (by decide) nine_savable
  have : OsuFile.shw { nineFile with version := 14 } = some c!"osu file format v14\n\n[HitObjects]\n1,2,3,1,0,1:2:3:40:a.wav" := by rfl
  rw [this] at h1
  cases h1
  exact h2

/-- Saved under version 11 the file loses the volume and the file name. -/
example (t : Str) (h : OsuFile.shw { nineFile with version := 11 } = some t) (hcr : CleanEnds t) :
    OsuFile.parse t ≠ .ok { nineFile with version := 11 } := by
  intro hr
  have := ((C82_only (by decide) h hcr hr).sample _ rfl nineObject (by simp)).2 _ rfl
  cases this.2

/-- Whether the file can be saved as version 11 is seen from the text written for it. -/
example : ¬ SavableAs 11 nineFile := by
  have h : OsuFile.shw { nineFile with version := 11 } = some c!"osu file format v11\n\n[HitObjects]\n1,2,3,1,0,1:2:3" := by rfl
  rw [← C82_exact nine_parse (by decide) h (cleanEndsB_ok (by decide))]
  intro hr
  have : ((OsuFile.parse c!"osu file format v11\n\n[HitObjects]\n1,2,3,1,0,1:2:3" : Res (LErr FileErr) (OsuFile Dec96)) >>= fun f =>
      Res.ok ((f.hitobjects.getD []).map fun o => (o.hitsample.map fun h => h.filename))) = .ok [some []] := by decide
  rw [hr] at this
  exact absurd (Res.ok.inj this) (by decide)

/-- A file of version 5 with a timing point. -/
private def five : Str := c!"osu file format v5\n\n[TimingPoints]\n100,1.5,4,1,1,100"

private def fivePoint : TimingPoint Dec96 := ⟨.left ⟨false, 100, 0⟩, .left ⟨false, 15, 1⟩, 4, .normal, .index 1, ⟨100⟩, none, none⟩

private def fiveFile : OsuFile Dec96 := ⟨5, none, none, none, none, none, none, some [fivePoint], none, none⟩

private theorem five_parse : OsuFile.parse five = .ok fiveFile := by rfl

private theorem five_savable : SavableAs 3 fiveFile where
  general := nofun
  editor := nofun
  metadata := nofun
  difficulty := nofun
  events := nofun
  colours := nofun
  points x hx := by cases hx; exact ⟨by simp, trivial⟩
  index := nofun
  beatLength := nofun
  flags := nofun
  upTo3 _ x hx t ht := by cases hx; obtain rfl := List.mem_singleton.1 ht; exact ⟨rfl, rfl, rfl⟩
  upTo4 _ x hx t ht := by cases hx; obtain rfl := List.mem_singleton.1 ht; exact ⟨rfl, rfl, rfl⟩
  objects := nofun
  sample := nofun
  slider := nofun
  pointTimes _ x hx t ht d hd := by
    cases hx
    obtain rfl := List.mem_singleton.1 ht
    cases hd
    exact ⟨⟨false, 76, 0⟩, ⟨false, 76, 0⟩, by with_unfolding_all decide, by with_unfolding_all decide, by with_unfolding_all decide⟩
  objectTimes := nofun

/-- Saved as version 3 the time is written 24 lower, and only the beat length follows. -/
example : OsuFile.parse c!"osu file format v3\n\n[TimingPoints]\n76,1.5" = .ok { fiveFile with version := 3 } := by
  obtain ⟨t, h⟩ := C82_written five_parse (w := 3) (by decide) five_savable
  obtain ⟨t', h1, h2⟩ := C82_save_as five_parse (by unfold NoBareCR; decide) (w := 3) (by decide) five_savable
  have : OsuFile.shw { fiveFile with version := 3 } = some c!"osu file format v3\n\n[TimingPoints]\n76,1.5" := by rfl
  rw [this] at h h1
  cases h
  cases h1
  exact h2

example : NumberBack (⟨false, 135, 1⟩ : Dec96) :=
  C82_moved_times (d := ⟨true, 105, 1⟩) (by show Dec96.Canon _; decide) (by decide : Dec96.add24 ⟨true, 105, 1⟩ = some ⟨false, 135, 1⟩)

/-- A loaded file can lose something when it is saved under its own version and nothing when it is saved under a later one. -/
theorem C82_later_keeps_more : ∃ (s : Str) (f : OsuFile Dec96), OsuFile.parse s = .ok f ∧ NoBareCR s ∧
    ¬ SavableAs f.version f ∧ SavableAs 14 f := by
  refine ⟨nine, nineFile, nine_parse, nine_plain, ?_, nine_savable⟩
  intro h
  obtain ⟨⟨e, he⟩ | ⟨e, -⟩, -⟩ := (h.sample _ rfl nineObject (by simp)).2 _ rfl
  · cases he
  · cases e

/-- Raising the version number can make a loaded file unreadable: a timing point of version 5 may end after the uninherited flag,
later it must not. -/
theorem C82_false : ∃ (s t : Str) (f : OsuFile Dec96), OsuFile.parse s = .ok f ∧ OsuFile.shw { f with version := 14 } = some t ∧
    ¬ (OsuFile.parse t : Res (LErr FileErr) (OsuFile Dec96)).isOk := by
  refine ⟨c!"osu file format v5\n\n[TimingPoints]\n0,1,4,1,1,100,1", c!"osu file format v14\n\n[TimingPoints]\n0,1,4,1,1,100,1",
    ⟨5, none, none, none, none, none, none, some [⟨.left ⟨false, 0, 0⟩, .left ⟨false, 1, 0⟩, 4, .normal, .index 1, ⟨100⟩, some true, none⟩],
      none, none⟩, by rfl, by rfl, by decide⟩

end

end Osu
