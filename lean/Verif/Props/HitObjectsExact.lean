/-
C20 and C21, exactly: which hit objects are read back unchanged from what is written, and which lists of them.
-/
import Verif.Props.HitObjects
import Verif.Props.TimingPointsExact
import Verif.Props.Blanks

namespace Osu
open Parser

section
variable {D : Type} [DecLib D]

/-! ### Specification -/

/-- A decimal between commas that is read back unchanged: text that is no number and has no comma, or a number that the
decimal library reads back from its own text. -/
def FieldSurvives : Decimal D → Prop
  | .right s => (DecLib.parse s : Option D) = none ∧ ',' ∉ s
  | .left d => DecLib.parse (DecLib.shw d) = some d

/-- The same for the end of a hold note, which ends at a colon and may have commas. -/
def HoldEndSurvives (v : Nat) : Decimal D → Prop
  | .right s => (DecLib.parse s : Option D) = none ∧ ':' ∉ s
  | .left d => TimeSurvives v (.left d)

/-- A hit sample that is read back unchanged, in a version that writes it. -/
structure SampleSurvives (v : Nat) (h : HO.HitSample) : Prop where
  normalSet : HOSetNamed h.normalSet
  additionSet : HOSetNamed h.additionSet
  index : h.index ≠ .index 0
  short : ShortSample v → h.volume = ⟨none⟩ ∧ h.filename = []
  volume : ∀ n, h.volume.val = some n → 1 ≤ n.toNat ∧ n.toNat ≤ 100
  filename : ':' ∉ h.filename ∧ (h.filename = [] ∨ blanks h.filename = false)

/-- An optional hit sample at the end of a line. -/
def TailSurvives (v : Nat) (o : Option HO.HitSample) : Prop := ∀ h, o = some h → ¬ NoSample v ∧ SampleSurvives v h

/-- The parts of a slider that are read back unchanged. -/
structure SliderSurvives (v : Nat) (pos : Position D) (p : SlideParams D) (o : Option HO.HitSample) : Prop where
  points : ∀ c ∈ p.curvePoints, DecWritable pointX c.pos.x ∧ DecWritable pointY c.pos.y
  position : v = 3 → ∀ c ∈ ['|', '\r', '\n'], c ∉ pos.x.text ∧ c ∉ pos.y.text
  length : FieldSurvives p.length
  named : ∀ e ∈ p.edgeSets, HOSetNamed e.normalSet ∧ HOSetNamed e.additionSet
  sounds : p.edgeSoundsShort = true → p.edgeSounds = [] ∧ p.edgeSetsShort = true
  sets : p.edgeSetsShort = true → p.edgeSets = [] ∧ o = none
  sample : TailSurvives v o

/-- What follows the common fields. -/
def KindSurvives (v : Nat) (pos : Position D) (o : Option HO.HitSample) : HOParams D → Prop
  | .hitCircle => if v = 3 then o = some HO.HitSample.default else TailSurvives v o
  | .slider p => SliderSurvives v pos p o
  | .spinner e => TimeSurvives v e ∧ TailSurvives v o
  | .hold e => HoldEndSurvives v e ∧ if NoSample v then o = some HO.HitSample.default else ∃ h, o = some h ∧ SampleSurvives v h

/-- What is read back unchanged in version `v`. -/
structure HOSurvives (v : Nat) (o : HitObject D) : Prop where
  x : FieldSurvives o.position.x
  y : FieldSurvives o.position.y
  time : TimeSurvives v o.time
  skip : o.comboSkip.val.toNat ≤ 7
  kind : KindSurvives v o.position o.hitsample o.params

/-! ### Texts -/

theorem noC_mem {c : Char} {s : Str} : NoC c s ↔ c ∉ s := by
  constructor
  · intro h hc
    have := h _ hc
    simp at this
  · intro h d hd
    simp only [Bool.not_eq_true', beq_eq_false_iff_ne]
    rintro rfl
    exact h hd

theorem split_free {c : Char} {s : Str} (h : c ∉ s) : splitOnC c s = [s] := splitOnC_single_iff.2 ⟨rfl, noC_mem.2 h⟩

theorem split_preC (x : Str) (ps : List Str) : splitOnC ',' (x ++ preC ',' ps) = (x :: ps).flatMap (splitOnC ',') := by
  induction ps generalizing x with
  | nil => simp [preC_nil]
  | cons p ps ih => rw [preC_cons, splitOnC_mid, ih]; rfl

theorem split_flat_free {ps : List Str} {q : Str} (h : q ∈ ps.flatMap (splitOnC ',')) : ',' ∉ q := by
  obtain ⟨p, -, hq⟩ := List.mem_flatMap.1 h
  exact noC_mem.1 (splitOnC_chars ',' p q hq)

theorem field_survives {x : Decimal D} : (',' ∉ x.toStr ∧ x = Decimal.ofStr x.toStr) ↔ FieldSurvives x := by
  have : FieldSurvives x ↔ BeatSurvives 4 x := by cases x <;> simp [FieldSurvives, BeatSurvives]
  rw [this, ← beat_survives]; simp

theorem num_mem {c : Char} (hc : isNumChar c = false) {s : Str} (h : AllC isNumChar s) : c ∉ s := noC_mem.1 (HO.num_noC hc h)

/-! ### The common fields -/

theorem ho_reads_head {v : Nat} {o : HitObject D} {ps : List Str} (h : HOReads v ps o) :
    ∃ x y t qs, ps = x :: y :: t :: qs ∧ o.position.x = Decimal.ofStr x ∧ o.position.y = Decimal.ofStr y ∧ TimeReads v t o.time := by
  cases h with
  | circle h => exact ⟨_, _, _, _, rfl, h.x, h.y, h.time⟩
  | slider h => exact ⟨_, _, _, _, rfl, h.x, h.y, h.time⟩
  | spinner h => exact ⟨_, _, _, _, rfl, h.x, h.y, h.time⟩
  | hold h => exact ⟨_, _, _, _, rfl, h.x, h.y, h.time⟩

theorem ho_head_free {v : Nat} {o : HitObject D} {tm : Str} (htm : o.time.toStrShifted v = some tm) {qs : List Str}
    (h : HOReads v ((o.position.x.toStr :: o.position.y.toStr :: tm :: qs).flatMap (splitOnC ',')) o) :
    ',' ∉ o.position.x.toStr ∧ ',' ∉ o.position.y.toStr ∧ ',' ∉ tm := by
  obtain ⟨x, y, t, ps, e, h1, h2, h3⟩ := ho_reads_head h
  have free : ∀ q ∈ x :: y :: t :: ps, ',' ∉ q := fun q hq => split_flat_free (by rw [e]; exact hq)
  have hx := beat_head (free x (by simp)) h1
  have hy := beat_head (free y (by simp)) h2
  exact ⟨hx, hy, time_head htm (free t (by simp)) h3⟩

/-- What follows the common fields. -/
def TailReads (v : Nat) (qs : List Str) (o : Option HO.HitSample) : HOParams D → Prop
  | .hitCircle => SampleTail qs o
  | .slider p => ∃ c m l qs', qs = c :: m :: l :: qs' ∧ SliderReads v c m l qs' p o
  | .spinner e => ∃ q qs', qs = q :: qs' ∧ TimeReads v q e ∧ SampleTail qs' o
  | .hold e => ∃ q qs', qs = q :: qs' ∧ HoldReads v (join [','] (q :: qs')) e o

theorem ho_reads_iff {v : Nat} {o : HitObject D} {tm : Str} {qs : List Str} :
    HOReads v (o.position.x.toStr :: o.position.y.toStr :: tm :: u8ToStr o.typeByte :: o.hitsound.shw :: qs) o ↔
      (o.position.x = Decimal.ofStr o.position.x.toStr ∧ o.position.y = Decimal.ofStr o.position.y.toStr ∧ TimeReads v tm o.time ∧
        o.comboSkip.val.toNat ≤ 7) ∧ TailReads v qs o.hitsample o.params := by
  constructor
  · intro h
    have skip : ∀ {x y t ty hs : Str} {n : Int32}, HOHead v x y t ty hs n o → o.comboSkip.val.toNat ≤ 7 := fun h => by
      have := h.skip
      omega
    generalize hx : o.position.x.toStr :: _ = ps at h
    cases h with
    | circle h _ hp hq => cases hx; exact ⟨⟨h.x, h.y, h.time, skip h⟩, by rw [hp]; exact hq⟩
    | slider h _ _ hp hq => cases hx; exact ⟨⟨h.x, h.y, h.time, skip h⟩, by rw [hp]; exact ⟨_, _, _, _, rfl, hq⟩⟩
    | spinner h _ _ _ hp he hq => cases hx; exact ⟨⟨h.x, h.y, h.time, skip h⟩, by rw [hp]; exact ⟨_, _, rfl, he, hq⟩⟩
    | hold h _ _ _ _ hp hq => cases hx; exact ⟨⟨h.x, h.y, h.time, skip h⟩, by rw [hp]; exact ⟨_, _, rfl, hq⟩⟩
  · rintro ⟨⟨hx, hy, ht, hk⟩, h⟩
    obtain ⟨n, h4, h5⟩ := HitObject.parseI32_u8ToStr o.typeByte
    have hn := HitObject.typeByte_toNat hk
    have hkind : HitObject.kindOf o.params = 1 ∨ HitObject.kindOf o.params = 2 ∨ HitObject.kindOf o.params = 8 ∨ HitObject.kindOf o.params = 128 := by
      cases o.params <;> simp [HitObject.kindOf]
    have head : HOHead v o.position.x.toStr o.position.y.toStr tm (u8ToStr o.typeByte) o.hitsound.shw n o := by
      refine ⟨hx, hy, ht, h4, ?_, ?_, HO.HitSound.round _⟩
      · unfold typeBit
        rw [h5, hn]
        cases o.newCombo
        · simp; omega
        · simp; omega
      · rw [h5, hn]
        cases o.newCombo
        · simp; omega
        · simp; omega
    have bits : (typeBit n 0 ↔ HitObject.kindOf o.params = 1) ∧ (typeBit n 1 ↔ HitObject.kindOf o.params = 2) ∧
        (typeBit n 3 ↔ HitObject.kindOf o.params = 8) ∧ (typeBit n 7 ↔ HitObject.kindOf o.params = 128) := by
      unfold typeBit
      rw [h5, hn]
      cases o.newCombo
      · simp; omega
      · simp; omega
    obtain ⟨b0, b1, b3, b7⟩ := bits
    cases hp : o.params with
    | hitCircle =>
      rw [hp] at h b0
      exact .circle head (b0.2 rfl) hp h
    | slider p =>
      rw [hp] at h b0 b1
      obtain ⟨c, m, l, qs', rfl, h⟩ := h
      exact .slider head (fun h => by cases b0.1 h) (b1.2 rfl) hp h
    | spinner e =>
      rw [hp] at h b0 b1 b3
      obtain ⟨q, qs', rfl, h1, h2⟩ := h
      exact .spinner head (fun h => by cases b0.1 h) (fun h => by cases b1.1 h) (b3.2 rfl) hp h1 h2
    | hold e =>
      rw [hp] at h b0 b1 b3 b7
      obtain ⟨q, qs', rfl, h⟩ := h
      exact .hold head (fun h => by cases b0.1 h) (fun h => by cases b1.1 h) (fun h => by cases b3.1 h) (b7.2 rfl) hp h

/-! ### The line -/

/-- The curve of a slider as it is written. -/
def curveText (v : Nat) (pos : Position D) (p : SlideParams D) : Str :=
  if v = 3 then p.curveType.shw ++ '|' :: HitObject.pipeStr HO.CurvePoint.shw (⟨pos⟩ :: p.curvePoints)
  else if p.curvePoints ≠ [] then p.curveType.shw ++ '|' :: HitObject.pipeStr HO.CurvePoint.shw p.curvePoints
  else p.curveType.shw

/-- The edge sounds and sets of a slider as they are written. -/
def edgeTexts (p : SlideParams D) (o : Option HO.HitSample) : List Str :=
  (if p.edgeSounds ≠ [] ∨ p.edgeSoundsShort = false ∨ p.edgeSets ≠ [] ∨ p.edgeSetsShort = false ∨ o.isSome
    then [HitObject.pipeStr HO.HitSound.shw p.edgeSounds] else []) ++
  (if p.edgeSets ≠ [] ∨ p.edgeSetsShort = false ∨ o.isSome then [HitObject.pipeStr HO.EdgeSet.shw p.edgeSets] else [])

/-- What is written after the common fields. -/
def lineTail (v : Nat) (o : HitObject D) : Option (List Str) :=
  match o.params with
  | .hitCircle => some (if v = 3 then [[]] else HitObject.sampleList v o.hitsample)
  | .slider p => some (curveText v o.position p :: i32ToStr p.slides :: p.length.toStr ::
      (edgeTexts p o.hitsample ++ HitObject.sampleList v o.hitsample))
  | .spinner e => (e.toStrShifted v).map fun t => t :: HitObject.sampleList v o.hitsample
  | .hold e => (e.toStrShifted v).map fun t => [t ++ ':' :: HitObject.sampleText v o.hitsample]

theorem ho_shw_form (v : Nat) (o : HitObject D) :
    o.shw v = (o.time.toStrShifted v).bind fun tm => (lineTail v o).map fun ts =>
      o.position.x.toStr ++ preC ',' (o.position.y.toStr :: tm :: u8ToStr o.typeByte :: o.hitsound.shw :: ts) := by
  unfold HitObject.shw lineTail
  cases o.time.toStrShifted v with
  | none => rfl
  | some tm =>
    simp only [Option.bind_some]
    cases hp : o.params with
    | hitCircle =>
      simp only [Option.map_some]
      by_cases hv : v = 3
      · have hs : HitObject.sampleList v o.hitsample = [] := by
          cases o.hitsample with
          | none => rfl
          | some hsm => simp [HitObject.sampleList, (HO.HitSample.print_none (h := hsm) (v := v) (by subst hv; decide)).1]
        rw [if_pos hv, if_pos hv, hs]
        simp [join_eq_preC, preC]
      · rw [if_neg hv, if_neg hv]
        simp [join_eq_preC, preC]
    | slider p =>
      simp only [Option.map_some]
      congr 1
      unfold HitObject.sliderTail curveText edgeTexts
      by_cases hv : v = 3
      · simp [hv, join_eq_preC, preC]
      · by_cases hpts : p.curvePoints = []
        · simp [hv, hpts, join_eq_preC, preC]
        · simp [hv, hpts, join_eq_preC, preC]
    | spinner e =>
      simp only
      cases e.toStrShifted v with
      | none => rfl
      | some te => simp [join_eq_preC, preC]
    | hold e =>
      simp only
      cases e.toStrShifted v with
      | none => rfl
      | some te => simp [join_eq_preC, preC]

/-! ### Hit samples -/

theorem usize_colon (n : UInt64) : AllC isNumChar (usizeToStr n) := (parseUsize_chars (parseUsize_usizeToStr n)).2

theorem volume_num (x : HO.Volume) : AllC isNumChar x.shw := by
  unfold HO.Volume.shw
  cases x.val with
  | none => decide
  | some n => exact (parseU8_chars (parseU8_u8ToStr n)).2

theorem dropBlank_cons {a : Str} {l : List Str} (h : l ≠ []) : dropBlankLast (a :: l) = a :: dropBlankLast l := by
  cases l with
  | nil => exact absurd rfl h
  | cons b l => rfl

theorem filename_exact {f : Str} :
    f = ((dropBlankLast (splitOnC ':' f))[0]?).getD [] ↔ ':' ∉ f ∧ (f = [] ∨ blanks f = false) := by
  constructor
  · intro h
    cases hs : splitOnC ':' f with
    | nil => exact absurd hs (splitOnC_ne_nil _ _)
    | cons g r =>
      rw [hs] at h
      cases r with
      | nil =>
        obtain ⟨rfl, hf⟩ := splitOnC_single_iff.1 hs
        refine ⟨noC_mem.1 hf, ?_⟩
        unfold dropBlankLast at h
        cases hb : blanks f with
        | false => exact .inr rfl
        | true => rw [hb] at h; exact .inl h
      | cons g' r =>
        rw [dropBlank_cons (by simp)] at h
        simp only [List.getElem?_cons_zero, Option.getD_some] at h
        have hc : ':' ∉ f := by
          rw [h]; exact noC_mem.1 (splitOnC_chars ':' f g (by rw [hs]; simp))
        rw [split_free hc] at hs
        cases hs
  · rintro ⟨h1, h2⟩
    rw [split_free h1]
    unfold dropBlankLast
    rcases h2 with rfl | h2
    · rfl
    · simp [h2]

theorem sample_exact {v : Nat} {h : HO.HitSample} {t : Str} (hv : ¬ NoSample v) (ht : h.shw v = some t) :
    SampleReads (splitOnC ':' t) h ↔ SampleSurvives v h := by
  have ca := num_mem (c := ':') (by decide) (usize_colon h.normalSet.code)
  have cb := num_mem (c := ':') (by decide) (usize_colon h.additionSet.code)
  have ci := num_mem (c := ':') (by decide) (usize_colon h.index.code)
  have cv := num_mem (c := ':') (by decide) (volume_num h.volume)
  have hib : blanks (usizeToStr h.index.code) = false := HO.notBlank_num (parseUsize_usizeToStr _)
  have ea : HO.SampleSet.parse (usizeToStr h.normalSet.code) = .ok h.normalSet ↔ HOSetNamed h.normalSet :=
    ⟨HO.SampleSet.named_parse, HO.SampleSet.round⟩
  have eb : HO.SampleSet.parse (usizeToStr h.additionSet.code) = .ok h.additionSet ↔ HOSetNamed h.additionSet :=
    ⟨HO.SampleSet.named_parse, HO.SampleSet.round⟩
  have ei : HO.SampleIndex.parse (usizeToStr h.index.code) = .ok h.index ↔ h.index ≠ .index 0 :=
    ⟨HO.SampleIndex.valid_parse, HO.SampleIndex.round⟩
  have hv' : ¬ (3 ≤ v ∧ v ≤ 9) := hv
  unfold HO.HitSample.shw at ht
  rw [if_neg hv'] at ht
  by_cases hs : ShortSample v
  · have hs' : 10 ≤ v ∧ v ≤ 11 := hs
    rw [if_pos hs'] at ht
    cases ht
    have e : splitOnC ':' (h.normalSet.shw ++ [':'] ++ h.additionSet.shw ++ [':'] ++ h.index.shw) =
        [usizeToStr h.normalSet.code, usizeToStr h.additionSet.code, usizeToStr h.index.code] := by
      simp only [List.append_assoc, List.singleton_append, List.cons_append, List.nil_append, splitOnC_mid, HO.SampleSet.shw, HO.SampleIndex.shw]
      rw [split_free ca, split_free cb, split_free ci]; rfl
    rw [e]
    have hd : dropBlankLast [usizeToStr h.normalSet.code, usizeToStr h.additionSet.code, usizeToStr h.index.code] =
        [usizeToStr h.normalSet.code, usizeToStr h.additionSet.code, usizeToStr h.index.code] := by simp [dropBlankLast, hib]
    constructor
    · rintro ⟨h1, h2, h3, h4, h5⟩
      rw [hd] at h1 h2 h3 h4 h5
      have h4 : h.volume = ⟨none⟩ := h4
      have h5 : h.filename = [] := h5
      exact ⟨ea.1 h1, eb.1 h2, ei.1 h3, fun _ => ⟨h4, h5⟩, fun n hn => (by rw [h4] at hn; cases hn), by rw [h5]; simp⟩
    · rintro ⟨h1, h2, h3, h4, h5, h6⟩
      obtain ⟨h4, h4'⟩ := h4 hs
      refine ⟨?_, ?_, ?_, ?_, ?_⟩ <;> rw [hd]
      · exact ea.2 h1
      · exact eb.2 h2
      · exact ei.2 h3
      · exact h4
      · exact h4'
  · have hs' : ¬ (10 ≤ v ∧ v ≤ 11) := hs
    rw [if_neg hs'] at ht
    cases ht
    have ev : HO.Volume.parse h.volume.shw = .ok h.volume ↔ ∀ n, h.volume.val = some n → 1 ≤ n.toNat ∧ n.toNat ≤ 100 :=
      ⟨HO.Volume.valid_parse, HO.Volume.round⟩
    have e : splitOnC ':' (h.normalSet.shw ++ [':'] ++ h.additionSet.shw ++ [':'] ++ h.index.shw ++ [':'] ++ h.volume.shw ++ [':'] ++ h.filename) =
        usizeToStr h.normalSet.code :: usizeToStr h.additionSet.code :: usizeToStr h.index.code :: h.volume.shw :: splitOnC ':' h.filename := by
      simp only [List.append_assoc, List.singleton_append, List.cons_append, List.nil_append, splitOnC_mid, HO.SampleSet.shw, HO.SampleIndex.shw]
      rw [split_free ca, split_free cb, split_free ci,
        split_free cv]; rfl
    rw [e]
    have hd : dropBlankLast (usizeToStr h.normalSet.code :: usizeToStr h.additionSet.code :: usizeToStr h.index.code :: h.volume.shw :: splitOnC ':' h.filename) =
        usizeToStr h.normalSet.code :: usizeToStr h.additionSet.code :: usizeToStr h.index.code :: h.volume.shw :: dropBlankLast (splitOnC ':' h.filename) := by
      rw [dropBlank_cons (by simp), dropBlank_cons (by simp), dropBlank_cons (by simp), dropBlank_cons (splitOnC_ne_nil _ _)]
    have hf := filename_exact (f := h.filename)
    constructor
    · rintro ⟨h1, h2, h3, h4, h5⟩
      rw [hd] at h1 h2 h3 h4 h5
      exact ⟨ea.1 h1, eb.1 h2, ei.1 h3, fun h => absurd h hs, ev.1 h4, hf.1 h5⟩
    · rintro ⟨h1, h2, h3, h4, h5, h6⟩
      refine ⟨?_, ?_, ?_, ?_, ?_⟩ <;> rw [hd]
      · exact ea.2 h1
      · exact eb.2 h2
      · exact ei.2 h3
      · exact ev.2 h5
      · exact hf.2 h6

theorem sampleTail_iff {t : Str} {o : Option HO.HitSample} :
    SampleTail (splitOnC ',' t) o ↔ ∃ h, SampleReads (splitOnC ':' t) h ∧ o = some h := by
  have hj := join_splitOnC ',' t
  cases hs : splitOnC ',' t with
  | nil => exact absurd hs (splitOnC_ne_nil _ _)
  | cons q qs =>
    rw [hs] at hj
    unfold SampleTail
    simp only [hj]

theorem sample_written {v : Nat} (hv : ¬ NoSample v) (h : HO.HitSample) : ∃ t, h.shw v = some t := by
  have hv' : ¬ (3 ≤ v ∧ v ≤ 9) := hv
  unfold HO.HitSample.shw
  rw [if_neg hv']
  split <;> exact ⟨_, rfl⟩

theorem tail_sample {v : Nat} {o : Option HO.HitSample} :
    SampleTail ((HitObject.sampleList v o).flatMap (splitOnC ',')) o ↔ TailSurvives v o := by
  cases o with
  | none => exact ⟨fun _ h hh => (by cases hh), fun _ => rfl⟩
  | some h =>
    by_cases hv : NoSample v
    · have e : HitObject.sampleList v (some h) = [] := by simp [HitObject.sampleList, (HO.HitSample.print_none (h := h) hv).1]
      rw [e]
      exact ⟨fun h => (by cases h), fun hh => absurd hv (hh h rfl).1⟩
    · obtain ⟨t, ht⟩ := sample_written hv h
      have e : HitObject.sampleList v (some h) = [t] := by simp [HitObject.sampleList, ht]
      rw [e, List.flatMap_cons, List.flatMap_nil, List.append_nil, sampleTail_iff]
      constructor
      · rintro ⟨h', h1, h2⟩ x hx
        cases h2; cases hx
        exact ⟨hv, (sample_exact hv ht).1 h1⟩
      · intro hh
        exact ⟨h, (sample_exact hv ht).2 (hh h rfl).2, rfl⟩

theorem sample_default {h : HO.HitSample} : SampleReads (splitOnC ':' []) h ↔ h = HO.HitSample.default := by
  constructor
  · rintro ⟨h1, h2, h3, h4, h5⟩
    cases h
    cases h1; cases h2; cases h3; cases h4; cases h5
    rfl
  · rintro rfl; exact HO.sampleReads_nil

/-! ### Hold notes -/

theorem hold_time {v : Nat} {x : Decimal D} {p : Str} (hp : x.toStrShifted v = some p) :
    (':' ∉ p ∧ TimeReads v p x) ↔ HoldEndSurvives v x := by
  cases x with
  | right s =>
    obtain rfl : s = p := Option.some.inj hp
    unfold TimeReads HoldEndSurvives
    cases h : (DecLib.parse s : Option D) with
    | none => simp [h]
    | some d =>
      simp only [h, reduceCtorEq, false_and, iff_false]
      rintro ⟨-, h⟩
      split at h
      · obtain ⟨_, _, h⟩ := h; cases h
      · cases h
  | left d =>
    have hc : ':' ∉ p := fun h => by
      have := (shifted_char hp (c := ':') (by decide)).1 h
      cases this
    have hc' : ',' ∉ p := fun h => by
      have := (shifted_char hp (c := ',') (by decide)).1 h
      cases this
    have := time_survives hp
    simp only [hc', not_false_iff, true_and] at this
    simp only [hc, not_false_iff, true_and, this]
    rfl

theorem hold_head {v : Nat} {x : Decimal D} {p q : Str} (hp : x.toStrShifted v = some p) {c : Char} (hc : isDecChar c = false)
    (hq : c ∉ q) (h : TimeReads v q x) : c ∉ p :=
  fun hm => hq (time_text_mem h ((shifted_char hp hc).1 hm))

theorem mid_unique {c : Char} {a b a' b' : Str} (h : a ++ c :: b = a' ++ c :: b') (ha : c ∉ a) (ha' : c ∉ a') : a = a' ∧ b = b' := by
  induction a generalizing a' with
  | nil =>
    cases a' with
    | nil => exact ⟨rfl, (List.cons.inj h).2⟩
    | cons d a' => exact absurd (by rw [← (List.cons.inj h).1]; simp) ha'
  | cons d a ih =>
    cases a' with
    | nil => exact absurd (by rw [(List.cons.inj h).1]; simp) ha
    | cons d' a' =>
      obtain ⟨rfl, h'⟩ := List.cons.inj h
      obtain ⟨rfl, rfl⟩ := ih h' (fun hc => ha (by simp [hc])) (fun hc => ha' (by simp [hc]))
      exact ⟨rfl, rfl⟩

theorem hold_exact {v : Nat} {e : Decimal D} {te : Str} (hte : e.toStrShifted v = some te) {o : Option HO.HitSample} :
    HoldReads v (te ++ ':' :: HitObject.sampleText v o) e o ↔
      HoldEndSurvives v e ∧ if NoSample v then o = some HO.HitSample.default else ∃ h, o = some h ∧ SampleSurvives v h := by
  have smp : (∃ h, SampleReads (splitOnC ':' (HitObject.sampleText v o)) h ∧ o = some h) ↔
      if NoSample v then o = some HO.HitSample.default else ∃ h, o = some h ∧ SampleSurvives v h := by
    by_cases hv : NoSample v
    · have e : HitObject.sampleText v o = [] := by
        cases o with
        | none => rfl
        | some h => simp [HitObject.sampleText, (HO.HitSample.print_none (h := h) hv).1]
      rw [if_pos hv, e]
      simp only [sample_default, exists_eq_left]
    · rw [if_neg hv]
      cases o with
      | none => simp
      | some h =>
        obtain ⟨t, ht⟩ := sample_written hv h
        have e : HitObject.sampleText v (some h) = t := by simp [HitObject.sampleText, ht]
        rw [e]
        constructor
        · rintro ⟨h', h1, h2⟩; cases h2; exact ⟨h, rfl, (sample_exact hv ht).1 h1⟩
        · rintro ⟨h', h1, h2⟩; cases h1; exact ⟨h, (sample_exact hv ht).2 h2, rfl⟩
  rw [← smp, ← hold_time hte]
  constructor
  · rintro ⟨a, b, h, h1, h2, h3, h4, h5⟩
    have ha : ':' ∉ a := noC_mem.1 (lacks_iff.1 h2)
    have hc := hold_head hte (c := ':') (by decide) ha h3
    obtain ⟨rfl, rfl⟩ := mid_unique h1 hc ha
    exact ⟨⟨ha, h3⟩, h, h4, h5⟩
  · rintro ⟨⟨h1, h2⟩, h, h3, h4⟩
    exact ⟨te, _, h, rfl, lacks_iff.2 (noC_mem.2 h1), h2, h3, h4⟩

/-! ### Sliders -/

theorem pipe_mem {ε α : Type} {f : Str → Res ε α} {p : Str} {l : List α} (h : PipeReads f p l) {a : α} (ha : a ∈ l) :
    lacks '\r' p = true ∧ lacks '\n' p = true ∧ ∃ q ∈ splitOnC '|' p, f q = .ok a := by
  rcases h with ⟨-, rfl⟩ | ⟨h1, h2, h3⟩
  · cases ha
  · refine ⟨h1, h2, ?_⟩
    have : (.ok a : Res ε α) ∈ l.map .ok := List.mem_map.2 ⟨a, ha, rfl⟩
    rw [← h3] at this
    obtain ⟨q, hq, e⟩ := List.mem_map.1 this
    exact ⟨q, hq, e⟩

theorem ofStr_writable {f : Char → Bool} {q : Str} (h : ∀ c ∈ q, f c = true) : DecWritable f (Decimal.ofStr q : Decimal D) := by
  unfold Decimal.ofStr
  cases hq : (DecLib.parse q : Option D) with
  | some d => exact DecLib.parse_canon hq
  | none => exact ⟨hq, h⟩

/-- The points read from a curve can be written. -/
theorem curve_points {v : Nat} {c : Str} {ct : HO.CurveType} {pts : List (HO.CurvePoint D)} (h : CurveReads v c ct pts) (hc : ',' ∉ c) :
    ∀ pt ∈ pts, DecWritable pointX pt.pos.x ∧ DecWritable pointY pt.pos.y := by
  intro pt hpt
  rcases h with ⟨-, rfl⟩ | ⟨a, b, l, rfl, -, -, hr, hl⟩
  · cases hpt
  · have hm : pt ∈ l := by
      rw [hl] at hpt
      split at hpt
      · exact List.mem_of_mem_tail hpt
      · exact hpt
    obtain ⟨h1, h2, q, hq, hp⟩ := pipe_mem hr hm
    obtain ⟨x, y, e, hx, ex, ey⟩ := HO.CurvePoint.parse_iff.1 hp
    have hbar := noC_mem.1 (splitOnC_chars '|' b q hq)
    have hsub : ∀ d ∈ q, d ∈ b := fun d hd => splitOnC_sub hq hd
    have hr := noC_mem.1 (lacks_iff.1 h1)
    have hn := noC_mem.1 (lacks_iff.1 h2)
    have hy : ∀ d ∈ q, pointY d = true := by
      intro d hd
      have n1 : d ≠ ',' := by rintro rfl; exact hc (by simp [hsub _ hd])
      have n2 : d ≠ '\n' := by rintro rfl; exact hn (hsub _ hd)
      have n3 : d ≠ '\r' := by rintro rfl; exact hr (hsub _ hd)
      have n4 : d ≠ '|' := by rintro rfl; exact hbar hd
      simp [pointY, n1, n2, n3, n4]
    rw [ex, ey]
    refine ⟨ofStr_writable fun d hd => ?_, ofStr_writable fun d hd => hy d (by rw [e]; simp [hd])⟩
    have h3 := hy d (by rw [e]; simp [hd])
    have h4 : d ≠ ':' := by rintro rfl; exact noC_mem.1 hx hd
    simp only [pointY, Bool.not_eq_true', Bool.or_eq_false_iff] at h3
    simp [pointX, h3, h4]

theorem point_pipe {pt : HO.CurvePoint D} (h : DecWritable pointX pt.pos.x ∧ DecWritable pointY pt.pos.y) : AllC pipeC pt.shw :=
  (curvePoint_print h.1 h.2).2

theorem pipe_chars {s : Str} (h : AllC pipeC s) : ',' ∉ s ∧ '\r' ∉ s ∧ '\n' ∉ s ∧ '|' ∉ s := by
  refine ⟨fun hc => ?_, fun hc => ?_, fun hc => ?_, fun hc => ?_⟩ <;> exact absurd (h _ hc) (by decide)

theorem mem_join_bar {c : Char} {ls : List Str} (h : c ∈ join ['|'] ls) : c = '|' ∨ ∃ q ∈ ls, c ∈ q := by
  induction ls with
  | nil => cases h
  | cons x r ih =>
    cases r with
    | nil => exact .inr ⟨x, by simp, h⟩
    | cons y r =>
      rw [join_cons_cons, List.append_assoc, List.singleton_append, List.mem_append, List.mem_cons] at h
      rcases h with h | h | h
      · exact .inr ⟨x, by simp, h⟩
      · exact .inl h
      · rcases ih h with h | ⟨q, hq, h⟩
        · exact .inl h
        · exact .inr ⟨q, by simp at hq ⊢; exact .inr hq, h⟩

theorem point_mem {c : Char} {pos : Position D} (hc : c ≠ ':') (h : c ∈ (⟨pos⟩ : HO.CurvePoint D).shw) : c ∈ pos.x.toStr ∨ c ∈ pos.y.toStr := by
  unfold HO.CurvePoint.shw at h
  simpa [hc] using h

/-- The written curve has no comma if the points can be written and the position has none. -/
theorem curveText_free {v : Nat} {pos : Position D} {p : SlideParams D}
    (h : ∀ c ∈ p.curvePoints, DecWritable pointX c.pos.x ∧ DecWritable pointY c.pos.y)
    (hx : ',' ∉ pos.x.toStr) (hy : ',' ∉ pos.y.toStr) : ',' ∉ curveText v pos p := by
  have ct : ',' ∉ p.curveType.shw := by cases p.curveType <;> decide
  have pts : ∀ l : List (HO.CurvePoint D), (∀ c ∈ l, ',' ∉ c.shw) → ',' ∉ p.curveType.shw ++ '|' :: HitObject.pipeStr HO.CurvePoint.shw l := by
    intro l hl hm
    rcases List.mem_append.1 hm with hm | hm
    · exact ct hm
    · rcases List.mem_cons.1 hm with hm | hm
      · revert hm; decide
      · rcases mem_join_bar hm with hm | ⟨q, hq, hm⟩
        · revert hm; decide
        · obtain ⟨c, hc, rfl⟩ := List.mem_map.1 hq
          exact hl c hc hm
  have hp : ∀ c ∈ p.curvePoints, ',' ∉ c.shw := fun c hc => (pipe_chars (point_pipe (h c hc))).1
  unfold curveText
  split
  · refine pts _ fun c hc => ?_
    rcases List.mem_cons.1 hc with rfl | hc
    · intro hm
      rcases point_mem (by decide) hm with hm | hm
      · exact hx hm
      · exact hy hm
    · exact hp c hc
  · split
    · exact pts _ hp
    · exact ct

theorem length_split_join {l : List Str} (hl : ∀ q ∈ l, '|' ∉ q) (a : Str) :
    (splitOnC '|' (join ['|'] (a :: l))).length = (splitOnC '|' a).length + l.length := by
  cases l with
  | nil => rfl
  | cons b l =>
    rw [join_cons_cons, List.append_assoc, List.singleton_append, splitOnC_mid, List.length_append,
      splitOnC_join (by simp) fun q hq => noC_mem.2 (hl q hq)]

theorem curve_exact {v : Nat} {pos : Position D} {p : SlideParams D} (hx : ',' ∉ pos.x.toStr) (hy : ',' ∉ pos.y.toStr)
    (fx : FieldSurvives pos.x) (fy : FieldSurvives pos.y) :
    CurveReads v (curveText v pos p) p.curveType p.curvePoints ∧ ',' ∉ curveText v pos p ↔
      (∀ c ∈ p.curvePoints, DecWritable pointX c.pos.x ∧ DecWritable pointY c.pos.y) ∧
      (v = 3 → ∀ c ∈ ['|', '\r', '\n'], c ∉ pos.x.text ∧ c ∉ pos.y.text) := by
  have cl : '|' ∉ p.curveType.shw := by cases p.curveType <;> decide
  have cl' := lacks_iff.2 (noC_mem.2 cl)
  have hdc : ∀ c ∈ ['|', '\r', '\n'], isDecChar c = false := by decide
  constructor
  · rintro ⟨h, hc⟩
    have hpts := curve_points h hc
    refine ⟨hpts, fun hv => ?_⟩
    unfold curveText at h
    rw [if_pos hv] at h
    rcases h with ⟨h, -⟩ | ⟨a, b, l, e, h1, h2, h3, h4⟩
    · have := HitObject.curveType_chars h
      have := congrArg List.length this
      simp at this
    · obtain ⟨rfl, rfl⟩ := mid_unique e cl (noC_mem.1 (lacks_iff.1 h1))
      rw [if_pos hv] at h4
      have hm : ':' ∈ HitObject.pipeStr HO.CurvePoint.shw (⟨pos⟩ :: p.curvePoints) :=
        mem_join_piece (l := (⟨pos⟩ : HO.CurvePoint D).shw) (by simp) (by simp [HO.CurvePoint.shw])
      rcases h3 with ⟨h3, -⟩ | ⟨g1, g2, g3⟩
      · rw [h3] at hm; cases hm
      · have hA : ∀ c ∈ ['|', '\r', '\n'], c ∉ (⟨pos⟩ : HO.CurvePoint D).shw := by
          intro c hc hm
          have hm' : c ∈ HitObject.pipeStr HO.CurvePoint.shw (⟨pos⟩ :: p.curvePoints) := mem_join_piece (by simp) hm
          simp only [List.mem_cons, List.not_mem_nil, or_false] at hc
          rcases hc with rfl | rfl | rfl
          · have hlen := congrArg List.length g3
            rw [List.length_map, List.length_map] at hlen
            unfold HitObject.pipeStr at hlen
            rw [List.map_cons, length_split_join fun q hq => by
              obtain ⟨c, hc, rfl⟩ := List.mem_map.1 hq
              exact (pipe_chars (point_pipe (hpts c hc))).2.2.2, List.length_map] at hlen
            have h5 := congrArg List.length h4
            rw [List.length_tail] at h5
            have h6 : (splitOnC '|' (⟨pos⟩ : HO.CurvePoint D).shw).length = 1 := by
              have := List.length_pos_iff.2 (splitOnC_ne_nil '|' (⟨pos⟩ : HO.CurvePoint D).shw)
              omega
            obtain ⟨q, hq⟩ := List.length_eq_one_iff.1 h6
            obtain ⟨e, h7⟩ := splitOnC_single_iff.1 hq
            rw [e] at hm
            exact noC_mem.1 h7 hm
          · exact noC_mem.1 (lacks_iff.1 g1) hm'
          · exact noC_mem.1 (lacks_iff.1 g2) hm'
        intro c hc
        have := hA c hc
        unfold HO.CurvePoint.shw at this
        simp only [List.mem_append, not_or] at this
        exact ⟨fun h => this.1.1 ((toStr_char (hdc c hc)).2 h), fun h => this.2 ((toStr_char (hdc c hc)).2 h)⟩
  · rintro ⟨hpts, hpos⟩
    refine ⟨?_, curveText_free hpts hx hy⟩
    have pts : ∀ c ∈ p.curvePoints, HO.CurvePoint.parse c.shw = .ok c ∧ AllC pipeC c.shw := fun c hc =>
      curvePoint_print (hpts c hc).1 (hpts c hc).2
    unfold curveText
    by_cases hv : v = 3
    · rw [if_pos hv]
      have hpos := hpos hv
      have wr : ∀ x : Decimal D, FieldSurvives x → (∀ c ∈ ['|', '\r', '\n'], c ∉ x.text) → DecWritable pointY x := by
        intro x hx hc
        cases x with
        | left d => exact DecLib.parse_canon hx
        | right s =>
          refine ⟨hx.1, fun c hm => ?_⟩
          have n1 : c ≠ ',' := by rintro rfl; exact hx.2 hm
          have n2 : c ≠ '\n' := by rintro rfl; exact hc _ (by simp) hm
          have n3 : c ≠ '\r' := by rintro rfl; exact hc _ (by simp) hm
          have n4 : c ≠ '|' := by rintro rfl; exact hc _ (by simp) hm
          simp [pointY, n1, n2, n3, n4]
      obtain ⟨⟨c0, g1⟩, g2⟩ := position_print (c := ⟨pos⟩) (wr _ fx fun c hc => (hpos c hc).1) (wr _ fy fun c hc => (hpos c hc).2)
      have hall : ∀ q ∈ (⟨pos⟩ :: p.curvePoints).map HO.CurvePoint.shw, AllC pipeC q := by
        intro q hq
        obtain ⟨b, hb, rfl⟩ := List.mem_map.1 hq
        rcases List.mem_cons.1 hb with rfl | hb
        · exact g2
        · exact (pts b hb).2
      have hno : ∀ c, c ≠ '|' → pipeC c = false → lacks c (HitObject.pipeStr HO.CurvePoint.shw (⟨pos⟩ :: p.curvePoints)) = true := by
        intro c hc hc'
        rw [lacks_iff, noC_mem]
        intro hm
        rcases mem_join_bar hm with hm | ⟨q, hq, hm⟩
        · exact hc hm
        · have := hall q hq c hm
          rw [hc'] at this; cases this
      refine .inr ⟨_, _, c0 :: p.curvePoints, rfl, cl', HitObject.curveType_round _, .inr ⟨hno _ (by decide) (by decide), hno _ (by decide) (by decide), ?_⟩,
        by rw [if_pos hv]; rfl⟩
      unfold HitObject.pipeStr
      rw [splitOnC_join (by simp) fun q hq => pipeC_noBar (hall q hq)]
      simp only [List.map_cons, List.map_map, g1]
      congr 1
      apply List.map_congr_left
      intro b hb
      exact (pts b hb).1
    · rw [if_neg hv]
      by_cases hne : p.curvePoints = []
      · rw [if_neg (by simp [hne])]
        exact .inl ⟨HitObject.curveType_round _, hne⟩
      · rw [if_pos hne]
        exact .inr ⟨_, _, p.curvePoints, rfl, cl', HitObject.curveType_round _, (pipeReads_print pts).1, by rw [if_neg hv]⟩

theorem sounds_free (l : List HO.HitSound) : ',' ∉ HitObject.pipeStr HO.HitSound.shw l :=
  noC_mem.1 (noComma_of_field (edgeSounds_print l).2)

theorem sets_free (l : List HO.EdgeSet) : ',' ∉ HitObject.pipeStr HO.EdgeSet.shw l := by
  intro h
  rcases mem_join_bar h with h | ⟨q, hq, h⟩
  · revert h; decide
  · obtain ⟨e, -, rfl⟩ := List.mem_map.1 hq
    unfold HO.EdgeSet.shw at h
    simp only [List.mem_append, List.mem_singleton] at h
    rcases h with (h | h) | h
    · exact num_mem (by decide) (usize_colon _) h
    · revert h; decide
    · exact num_mem (by decide) (usize_colon _) h

theorem sets_named {q : Str} {l : List HO.EdgeSet} (h : PipeReads HO.EdgeSet.parse q l) : ∀ e ∈ l, HOSetNamed e.normalSet ∧ HOSetNamed e.additionSet := by
  intro e he
  obtain ⟨-, -, q, -, hq⟩ := pipe_mem h he
  obtain ⟨x, y, -, h1, h2⟩ := HO.EdgeSet.parse_iff.1 hq
  exact ⟨HO.SampleSet.named_parse h1, HO.SampleSet.named_parse h2⟩

theorem sets_named_last {q : Str} {l : List HO.EdgeSet} (h : PipeReadsLast HO.EdgeSet.parse q l) :
    ∀ e ∈ l, HOSetNamed e.normalSet ∧ HOSetNamed e.additionSet := by
  rcases h with h | ⟨-, rfl⟩
  · exact sets_named h
  · intro e he; cases he

theorem edges_exact {v : Nat} {p : SlideParams D} {o : Option HO.HitSample} :
    EdgeReads ((edgeTexts p o ++ HitObject.sampleList v o).flatMap (splitOnC ',')) p.edgeSounds p.edgeSoundsShort p.edgeSets p.edgeSetsShort o ↔
      (∀ e ∈ p.edgeSets, HOSetNamed e.normalSet ∧ HOSetNamed e.additionSet) ∧
      (p.edgeSoundsShort = true → p.edgeSounds = [] ∧ p.edgeSetsShort = true) ∧
      (p.edgeSetsShort = true → p.edgeSets = [] ∧ o = none) ∧ TailSurvives v o := by
  obtain ⟨ct, pts, slides, len, ss, a, es, b⟩ := p
  have r1 := (edgeSounds_print ss).1
  have s1 := split_free (sounds_free ss)
  have s2 := split_free (sets_free es)
  have tn : TailSurvives v none := fun h hh => by cases hh
  simp only [edgeTexts]
  by_cases w2 : es ≠ [] ∨ b = false ∨ o.isSome = true
  · have w1 : ss ≠ [] ∨ a = false ∨ es ≠ [] ∨ b = false ∨ o.isSome = true := .inr (.inr w2)
    rw [if_pos w2, if_pos w1]
    have hw : (b = true → es = [] ∧ o = none) → b = false := by
      intro h
      cases b with
      | false => rfl
      | true =>
        obtain ⟨rfl, rfl⟩ := h rfl
        simp at w2
    simp only [List.singleton_append, List.cons_append, List.nil_append, List.flatMap_cons, s1, s2]
    constructor
    · intro h
      generalize hq : _ :: _ :: _ = qs at h
      generalize ha : a = a' at h
      generalize hb : b = b' at h
      cases h with
      | none => cases hq
      | sounds => cases hq
      | sets h h' =>
        refine ⟨sets_named_last h', fun h => by simp at h, fun h => by simp at h, tn⟩
      | sample h h' ho =>
        refine ⟨sets_named h', fun h => by simp at h, fun h => by simp at h, ?_⟩
        obtain ⟨-, hq⟩ := List.cons.inj hq
        obtain ⟨-, hq⟩ := List.cons.inj hq
        rw [← hq] at ho
        exact tail_sample.1 ho
    · rintro ⟨h1, h2, h3, h4⟩
      have hb := hw h3
      have ha : a = false := by
        cases a with
        | false => rfl
        | true => rw [(h2 rfl).2] at hb; cases hb
      subst ha hb
      have r3 := (edgeSets_print h1).1
      have := tail_sample.2 h4
      cases hs : (HitObject.sampleList v o).flatMap (splitOnC ',') with
      | nil =>
        rw [hs] at this
        cases this
        exact .sets r1 (.inl r3)
      | cons q qs =>
        rw [hs] at this
        exact .sample r1 r3 this
  · have hes : es = [] := Classical.byContradiction fun h => w2 (.inl h)
    have hb : b = true := by cases b with
      | true => rfl
      | false => exact absurd (.inr (.inl rfl)) w2
    have ho : o = none := by cases o with
      | none => rfl
      | some x => exact absurd (.inr (.inr rfl)) w2
    subst hes hb ho
    simp only [HitObject.sampleList, List.append_nil]
    rw [if_neg w2]
    by_cases w1 : ss ≠ [] ∨ a = false ∨ ([] : List HO.EdgeSet) ≠ [] ∨ true = false ∨ (none : Option HO.HitSample).isSome = true
    · rw [if_pos w1]
      simp only [List.append_nil, List.flatMap_cons, List.flatMap_nil, s1]
      constructor
      · intro h
        generalize ha : a = a' at h
        cases h with
        | sounds h => exact ⟨fun e he => (by cases he), fun h => by simp at h, fun _ => by simp, tn⟩
      · rintro ⟨-, h2, -⟩
        have ha : a = false := by
          cases a with
          | false => rfl
          | true =>
            have := (h2 rfl).1
            simp [this] at w1
        subst ha
        exact .sounds (.inl r1)
    · rw [if_neg w1]
      have hss : ss = [] := Classical.byContradiction fun h => w1 (.inl h)
      have ha : a = true := by cases a with
        | true => rfl
        | false => exact absurd (.inr (.inl rfl)) w1
      subst hss ha
      exact ⟨fun _ => ⟨fun e he => (by cases he), fun _ => by simp, fun _ => by simp, tn⟩, fun _ => .none⟩

theorem slider_exact {v : Nat} {pos : Position D} {p : SlideParams D} {o : Option HO.HitSample} (hx : ',' ∉ pos.x.toStr) (hy : ',' ∉ pos.y.toStr)
    (fx : FieldSurvives pos.x) (fy : FieldSurvives pos.y) :
    TailReads v ((curveText v pos p :: i32ToStr p.slides :: p.length.toStr :: (edgeTexts p o ++ HitObject.sampleList v o)).flatMap (splitOnC ','))
      o (.slider p) ↔ SliderSurvives v pos p o := by
  have hs : ',' ∉ i32ToStr p.slides := noC_mem.1 (noComma_of_field (i32_field _))
  have hcurve := curve_exact (v := v) (p := p) hx hy fx fy
  constructor
  · rintro ⟨c, m, l, qs, e, h⟩
    have free : ∀ q ∈ c :: m :: l :: qs, ',' ∉ q := fun q hq => split_flat_free (by rw [e]; exact hq)
    have hpts := curve_points h.curve (free c (by simp))
    have hc := curveText_free (v := v) hpts hx hy
    have hl := beat_head (free l (by simp)) h.length
    simp only [List.flatMap_cons, split_free hc, split_free hs, split_free hl, List.singleton_append, List.cons.injEq] at e
    obtain ⟨rfl, rfl, rfl, rfl⟩ := e
    obtain ⟨g1, g2⟩ := hcurve.1 ⟨h.curve, hc⟩
    obtain ⟨k1, k2, k3, k4⟩ := edges_exact.1 h.edges
    exact ⟨g1, g2, field_survives.1 ⟨hl, h.length⟩, k1, k2, k3, k4⟩
  · rintro ⟨h1, h2, h3, h4, h5, h6, h7⟩
    obtain ⟨hl, hl'⟩ := field_survives.2 h3
    obtain ⟨hc, hc'⟩ := hcurve.2 ⟨h1, h2⟩
    simp only [List.flatMap_cons, split_free hc', split_free hs, split_free hl, List.singleton_append]
    exact ⟨_, _, _, _, rfl, hc, parseI32_i32ToStr _, hl', edges_exact.2 ⟨h4, h5, h6, h7⟩⟩

theorem kind_exact {v : Nat} {o : HitObject D} {ts : List Str} (hts : lineTail v o = some ts)
    (hx : ',' ∉ o.position.x.toStr) (hy : ',' ∉ o.position.y.toStr) (fx : FieldSurvives o.position.x) (fy : FieldSurvives o.position.y) :
    TailReads v (ts.flatMap (splitOnC ',')) o.hitsample o.params ↔ KindSurvives v o.position o.hitsample o.params := by
  unfold lineTail at hts
  cases hp : o.params with
  | hitCircle =>
    rw [hp] at hts
    cases hts
    simp only [TailReads, KindSurvives]
    by_cases hv : v = 3
    · rw [if_pos hv, if_pos hv]
      have : SampleTail ([[]].flatMap (splitOnC ',')) o.hitsample ↔ SampleTail (splitOnC ',' []) o.hitsample := by simp
      rw [this, sampleTail_iff]
      simp only [sample_default, exists_eq_left]
    · rw [if_neg hv, if_neg hv]
      exact tail_sample
  | slider p =>
    rw [hp] at hts
    cases hts
    exact slider_exact hx hy fx fy
  | spinner e =>
    rw [hp] at hts
    obtain ⟨te, h1, rfl⟩ := Option.map_eq_some_iff.1 hts
    simp only [TailReads, KindSurvives]
    rw [← time_survives h1, ← tail_sample, List.flatMap_cons]
    constructor
    · rintro ⟨q, qs, h2, h3, h4⟩
      have hq : ',' ∉ q := split_flat_free (ps := te :: HitObject.sampleList v o.hitsample) (by rw [List.flatMap_cons, h2]; simp)
      have hc := time_head h1 hq h3
      rw [split_free hc] at h2
      obtain ⟨rfl, rfl⟩ := List.cons.inj h2
      exact ⟨⟨hc, h3⟩, h4⟩
    · rintro ⟨⟨hc, h3⟩, h4⟩
      exact ⟨te, _, by rw [split_free hc]; rfl, h3, h4⟩
  | hold e =>
    rw [hp] at hts
    obtain ⟨te, h1, rfl⟩ := Option.map_eq_some_iff.1 hts
    simp only [TailReads, KindSurvives]
    rw [← hold_exact h1, List.flatMap_cons, List.flatMap_nil, List.append_nil]
    have hj := join_splitOnC ',' (te ++ ':' :: HitObject.sampleText v o.hitsample)
    cases hs : splitOnC ',' (te ++ ':' :: HitObject.sampleText v o.hitsample) with
    | nil => exact absurd hs (splitOnC_ne_nil _ _)
    | cons q qs =>
      rw [hs] at hj
      constructor
      · rintro ⟨q', qs', h2, h3⟩
        rw [← h2, hj] at h3
        exact h3
      · intro h3
        exact ⟨q, qs, rfl, by rw [hj]; exact h3⟩

theorem ho_line_free {v : Nat} {o : HitObject D} : ',' ∉ u8ToStr o.typeByte ∧ ',' ∉ o.hitsound.shw :=
  ⟨num_mem (by decide) (parseU8_chars (parseU8_u8ToStr _)).2, num_mem (by decide) (HO.HitSound.parse_chars (HO.HitSound.round _))⟩

theorem KindSurvives.written {v : Nat} {o : HitObject D} (h : KindSurvives v o.position o.hitsample o.params) : ∃ ts, lineTail v o = some ts := by
  unfold lineTail
  cases hp : o.params with
  | hitCircle => exact ⟨_, rfl⟩
  | slider p => exact ⟨_, rfl⟩
  | spinner e =>
    rw [hp] at h
    obtain ⟨p, hp⟩ := TimeSurvives.written h.1
    exact ⟨_, by simp only [hp]; rfl⟩
  | hold e =>
    rw [hp] at h
    have h := h.1
    cases e with
    | right s => exact ⟨_, rfl⟩
    | left d =>
      obtain ⟨p, hp⟩ := TimeSurvives.written (x := .left d) h
      exact ⟨_, by simp only [hp]; rfl⟩

/-- A hit object is read back unchanged from the line written for it exactly if it survives. -/
theorem C20_exact {v : Nat} {o : HitObject D} : (∃ s, o.shw v = some s ∧ HitObject.parse v s = .ok o) ↔ HOSurvives v o := by
  obtain ⟨u1, u2⟩ := ho_line_free (v := v) (o := o)
  have main : ∀ {tm ts}, o.time.toStrShifted v = some tm → lineTail v o = some ts →
      (HOReads v (splitOnC ',' (o.position.x.toStr ++ preC ',' (o.position.y.toStr :: tm :: u8ToStr o.typeByte :: o.hitsound.shw :: ts))) o ↔
        HOSurvives v o) := by
    intro tm ts htm hts
    rw [split_preC]
    constructor
    · intro h
      obtain ⟨hx, hy, ht⟩ := ho_head_free htm h
      simp only [List.flatMap_cons, split_free hx, split_free hy, split_free ht, split_free u1, split_free u2, List.singleton_append] at h
      obtain ⟨⟨h1, h2, h3, h4⟩, h5⟩ := ho_reads_iff.1 h
      have fx := field_survives.1 ⟨hx, h1⟩
      have fy := field_survives.1 ⟨hy, h2⟩
      exact ⟨fx, fy, (time_survives htm).1 ⟨ht, h3⟩, h4, (kind_exact hts hx hy fx fy).1 h5⟩
    · rintro ⟨fx, fy, h3, h4, h5⟩
      obtain ⟨hx, h1⟩ := field_survives.2 fx
      obtain ⟨hy, h2⟩ := field_survives.2 fy
      obtain ⟨ht, h3⟩ := (time_survives htm).2 h3
      simp only [List.flatMap_cons, split_free hx, split_free hy, split_free ht, split_free u1, split_free u2, List.singleton_append]
      exact ho_reads_iff.2 ⟨⟨h1, h2, h3, h4⟩, (kind_exact hts hx hy fx fy).2 h5⟩
  constructor
  · rintro ⟨s, h1, h2⟩
    rw [ho_shw_form] at h1
    obtain ⟨tm, htm, h1⟩ := Option.bind_eq_some_iff.1 h1
    obtain ⟨ts, hts, rfl⟩ := Option.map_eq_some_iff.1 h1
    exact (main htm hts).1 (HitObject.parse_iff.1 h2)
  · intro h
    obtain ⟨tm, htm⟩ := h.time.written
    obtain ⟨ts, hts⟩ := h.kind.written
    exact ⟨_, by rw [ho_shw_form, htm, hts]; rfl, HitObject.parse_iff.2 ((main htm hts).2 h)⟩

/-! ### The section -/

/-- The texts of an object that may hold other characters: decimals that are kept as text (those of a curve aside) and the
file name of the hit sample. -/
def HitObject.texts (o : HitObject D) : List Str :=
  [o.position.x.text, o.position.y.text, o.time.text] ++
  (match o.params with
    | .hitCircle => []
    | .slider p => [p.length.text]
    | .spinner e => [e.text]
    | .hold e => [e.text]) ++
  (match o.hitsample with
    | none => []
    | some h => [h.filename])

/-- The text at the end of the line of an object that survives. -/
def HitObject.lastText (o : HitObject D) : Str :=
  match o.hitsample, o.params with
  | some h, _ => h.filename
  | none, .spinner e => e.text
  | none, .slider p => if p.edgeSoundsShort then p.length.text else []
  | none, _ => []

/-- The texts in the points of a curve. -/
def HitObject.pointTexts (o : HitObject D) : List Str :=
  match o.params with
  | .slider p => p.curvePoints.flatMap fun c => [c.pos.x.text, c.pos.y.text]
  | _ => []

theorem mem_preC {c : Char} (hc : c ≠ ',') {x : Str} {ps : List Str} : c ∈ x ++ preC ',' ps ↔ c ∈ x ∨ ∃ p ∈ ps, c ∈ p := by
  induction ps generalizing x with
  | nil => simp [preC_nil]
  | cons p ps ih =>
    rw [preC_cons, List.mem_append, List.mem_cons, ih]
    simp [hc]

theorem dropBlank_sub {l : List Str} {g : Str} (h : g ∈ dropBlankLast l) : g ∈ l := by
  induction l with
  | nil => cases h
  | cons a l ih =>
    cases l with
    | nil =>
      unfold dropBlankLast at h
      split at h
      · cases h
      · exact h
    | cons b l =>
      rw [dropBlank_cons (by simp)] at h
      rcases List.mem_cons.1 h with rfl | h
      · simp
      · exact List.mem_cons_of_mem _ (ih h)

theorem sample_name_mem {t : Str} {h : HO.HitSample} (hr : SampleReads (splitOnC ':' t) h) {c : Char} (hc : c ∈ h.filename) : c ∈ t := by
  rw [hr.filename] at hc
  cases hg : (dropBlankLast (splitOnC ':' t))[4]? with
  | none => rw [hg] at hc; cases hc
  | some g =>
    rw [hg] at hc
    exact splitOnC_sub (dropBlank_sub (List.mem_of_getElem? hg)) hc

theorem sampleTail_name {qs : List Str} {h : HO.HitSample} (hr : SampleTail qs (some h)) {c : Char} (hc' : c ≠ ',') (hc : c ∈ h.filename) :
    ∃ q ∈ qs, c ∈ q := by
  cases qs with
  | nil => cases hr
  | cons q qs =>
    obtain ⟨h', h1, h2⟩ := hr
    cases h2
    exact (mem_join_comma hc').1 (sample_name_mem h1 hc)

/-- The texts of an object come from its line. -/
theorem ho_texts {v : Nat} {x : Str} {o : HitObject D} (h : HitObject.parse v x = .ok o) {c : Char} (hc' : c ≠ ',') {t : Str}
    (ht : t ∈ o.texts ++ o.pointTexts) (hc : c ∈ t) : c ∈ x := by
  have h := HitObject.parse_iff.1 h
  have hin : ∀ q ∈ splitOnC ',' x, c ∈ q → c ∈ x := fun q hq hc => splitOnC_sub hq hc
  generalize splitOnC ',' x = ps at h hin
  have key : ∀ {x y t' ty hs : Str} {n : Int32} {qs : List Str}, HOHead v x y t' ty hs n o → (∀ q ∈ [x, y, t'], q ∈ ps) → 
      t ∈ [o.position.x.text, o.position.y.text, o.time.text] → ∃ q ∈ ps, c ∈ q := by
    intro x y t' ty hs n qs hh hq ht
    simp only [List.mem_cons, List.not_mem_nil, or_false] at ht
    rcases ht with rfl | rfl | rfl
    · rw [hh.x] at hc; exact ⟨x, hq x (by simp), ofStr_text hc⟩
    · rw [hh.y] at hc; exact ⟨y, hq y (by simp), ofStr_text hc⟩
    · exact ⟨t', hq t' (by simp), time_text_mem hh.time hc⟩
  have smp : ∀ {qs : List Str}, SampleTail qs o.hitsample → (∀ q ∈ qs, q ∈ ps) →
      t ∈ (match o.hitsample with | none => [] | some h => [h.filename]) → ∃ q ∈ ps, c ∈ q := by
    intro qs hs hq ht
    cases ho : o.hitsample with
    | none => rw [ho] at ht; cases ht
    | some h =>
      rw [ho] at ht hs
      obtain rfl := List.mem_singleton.1 ht
      obtain ⟨q, h1, h2⟩ := sampleTail_name hs hc' hc
      exact ⟨q, hq q h1, h2⟩
  suffices hs : ∃ q ∈ ps, c ∈ q by
    obtain ⟨q, h1, h2⟩ := hs
    exact hin q h1 h2
  unfold HitObject.texts HitObject.pointTexts at ht
  rw [List.mem_append, List.mem_append, List.mem_append] at ht
  cases h with
  | circle hh _ hp hq =>
    rw [hp] at ht
    rcases ht with ((ht | ht) | ht) | ht
    · exact key (qs := []) hh (by simp) ht
    · cases ht
    · exact smp hq (fun q hq => by simp [hq]) ht
    · cases ht
  | @slider x y t' ty hs cc m l qs n o p hh _ _ hp hq =>
    rw [hp] at ht
    rcases ht with ((ht | ht) | ht) | ht
    · exact key (qs := []) hh (by simp) ht
    · obtain rfl := List.mem_singleton.1 ht
      rw [hq.length] at hc
      exact ⟨l, by simp, ofStr_text hc⟩
    · have he := hq.edges
      generalize p.edgeSounds = e1, p.edgeSoundsShort = e2, p.edgeSets = e3, p.edgeSetsShort = e4 at he
      generalize hho : o.hitsample = oo at he ht smp
      cases he with
      | none => cases ht
      | sounds => cases ht
      | sets => cases ht
      | sample h h' ho => exact smp ho (fun q hq => by simp at hq ⊢; grind) ht
    · obtain ⟨pt, hpt, ht⟩ := List.mem_flatMap.1 ht
      have hm : c ∈ cc := by
        rcases hq.curve with ⟨-, h⟩ | ⟨a, b, l, rfl, -, -, hr, hl⟩
        · rw [h] at hpt; cases hpt
        · have hm : pt ∈ l := by
            rw [hl] at hpt
            split at hpt
            · exact List.mem_of_mem_tail hpt
            · exact hpt
          obtain ⟨h1, h2, q, hq, hp⟩ := pipe_mem hr hm
          obtain ⟨x, y, e, hx, ex, ey⟩ := HO.CurvePoint.parse_iff.1 hp
          have : c ∈ q := by
            rw [e]
            simp only [List.mem_cons, List.not_mem_nil, or_false] at ht
            rcases ht with rfl | rfl
            · rw [ex] at hc; simp [ofStr_text hc]
            · rw [ey] at hc; simp [ofStr_text hc]
          simp [splitOnC_sub hq this]
      exact ⟨cc, by simp, hm⟩
  | @spinner x y t' ty hs e qs n o et hh _ _ _ hp he hq =>
    rw [hp] at ht
    rcases ht with ((ht | ht) | ht) | ht
    · exact key (qs := []) hh (by simp) ht
    · obtain rfl := List.mem_singleton.1 ht
      exact ⟨e, by simp, time_text_mem he hc⟩
    · exact smp hq (fun q hq => by simp [hq]) ht
    · cases ht
  | @hold x y t' ty hs q qs n o et hh _ _ _ _ hp hq =>
    rw [hp] at ht
    obtain ⟨a, b, h, e, -, h1, h2, h3⟩ := hq
    have fin : c ∈ a ∨ c ∈ b → ∃ p ∈ x :: y :: t' :: ty :: hs :: q :: qs, c ∈ p := by
      intro hab
      have : c ∈ join [','] (q :: qs) := by
        rw [e]; rcases hab with h | h <;> simp [h]
      obtain ⟨p, hp, hcp⟩ := (mem_join_comma hc').1 this
      exact ⟨p, by simp at hp ⊢; grind, hcp⟩
    rcases ht with ((ht | ht) | ht) | ht
    · exact key (qs := []) hh (by simp) ht
    · obtain rfl := List.mem_singleton.1 ht
      exact fin (.inl (time_text_mem h1 hc))
    · rw [h3] at ht
      obtain rfl := List.mem_singleton.1 ht
      exact fin (.inr (sample_name_mem h2 hc))
    · cases ht

theorem sample_lf {v : Nat} {h : HO.HitSample} {t : Str} (ht : h.shw v = some t) {c : Char} (hc : c = '\n' ∨ c = '\r') (hm : c ∈ t) :
    c ∈ h.filename := by
  have hn : isNumChar c = false := by rcases hc with rfl | rfl <;> decide
  have hcol : c ≠ ':' := by rcases hc with rfl | rfl <;> decide
  have ca := num_mem hn (usize_colon h.normalSet.code)
  have cb := num_mem hn (usize_colon h.additionSet.code)
  have ci := num_mem hn (usize_colon h.index.code)
  have cv := num_mem hn (volume_num h.volume)
  unfold HO.HitSample.shw at ht
  split at ht
  · cases ht
  · split at ht
    · cases ht
      simp [HO.SampleSet.shw, HO.SampleIndex.shw, ca, cb, ci, hcol] at hm
    · cases ht
      simpa [HO.SampleSet.shw, HO.SampleIndex.shw, ca, cb, ci, cv, hcol] using hm

theorem pipe_lf {α : Type} {shw : α → Str} {l : List α} {c : Char} (hc : c ≠ '|') (h : c ∈ HitObject.pipeStr shw l) : ∃ a ∈ l, c ∈ shw a := by
  rcases mem_join_bar h with h | ⟨q, hq, h⟩
  · exact absurd h hc
  · obtain ⟨a, ha, rfl⟩ := List.mem_map.1 hq
    exact ⟨a, ha, h⟩

theorem edge_lf {p : SlideParams D} {o : Option HO.HitSample} {q : Str} (hq : q ∈ edgeTexts p o) {c : Char} (hc : c = '\n' ∨ c = '\r') : c ∉ q := by
  have hn : isNumChar c = false := by rcases hc with rfl | rfl <;> decide
  have hcol : c ≠ ':' := by rcases hc with rfl | rfl <;> decide
  have hbar : c ≠ '|' := by rcases hc with rfl | rfl <;> decide
  intro hm
  unfold edgeTexts at hq
  rcases List.mem_append.1 hq with hq | hq
  · split at hq
    · obtain rfl := List.mem_singleton.1 hq
      obtain ⟨a, -, h⟩ := pipe_lf hbar hm
      exact num_mem hn (HO.HitSound.parse_chars (HO.HitSound.round _)) h
    · cases hq
  · split at hq
    · obtain rfl := List.mem_singleton.1 hq
      obtain ⟨a, -, h⟩ := pipe_lf hbar hm
      unfold HO.EdgeSet.shw at h
      simp only [List.mem_append, List.mem_singleton, hcol, or_false] at h
      rcases h with h | h
      · exact num_mem hn (usize_colon _) h
      · exact num_mem hn (usize_colon _) h
    · cases hq

/-- A line break in the line of an object comes from one of its texts. -/
theorem ho_line_lf {v : Nat} {o : HitObject D} {s : Str} (hs : o.shw v = some s) {c : Char} (hc : c = '\n' ∨ c = '\r') (hm : c ∈ s) :
    ∃ t ∈ o.texts ++ o.pointTexts, c ∈ t := by
  have hn : isNumChar c = false := by rcases hc with rfl | rfl <;> decide
  have hd : isDecChar c = false := by rcases hc with rfl | rfl <;> decide
  have hcol : c ≠ ':' := by rcases hc with rfl | rfl <;> decide
  have hbar : c ≠ '|' := by rcases hc with rfl | rfl <;> decide
  have hcomma : c ≠ ',' := by rcases hc with rfl | rfl <;> decide
  rw [ho_shw_form] at hs
  obtain ⟨tm, htm, hs⟩ := Option.bind_eq_some_iff.1 hs
  obtain ⟨ts, hts, rfl⟩ := Option.map_eq_some_iff.1 hs
  have hx : c ∈ o.position.x.toStr → ∃ t ∈ o.texts ++ o.pointTexts, c ∈ t := fun h => ⟨_, by simp [HitObject.texts], (toStr_char hd).1 h⟩
  have hy : c ∈ o.position.y.toStr → ∃ t ∈ o.texts ++ o.pointTexts, c ∈ t := fun h =>
    ⟨o.position.y.text, by simp [HitObject.texts], (toStr_char hd).1 h⟩
  have smp : ∀ q ∈ HitObject.sampleList v o.hitsample, c ∈ q → ∃ t ∈ o.texts ++ o.pointTexts, c ∈ t := by
    intro q hq hm
    cases ho : o.hitsample with
    | none => rw [ho] at hq; cases hq
    | some h =>
      rw [ho] at hq
      have : h.shw v = some q := by simpa [HitObject.sampleList] using hq
      exact ⟨h.filename, by simp [HitObject.texts, ho], sample_lf this hc hm⟩
  have fin : (∃ p ∈ ts, c ∈ p) → ∃ t ∈ o.texts ++ o.pointTexts, c ∈ t := by
    clear hm hs
    rintro ⟨q, hq, hm⟩
    unfold lineTail at hts
    cases hp : o.params with
    | hitCircle =>
      rw [hp] at hts
      cases hts
      split at hq
      · obtain rfl := List.mem_singleton.1 hq; cases hm
      · exact smp q hq hm
    | slider p =>
      rw [hp] at hts
      cases hts
      rw [List.mem_cons, List.mem_cons, List.mem_cons, List.mem_append] at hq
      rcases hq with rfl | rfl | rfl | hq | hq
      · have ct : c ∉ p.curveType.shw := by cases p.curveType <;> rcases hc with rfl | rfl <;> decide
        have pt : (∃ a ∈ p.curvePoints, c ∈ a.shw) → ∃ t ∈ o.texts ++ o.pointTexts, c ∈ t := by
          rintro ⟨a, ha, h⟩
          rcases point_mem hcol h with h | h
          · exact ⟨a.pos.x.text, by simp [HitObject.pointTexts, hp]; exact .inr ⟨a, ha, .inl rfl⟩, (toStr_char hd).1 h⟩
          · exact ⟨a.pos.y.text, by simp [HitObject.pointTexts, hp]; exact .inr ⟨a, ha, .inr rfl⟩, (toStr_char hd).1 h⟩
        unfold curveText at hm
        split at hm
        · simp only [List.mem_append, List.mem_cons, ct, hbar, false_or] at hm
          obtain ⟨a, ha, h⟩ := pipe_lf hbar hm
          rcases List.mem_cons.1 ha with rfl | ha
          · rcases point_mem hcol h with h | h
            · exact hx h
            · exact hy h
          · exact pt ⟨a, ha, h⟩
        · split at hm
          · simp only [List.mem_append, List.mem_cons, ct, hbar, false_or] at hm
            obtain ⟨a, ha, h⟩ := pipe_lf hbar hm
            exact pt ⟨a, ha, h⟩
          · exact absurd hm ct
      · exact absurd hm (num_mem hn (parseI32_chars (parseI32_i32ToStr _)).2)
      · exact ⟨p.length.text, by simp [HitObject.texts, hp], (toStr_char hd).1 hm⟩
      · exact absurd hm (edge_lf hq hc)
      · exact smp q hq hm
    | spinner e =>
      rw [hp] at hts
      obtain ⟨te, h1, rfl⟩ := Option.map_eq_some_iff.1 hts
      rcases List.mem_cons.1 hq with rfl | hq
      · exact ⟨e.text, by simp [HitObject.texts, hp], (shifted_char h1 hd).1 hm⟩
      · exact smp q hq hm
    | hold e =>
      rw [hp] at hts
      obtain ⟨te, h1, rfl⟩ := Option.map_eq_some_iff.1 hts
      obtain rfl := List.mem_singleton.1 hq
      rw [List.mem_append, List.mem_cons] at hm
      rcases hm with hm | hm | hm
      · exact ⟨e.text, by simp [HitObject.texts, hp], (shifted_char h1 hd).1 hm⟩
      · exact absurd hm hcol
      · cases ho : o.hitsample with
        | none => rw [ho] at hm; cases hm
        | some h =>
          rw [ho] at hm
          cases hh : h.shw v with
          | none => simp [HitObject.sampleText, hh] at hm
          | some t =>
            simp only [HitObject.sampleText, hh, Option.getD_some] at hm
            exact ⟨h.filename, by simp [HitObject.texts, ho], sample_lf hh hc hm⟩
  rw [mem_preC hcomma] at hm
  rcases hm with hm | ⟨q, hq, hm⟩
  · exact hx hm
  · simp only [List.mem_cons] at hq
    rcases hq with rfl | rfl | rfl | rfl | hq
    · exact hy hm
    · exact ⟨o.time.text, by simp [HitObject.texts], (shifted_char htm hd).1 hm⟩
    · exact absurd hm (num_mem hn (parseU8_chars (parseU8_u8ToStr _)).2)
    · exact absurd hm (num_mem hn (HO.HitSound.parse_chars (HO.HitSound.round _)))
    · exact fin ⟨q, hq, hm⟩

theorem sample_name_written {v : Nat} {h : HO.HitSample} (hs : ¬ NoSample v ∧ SampleSurvives v h) {c : Char} (hc : c ∈ h.filename) :
    ∃ t, h.shw v = some t ∧ c ∈ t := by
  have hv' : ¬ (3 ≤ v ∧ v ≤ 9) := hs.1
  have hs' : ¬ (10 ≤ v ∧ v ≤ 11) := fun h' => by
    rw [(hs.2.short h').2] at hc; cases hc
  unfold HO.HitSample.shw
  rw [if_neg hv', if_neg hs']
  exact ⟨_, rfl, by simp [hc]⟩

/-- The texts of an object that survives are in its line. -/
theorem ho_texts_written {v : Nat} {o : HitObject D} {s : Str} (hs : o.shw v = some s) (h : HOSurvives v o) {c : Char} (hd : isDecChar c = false)
    (hcomma : c ≠ ',') {t : Str} (ht : t ∈ o.texts) (hc : c ∈ t) : c ∈ s := by
  rw [ho_shw_form] at hs
  obtain ⟨tm, htm, hs⟩ := Option.bind_eq_some_iff.1 hs
  obtain ⟨ts, hts, rfl⟩ := Option.map_eq_some_iff.1 hs
  rw [mem_preC hcomma]
  have smp : ∀ {h}, o.hitsample = some h → c ∈ h.filename → TailSurvives v o.hitsample → ∃ q ∈ HitObject.sampleList v o.hitsample, c ∈ q := by
    intro h ho hc hs
    obtain ⟨t, h1, h2⟩ := sample_name_written (hs h ho) hc
    exact ⟨t, by rw [ho]; simp [HitObject.sampleList, h1], h2⟩
  have tail : (∃ p ∈ ts, c ∈ p) → c ∈ o.position.x.toStr ∨ ∃ p ∈ o.position.y.toStr :: tm :: u8ToStr o.typeByte :: o.hitsound.shw :: ts, c ∈ p := by
    rintro ⟨p, hp, hc⟩
    exact .inr ⟨p, by simp [hp], hc⟩
  unfold HitObject.texts at ht
  rw [List.mem_append, List.mem_append] at ht
  rcases ht with (ht | ht) | ht
  · simp only [List.mem_cons, List.not_mem_nil, or_false] at ht
    rcases ht with rfl | rfl | rfl
    · exact .inl ((toStr_char hd).2 hc)
    · exact .inr ⟨_, by simp, (toStr_char hd).2 hc⟩
    · exact .inr ⟨tm, by simp, (shifted_char htm hd).2 hc⟩
  · refine tail ?_
    unfold lineTail at hts
    cases hp : o.params with
    | hitCircle => rw [hp] at ht; cases ht
    | slider p =>
      rw [hp] at hts ht
      cases hts
      obtain rfl := List.mem_singleton.1 ht
      exact ⟨p.length.toStr, by simp, (toStr_char hd).2 hc⟩
    | spinner e =>
      rw [hp] at hts ht
      obtain ⟨te, h1, rfl⟩ := Option.map_eq_some_iff.1 hts
      obtain rfl := List.mem_singleton.1 ht
      exact ⟨te, by simp, (shifted_char h1 hd).2 hc⟩
    | hold e =>
      rw [hp] at hts ht
      obtain ⟨te, h1, rfl⟩ := Option.map_eq_some_iff.1 hts
      obtain rfl := List.mem_singleton.1 ht
      exact ⟨_, List.mem_singleton.2 rfl, by simp [(shifted_char h1 hd).2 hc]⟩
  · refine tail ?_
    cases ho : o.hitsample with
    | none => rw [ho] at ht; cases ht
    | some hh =>
      rw [ho] at ht
      obtain rfl := List.mem_singleton.1 ht
      have hk := h.kind
      unfold lineTail at hts
      have hdef : o.hitsample ≠ some HO.HitSample.default := by
        intro he
        rw [ho] at he
        cases he
        cases hc
      cases hp : o.params with
      | hitCircle =>
        rw [hp] at hts hk
        cases hts
        simp only [KindSurvives] at hk
        split at hk
        · exact absurd hk hdef
        · rename_i hv
          rw [if_neg hv]
          exact smp ho hc hk
      | slider p =>
        rw [hp] at hts hk
        cases hts
        obtain ⟨q, hq, hc⟩ := smp ho hc hk.sample
        exact ⟨q, by simp [hq], hc⟩
      | spinner e =>
        rw [hp] at hts hk
        obtain ⟨te, h1, rfl⟩ := Option.map_eq_some_iff.1 hts
        obtain ⟨q, hq, hc⟩ := smp ho hc hk.2
        exact ⟨q, by simp [hq], hc⟩
      | hold e =>
        rw [hp] at hts hk
        obtain ⟨te, h1, rfl⟩ := Option.map_eq_some_iff.1 hts
        have hk := hk.2
        split at hk
        · exact absurd hk hdef
        · rename_i hv
          obtain ⟨h', e1, h2⟩ := hk
          rw [ho] at e1
          cases e1
          obtain ⟨t, h3, h4⟩ := sample_name_written ⟨hv, h2⟩ hc
          exact ⟨_, List.mem_singleton.2 rfl, by simp [HitObject.sampleText, ho, h3, h4]⟩

theorem piece_length {c : Char} {s q : Str} (h : q ∈ splitOnC c s) : q.length ≤ s.length := by
  induction s generalizing q with
  | nil => cases List.mem_singleton.1 h; simp
  | cons d s ih =>
    unfold splitOnC at h
    split at h
    · rcases List.mem_cons.1 h with rfl | h
      · simp
      · have := ih h; simp; omega
    · cases hs : splitOnC c s with
      | nil => exact absurd hs (splitOnC_ne_nil _ _)
      | cons l ls =>
        rw [hs] at h ih
        rcases List.mem_cons.1 h with rfl | h
        · have := ih (q := l) (by simp); simp; omega
        · have := ih (q := q) (by simp [h]); simp; omega

theorem getLast_cr {u : Str} : u.getLast? = some '\r' ↔ ∃ w, u = w ++ ['\r'] := by
  rw [List.getLast?_eq_some_iff]

/-- The last character of a line is that of its last piece. -/
theorem ho_line_cr {v : Nat} {o : HitObject D} {tm : Str} {ts : List Str} :
    (o.position.x.toStr ++ preC ',' (o.position.y.toStr :: tm :: u8ToStr o.typeByte :: o.hitsound.shw :: ts)).getLast? = some '\r' ↔
      ∃ u, ts.getLast? = some u ∧ u.getLast? = some '\r' := by
  rcases List.eq_nil_or_concat ts with rfl | ⟨init, u, rfl⟩
  · have hne : o.hitsound.shw ≠ [] := by
      obtain ⟨n, h, -⟩ := Res.bind_eq_ok.1 (HO.HitSound.round o.hitsound)
      exact (parseU8_chars h).1
    have e : o.position.x.toStr ++ preC ',' [o.position.y.toStr, tm, u8ToStr o.typeByte, o.hitsound.shw] =
        (o.position.x.toStr ++ preC ',' [o.position.y.toStr, tm, u8ToStr o.typeByte]) ++ ',' :: o.hitsound.shw := by simp [preC]
    rw [e, getLast?_app_cons _ _ hne]
    simp only [List.getLast?_nil, reduceCtorEq, false_and, exists_false, iff_false]
    intro h
    exact num_mem (by decide) (HO.HitSound.parse_chars (HO.HitSound.round o.hitsound)) (List.mem_of_getLast? h)
  · have e : o.position.x.toStr ++ preC ',' (o.position.y.toStr :: tm :: u8ToStr o.typeByte :: o.hitsound.shw :: (init ++ [u])) =
        (o.position.x.toStr ++ preC ',' (o.position.y.toStr :: tm :: u8ToStr o.typeByte :: o.hitsound.shw :: init)) ++ ',' :: u := by simp [preC]
    rw [List.concat_eq_append, e]
    by_cases hu : u = []
    · subst hu; simp
    · rw [getLast?_app_cons _ _ hu]; simp

theorem sample_cr {v : Nat} {h : HO.HitSample} {t : Str} (ht : h.shw v = some t) :
    t.getLast? = some '\r' ↔ ¬ ShortSample v ∧ h.filename.getLast? = some '\r' := by
  unfold HO.HitSample.shw at ht
  split at ht
  · cases ht
  · split at ht
    · rename_i hs
      have hs : ShortSample v := hs
      cases ht
      simp only [hs, not_true_eq_false, false_and, iff_false]
      intro hl
      have hl := List.mem_of_getLast? hl
      have ca := num_mem (c := '\r') (by decide) (usize_colon h.normalSet.code)
      have cb := num_mem (c := '\r') (by decide) (usize_colon h.additionSet.code)
      have ci := num_mem (c := '\r') (by decide) (usize_colon h.index.code)
      simp [HO.SampleSet.shw, HO.SampleIndex.shw, ca, cb, ci] at hl
    · rename_i hs
      have hs : ¬ ShortSample v := hs
      cases ht
      simp only [hs, not_false_iff, true_and]
      rw [List.append_assoc _ [':'] h.filename, List.singleton_append]
      by_cases hf : h.filename = []
      · rw [hf, List.getLast?_append]; simp
      · rw [getLast?_app_cons _ _ hf]

/-- A hit sample that ends in a carriage return is not read back without it. -/
theorem sample_cr_lost {v : Nat} {h : HO.HitSample} {w : Str} (ht : h.shw v = some (w ++ ['\r'])) : ¬ SampleReads (splitOnC ':' w) h := by
  intro hr
  obtain ⟨hs, hf⟩ := (sample_cr ht).1 (by simp)
  obtain ⟨f, hf⟩ := getLast_cr.1 hf
  unfold HO.HitSample.shw at ht
  split at ht
  · cases ht
  · rw [if_neg (show ¬ (10 ≤ v ∧ v ≤ 11) from hs), hf] at ht
    have e : w = h.normalSet.shw ++ [':'] ++ h.additionSet.shw ++ [':'] ++ h.index.shw ++ [':'] ++ h.volume.shw ++ [':'] ++ f := by
      have := Option.some.inj ht
      rw [← List.append_assoc] at this
      exact (List.append_cancel_right this).symm
    have ca := num_mem (c := ':') (by decide) (usize_colon h.normalSet.code)
    have cb := num_mem (c := ':') (by decide) (usize_colon h.additionSet.code)
    have ci := num_mem (c := ':') (by decide) (usize_colon h.index.code)
    have cv := num_mem (c := ':') (by decide) (volume_num h.volume)
    have e' : splitOnC ':' w = usizeToStr h.normalSet.code :: usizeToStr h.additionSet.code :: usizeToStr h.index.code :: h.volume.shw :: splitOnC ':' f := by
      rw [e]
      simp only [List.append_assoc, List.singleton_append, List.cons_append, List.nil_append, splitOnC_mid, HO.SampleSet.shw, HO.SampleIndex.shw]
      rw [split_free ca, split_free cb, split_free ci, split_free cv]; rfl
    have h5 := hr.filename
    rw [e', dropBlank_cons (by simp), dropBlank_cons (by simp), dropBlank_cons (by simp), dropBlank_cons (splitOnC_ne_nil _ _)] at h5
    simp only [List.getElem?_cons_succ] at h5
    have hlen : h.filename.length ≤ f.length := by
      rw [h5]
      cases hg : (dropBlankLast (splitOnC ':' f))[0]? with
      | none => simp
      | some g => exact piece_length (dropBlank_sub (List.mem_of_getElem? hg))
    rw [hf] at hlen
    simp at hlen
    omega

theorem sampleList_one {v : Nat} {o : Option HO.HitSample} {init : List Str} {u : Str} (h : HitObject.sampleList v o = init ++ [u]) :
    init = [] ∧ ∃ h, o = some h ∧ h.shw v = some u := by
  cases o with
  | none => simp [HitObject.sampleList] at h
  | some x =>
    simp only [HitObject.sampleList] at h
    cases hx : x.shw v with
    | none => rw [hx] at h; simp at h
    | some t =>
      rw [hx] at h
      cases init with
      | nil => simp at h; exact ⟨rfl, x, rfl, by rw [hx, h]⟩
      | cons a l => simp at h

theorem time_cr_lost {v : Nat} {x : Decimal D} {w q : Str} (h : x.toStrShifted v = some (w ++ ['\r'])) (hq : q ∈ splitOnC ',' w) : ¬ TimeReads v q x := by
  intro hr
  have hd : '\r' ∈ x.text := (shifted_char h (by decide)).1 (by simp)
  cases x with
  | left d => cases hd
  | right s =>
    have e : s = w ++ ['\r'] := Option.some.inj h
    unfold TimeReads at hr
    have hl := piece_length hq
    split at hr
    · cases hr
      rw [e] at hl; simp at hl; omega
    · split at hr
      · obtain ⟨_, _, h⟩ := hr; cases h
      · cases hr

theorem field_cr_lost {x : Decimal D} {w q : Str} (h : x.toStr = w ++ ['\r']) (hq : q ∈ splitOnC ',' w) : x ≠ Decimal.ofStr q := by
  intro hr
  have hd : '\r' ∈ x.text := (toStr_char (by decide)).1 (by rw [h]; simp)
  cases x with
  | left d => cases hd
  | right s =>
    have e : s = w ++ ['\r'] := h
    have hl := piece_length hq
    unfold Decimal.ofStr at hr
    split at hr
    · cases hr
    · cases hr
      rw [e] at hl; simp at hl; omega

/-- If the line of an object ends in a carriage return, the object is not read back from the line without it. -/
theorem ho_cr_lost {v : Nat} {o : HitObject D} {s : Str} (hs : o.shw v = some (s ++ ['\r'])) : HitObject.parse v s ≠ .ok o := by
  intro hf
  have hr := HitObject.parse_iff.1 hf
  rw [ho_shw_form] at hs
  obtain ⟨tm, htm, hs⟩ := Option.bind_eq_some_iff.1 hs
  obtain ⟨ts, hts, hs⟩ := Option.map_eq_some_iff.1 hs
  obtain ⟨u, hu, hu'⟩ := (ho_line_cr (v := v)).1 (by rw [hs]; simp)
  obtain ⟨init, rfl⟩ := List.getLast?_eq_some_iff.1 hu
  obtain ⟨w, rfl⟩ := getLast_cr.1 hu'
  have e : s = o.position.x.toStr ++ preC ',' (o.position.y.toStr :: tm :: u8ToStr o.typeByte :: o.hitsound.shw :: (init ++ [w])) := by
    have : (o.position.x.toStr ++ preC ',' (o.position.y.toStr :: tm :: u8ToStr o.typeByte :: o.hitsound.shw :: (init ++ [w]))) ++ ['\r'] = s ++ ['\r'] := by
      rw [← hs]; simp [preC]
    exact (List.append_cancel_right this).symm
  rw [e, split_preC] at hr
  obtain ⟨u1, u2⟩ := ho_line_free (v := v) (o := o)
  obtain ⟨hx, hy, ht⟩ := ho_head_free htm hr
  simp only [List.flatMap_cons, split_free hx, split_free hy, split_free ht, split_free u1, split_free u2, List.singleton_append] at hr
  obtain ⟨-, hk⟩ := ho_reads_iff.1 hr
  clear hr e hs hu hu'
  rw [List.flatMap_append, List.flatMap_cons, List.flatMap_nil, List.append_nil] at hk
  have smp : ∀ {h : HO.HitSample}, h.shw v = some (w ++ ['\r']) → o.hitsample = some h → ¬ SampleTail (splitOnC ',' w) o.hitsample := by
    intro h h1 h2 h3
    obtain ⟨h', h4, h5⟩ := sampleTail_iff.1 h3
    rw [h2] at h5
    cases h5
    exact sample_cr_lost h1 h4
  unfold lineTail at hts
  cases hp : o.params with
  | hitCircle =>
    rw [hp] at hts hk
    simp only [Option.some.injEq] at hts
    split at hts
    · cases init with
      | nil => simp at hts
      | cons a l => simp at hts
    · obtain ⟨rfl, h, h1, h2⟩ := sampleList_one hts
      exact smp h2 h1 hk
  | slider p =>
    rw [hp] at hts hk
    simp only [Option.some.injEq] at hts
    obtain ⟨c, m, l, qs, e, h⟩ := hk
    have hi : ∀ q, '\r' ∉ q → (init ++ [w ++ ['\r']]).getLast? ≠ some q := by
      intro q hq h
      simp at h
      exact hq (by rw [← h]; simp)
    have free : ∀ q ∈ c :: m :: l :: qs, ',' ∉ q := fun q hq =>
      split_flat_free (ps := init ++ [w]) (by rw [List.flatMap_append, List.flatMap_cons, List.flatMap_nil, List.append_nil, e]; exact hq)
    have hpts := curve_points h.curve (free c (by simp))
    have hc := curveText_free (v := v) hpts hx hy
    have hsl : ',' ∉ i32ToStr p.slides := noC_mem.1 (noComma_of_field (i32_field _))
    have hl := beat_head (free l (by simp)) h.length
    rcases List.eq_nil_or_concat (HitObject.sampleList v o.hitsample) with hn | ⟨i2, u, hn⟩
    · rw [hn, List.append_nil] at hts
      rcases List.eq_nil_or_concat (edgeTexts p o.hitsample) with he | ⟨i3, u, he⟩
      · -- the length is last
        rw [he] at hts
        have : init = [curveText v o.position p, i32ToStr p.slides] ∧ p.length.toStr = w ++ ['\r'] := by
          have : [curveText v o.position p, i32ToStr p.slides] ++ [p.length.toStr] = init ++ [w ++ ['\r']] := hts
          have := List.append_inj' this rfl
          exact ⟨this.1.symm, by simpa using this.2⟩
        obtain ⟨rfl, hw⟩ := this
        simp only [List.flatMap_cons, List.flatMap_nil, split_free hc, split_free hsl, List.singleton_append, List.cons_append, List.append_nil,
          List.nil_append, List.cons.injEq] at e
        exact field_cr_lost hw (by rw [e.2.2]; simp) h.length
      · have hlast : (init ++ [w ++ ['\r']]).getLast? = some u := by
          rw [← hts, he, List.concat_eq_append, ← List.cons_append, ← List.cons_append, ← List.cons_append, List.getLast?_append]; rfl
        exact hi u (edge_lf (p := p) (o := o.hitsample) (by rw [he]; simp) (.inr rfl)) hlast
    · rw [List.concat_eq_append] at hn
      obtain ⟨rfl, hh, h1, h2⟩ := sampleList_one hn
      rw [hn] at hts
      have : init = curveText v o.position p :: i32ToStr p.slides :: p.length.toStr :: edgeTexts p o.hitsample ∧ u = w ++ ['\r'] := by
        have : (curveText v o.position p :: i32ToStr p.slides :: p.length.toStr :: edgeTexts p o.hitsample) ++ [u] = init ++ [w ++ ['\r']] := by
          rw [← hts]; simp
        have := List.append_inj' this rfl
        exact ⟨this.1.symm, by simpa using this.2⟩
      obtain ⟨rfl, rfl⟩ := this
      have e2 : edgeTexts p o.hitsample = [HitObject.pipeStr HO.HitSound.shw p.edgeSounds, HitObject.pipeStr HO.EdgeSet.shw p.edgeSets] := by
        unfold edgeTexts
        simp [h1]
      rw [e2] at e
      simp only [List.flatMap_cons, List.flatMap_nil, split_free hc, split_free hsl, split_free hl, split_free (sounds_free _), split_free (sets_free _),
        List.singleton_append, List.cons_append, List.append_nil, List.nil_append, List.cons.injEq] at e
      obtain ⟨-, -, -, rfl⟩ := e
      have he := h.edges
      generalize p.edgeSounds = e1, p.edgeSoundsShort = e2, p.edgeSets = e3, p.edgeSetsShort = e4 at he
      generalize hq : _ :: _ :: _ = qs at he
      generalize ho : o.hitsample = oo at he
      cases he with
      | none => cases hq
      | sounds => cases hq
      | sets => rw [h1] at ho; cases ho
      | sample _ _ hs =>
        obtain ⟨-, hq⟩ := List.cons.inj hq
        obtain ⟨-, hq⟩ := List.cons.inj hq
        rw [← hq, ← ho] at hs
        exact smp h2 h1 hs
  | spinner e =>
    rw [hp] at hts hk
    obtain ⟨te, g1, g2⟩ := Option.map_eq_some_iff.1 hts
    obtain ⟨q, qs, h1, h2, h3⟩ := hk
    cases init with
    | nil =>
      simp only [List.nil_append, List.cons.injEq] at g2
      obtain ⟨rfl, -⟩ := g2
      exact time_cr_lost g1 (by rw [List.flatMap_nil, List.nil_append] at h1; rw [h1]; simp) h2
    | cons a init =>
      simp only [List.cons_append, List.cons.injEq] at g2
      obtain ⟨rfl, g2⟩ := g2
      obtain ⟨rfl, h, h4, h5⟩ := sampleList_one g2
      have hq : ',' ∉ q := by
        refine split_flat_free (ps := [te] ++ [w]) ?_
        simp only [List.flatMap_append, List.flatMap_cons, List.flatMap_nil, List.append_nil] at h1 ⊢
        rw [h1]; simp
      have hc := time_head g1 hq h2
      simp only [List.flatMap_cons, List.flatMap_nil, List.append_nil, split_free hc, List.singleton_append, List.cons.injEq] at h1
      obtain ⟨-, rfl⟩ := h1
      exact smp h5 h4 h3
  | hold e =>
    rw [hp] at hts hk
    obtain ⟨te, g1, g2⟩ := Option.map_eq_some_iff.1 hts
    obtain ⟨q, qs, h1, h2⟩ := hk
    cases init with
    | cons a l => simp at g2
    | nil =>
      simp only [List.nil_append, List.cons.injEq, and_true] at g2
      rw [List.flatMap_nil, List.nil_append] at h1
      rw [← h1, join_splitOnC] at h2
      -- the hit sample is last
      obtain ⟨a, b, h, k1, k2, k3, k4, k5⟩ := h2
      have ha : ':' ∉ a := noC_mem.1 (lacks_iff.1 k2)
      have hc := hold_head g1 (c := ':') (by decide) ha k3
      rw [k1] at g2
      have g3 : te ++ ':' :: HitObject.sampleText v o.hitsample = a ++ ':' :: (b ++ ['\r']) := by rw [g2]; simp
      obtain ⟨rfl, g4⟩ := mid_unique g3 hc ha
      rw [k5] at g4
      cases hsh : h.shw v with
      | none => simp [HitObject.sampleText, hsh] at g4
      | some t =>
        simp only [HitObject.sampleText, hsh, Option.getD_some] at g4
        rw [g4] at hsh
        exact sample_cr_lost hsh k4

/-- The line of an object that survives ends in a carriage return exactly if its last text does. -/
theorem ho_last {v : Nat} {o : HitObject D} {s : Str} (hs : o.shw v = some s) (h : HOSurvives v o) :
    s.getLast? = some '\r' ↔ o.lastText.getLast? = some '\r' := by
  rw [ho_shw_form] at hs
  obtain ⟨tm, htm, hs⟩ := Option.bind_eq_some_iff.1 hs
  obtain ⟨ts, hts, rfl⟩ := Option.map_eq_some_iff.1 hs
  rw [ho_line_cr (v := v)]
  have smp : ∀ {h : HO.HitSample}, ¬ NoSample v ∧ SampleSurvives v h → ∃ t, h.shw v = some t ∧ (t.getLast? = some '\r' ↔ h.filename.getLast? = some '\r') := by
    rintro h ⟨h1, h2⟩
    obtain ⟨t, ht⟩ := sample_written h1 h
    refine ⟨t, ht, ?_⟩
    rw [sample_cr ht]
    constructor
    · exact fun h => h.2
    · refine fun h => ⟨fun hh => ?_, h⟩
      rw [(h2.short hh).2] at h; cases h
  have hk := h.kind
  unfold lineTail at hts
  unfold HitObject.lastText
  have hdef : HO.HitSample.default.filename = [] := rfl
  cases hp : o.params with
  | hitCircle =>
    rw [hp] at hts hk
    cases hts
    simp only [KindSurvives] at hk
    split at hk
    · rename_i hv
      rw [if_pos hv, hk]
      simp [hdef]
    · rename_i hv
      rw [if_neg hv]
      cases ho : o.hitsample with
      | none => simp [HitObject.sampleList]
      | some hh =>
        obtain ⟨t, h1, h2⟩ := smp (hk hh ho)
        simp [HitObject.sampleList, h1, h2]
  | slider p =>
    rw [hp] at hts hk
    cases hts
    have hk : SliderSurvives v o.position p o.hitsample := hk
    cases ho : o.hitsample with
    | some hh =>
      obtain ⟨t, h1, h2⟩ := smp (hk.sample hh ho)
      have hlast : (curveText v o.position p :: i32ToStr p.slides :: p.length.toStr :: (edgeTexts p (some hh) ++ HitObject.sampleList v (some hh))).getLast? = some t := by
        simp only [HitObject.sampleList, h1, Option.toList_some]
        rw [← List.cons_append, ← List.cons_append, ← List.cons_append, List.getLast?_append]
        rfl
      rw [hlast]
      simp [h2]
    | none =>
      simp only [HitObject.sampleList, List.append_nil]
      cases ha : p.edgeSoundsShort with
      | true =>
        obtain ⟨g1, g2⟩ := hk.sounds ha
        obtain ⟨g3, -⟩ := hk.sets g2
        have e : edgeTexts p none = [] := by simp [edgeTexts, g1, g2, g3, ha]
        rw [e]
        simp only [List.getLast?_cons_cons, List.getLast?_singleton, Option.some.injEq, exists_eq_left', if_true]
        cases p.length with
        | right s => rfl
        | left d =>
          simp only [Decimal.text, List.getLast?_nil, reduceCtorEq, iff_false]
          intro h
          exact dec_char (c := '\r') (by decide) d (List.mem_of_getLast? h)
      | false =>
        simp only [Bool.false_eq_true, if_false, List.getLast?_nil, reduceCtorEq, iff_false]
        rintro ⟨u, hu, hu'⟩
        have hne : edgeTexts p none ≠ [] := by simp [edgeTexts, ha]
        rw [List.getLast?_cons_of_ne_nil (by simp), List.getLast?_cons_of_ne_nil (by simp), List.getLast?_cons_of_ne_nil hne] at hu
        exact edge_lf (List.mem_of_getLast? hu) (.inr rfl) (List.mem_of_getLast? hu')
  | spinner e =>
    rw [hp] at hts hk
    obtain ⟨te, g1, rfl⟩ := Option.map_eq_some_iff.1 hts
    cases ho : o.hitsample with
    | some hh =>
      obtain ⟨t, h1, h2⟩ := smp (hk.2 hh ho)
      simp [HitObject.sampleList, h1, h2]
    | none =>
      simp only [HitObject.sampleList, List.getLast?_singleton, Option.some.injEq, exists_eq_left']
      cases e with
      | right s =>
        obtain rfl : s = te := Option.some.inj g1
        rfl
      | left d =>
        simp only [Decimal.text, List.getLast?_nil, reduceCtorEq, iff_false]
        intro h
        have := (shifted_char g1 (c := '\r') (by decide)).1 (List.mem_of_getLast? h)
        cases this
  | hold e =>
    rw [hp] at hts hk
    obtain ⟨te, g1, rfl⟩ := Option.map_eq_some_iff.1 hts
    simp only [List.getLast?_singleton, Option.some.injEq, exists_eq_left']
    have hk := hk.2
    split at hk
    · rename_i hv
      rw [hk]
      simp [HitObject.sampleText, (HO.HitSample.print_none (h := HO.HitSample.default) hv).1, hdef]
    · rename_i hv
      obtain ⟨hh, ho, hh'⟩ := hk
      rw [ho]
      obtain ⟨t, h1, h2⟩ := smp ⟨hv, hh'⟩
      have hne : t ≠ [] := by
        rintro rfl
        unfold HO.HitSample.shw at h1
        split at h1
        · cases h1
        · split at h1
          · simp at h1
          · simp at h1
      simp only [HitObject.sampleText, h1, Option.getD_some, getLast?_app_cons _ _ hne, h2]

/-- A list of hit objects is read back unchanged from the section written for it exactly if every object survives, no text
has a line feed and no object but the last ends in a text that ends in a carriage return. -/
theorem C21_exact {v : Nat} {l : List (HitObject D)} :
    (∃ s, HitObjects.shw v l = some s ∧ HitObjects.parse v s = .ok l) ↔
      (∀ o ∈ l, HOSurvives v o ∧ ∀ t ∈ o.texts, '\n' ∉ t) ∧ ∀ o ∈ l.dropLast, o.lastText.getLast? ≠ some '\r' := by
  have nolf : ∀ {s : Str}, NoLF s ↔ '\n' ∉ s := noC_mem
  unfold HitObjects.shw HitObjects.parse
  rw [section_exact (f := HitObject.parse v) (shw := HitObject.shw v)]
  · constructor
    · rintro ⟨h1, h2⟩
      refine ⟨fun o ho => ?_, fun o ho hcr => ?_⟩
      · obtain ⟨s, a, b, c⟩ := h1 o ho
        have hs := C20_exact.1 ⟨s, a, c⟩
        exact ⟨hs, fun t ht hm => nolf.1 b (ho_texts_written a hs (by decide) (by decide) ht hm)⟩
      · obtain ⟨s, a, b, c⟩ := h1 o (List.dropLast_subset _ ho)
        have hs := C20_exact.1 ⟨s, a, c⟩
        exact h2 o ho s a ((ho_last a hs).2 hcr)
    · rintro ⟨h1, h2⟩
      refine ⟨fun o ho => ?_, fun o ho s hs hcr => ?_⟩
      · obtain ⟨a, b⟩ := h1 o ho
        obtain ⟨s, h3, h4⟩ := C20_exact.2 a
        refine ⟨s, h3, nolf.2 fun hm => ?_, h4⟩
        obtain ⟨t, ht, hm⟩ := ho_line_lf h3 (.inl rfl) hm
        rcases List.mem_append.1 ht with ht | ht
        · exact b t ht hm
        · unfold HitObject.pointTexts at ht
          have hk := a.kind
          cases hp : o.params with
          | slider p =>
            rw [hp] at ht hk
            have hk : SliderSurvives v o.position p o.hitsample := hk
            obtain ⟨pt, hpt, ht⟩ := List.mem_flatMap.1 ht
            obtain ⟨k1, k2⟩ := hk.points pt hpt
            have := (pipe_chars (point_pipe ⟨k1, k2⟩)).2.2.1
            unfold HO.CurvePoint.shw at this
            simp only [List.mem_append, not_or] at this
            simp only [List.mem_cons, List.not_mem_nil, or_false] at ht
            rcases ht with rfl | rfl
            · exact this.1.1 ((toStr_char (by decide)).2 hm)
            · exact this.2 ((toStr_char (by decide)).2 hm)
          | hitCircle => rw [hp] at ht; cases ht
          | spinner e => rw [hp] at ht; cases ht
          | hold e => rw [hp] at ht; cases ht
      · exact h2 o ho ((ho_last hs (h1 o (List.dropLast_subset _ ho)).1).1 hcr)
  · intro x o s hx hf hs
    rw [nolf] at hx ⊢
    intro hm
    obtain ⟨t, ht, hm⟩ := ho_line_lf hs (.inl rfl) hm
    exact hx (ho_texts hf (by decide) ht hm)
  · intro o s hs
    rw [ho_shw_form] at hs
    obtain ⟨tm, htm, hs⟩ := Option.bind_eq_some_iff.1 hs
    obtain ⟨ts, hts, rfl⟩ := Option.map_eq_some_iff.1 hs
    simp [preC]
  · intro o s hs hf hcr
    obtain ⟨w, rfl⟩ := getLast_cr.1 hcr
    have e : stripCR (w ++ ['\r']) = w := by simp [stripCR]
    rw [e] at hf
    exact ho_cr_lost hs hf

end

/-! ### Examples -/

/-- A hold note whose end has a comma. -/
def hoCommas : HitObject Dec96 :=
  ⟨⟨.left ⟨false, 256, 0⟩, .right c!"y"⟩, .right c!"now", .hold (.right c!"a,b"), true, ⟨7⟩, ⟨true, false, false, true⟩,
    some ⟨.normal, .other 9, .index 3, ⟨some 80⟩, c!"my, file.wav"⟩⟩

/-- A spinner whose end ends in a carriage return. -/
def hoReturn : HitObject Dec96 :=
  ⟨⟨.left ⟨false, 256, 0⟩, .left ⟨false, 192, 0⟩⟩, .right c!"t", .spinner (.right c!"e\r"), false, ⟨0⟩, ⟨false, false, false, false⟩, none⟩

theorem int_survives {d : Dec96} (h : DecLib.parse (DecLib.shw d) = some d) : FieldSurvives (.left d) := h

theorem hoCommas_survives : HOSurvives 14 hoCommas :=
  ⟨int_survives (by decide), ⟨by decide, by decide⟩, ⟨by decide, by decide⟩, by decide, ⟨by decide, by decide⟩, _, rfl,
    ⟨trivial, ⟨by decide, by decide, by decide, by decide⟩, by decide, fun h => absurd h (by decide),
      fun n hn => (by cases hn; decide), by decide, .inr (by decide)⟩⟩

theorem hoReturn_survives : HOSurvives 14 hoReturn :=
  ⟨int_survives (by decide), int_survives (by decide),
     ⟨by decide, by decide⟩, by decide, ⟨by decide, by decide⟩, fun h hh => by cases hh⟩

/-- Commas in the end of a hold note and in the file name, and a carriage return at the end of the last line. -/
example : ∃ s, HitObjects.shw 14 [hoCommas, hoReturn] = some s ∧ HitObjects.parse 14 s = .ok [hoCommas, hoReturn] := by
  refine C21_exact.2 ⟨fun o ho => ?_, fun o ho => ?_⟩
  · simp only [List.mem_cons, List.not_mem_nil, or_false] at ho
    rcases ho with rfl | rfl
    · exact ⟨hoCommas_survives, by decide⟩
    · exact ⟨hoReturn_survives, by decide⟩
  · simp only [List.dropLast_cons₂, List.dropLast_singleton, List.mem_singleton] at ho
    subst ho; decide

/-- The same in the other order: the carriage return is lost. -/
example : ¬∃ s, HitObjects.shw 14 [hoReturn, hoCommas] = some s ∧ HitObjects.parse 14 s = .ok [hoReturn, hoCommas] := by
  intro h
  exact (C21_exact.1 h).2 hoReturn (by simp) (by decide)

/-- A combo skip count above 7, which the type number has no room for. -/
example {v : Nat} {o : HitObject Dec96} (h : 8 ≤ o.comboSkip.val.toNat) : ¬∃ s, o.shw v = some s ∧ HitObject.parse v s = .ok o := by
  intro hs
  have := (C20_exact.1 hs).skip
  omega

/-- A hit sample in a version that does not write it. -/
example {v : Nat} (hv : 3 ≤ v ∧ v ≤ 9) {o : HitObject Dec96} {p : SlideParams Dec96} (hp : o.params = .slider p) (h : o.hitsample.isSome) :
    ¬∃ s, o.shw v = some s ∧ HitObject.parse v s = .ok o := by
  intro hs
  have hk := (C20_exact.1 hs).kind
  rw [hp] at hk
  have hk : SliderSurvives v o.position p o.hitsample := hk
  obtain ⟨x, hx⟩ := Option.isSome_iff_exists.1 h
  exact (hk.sample x hx).1 hv

end Osu
