/-
C15 and C16, exactly: which timing points are read back unchanged from what is written, and which lists of them.
-/
import Verif.Props.TimingPoints
import Verif.Proof.LinesExact

namespace Osu
open Parser
variable {D : Type} [DecLib D]

/-! ### Specification -/

/-- A time that is read back unchanged from what version `v` writes: text that is no number and has no comma, or a number
the decimal library reads back from its own text; in versions 3 and 4 that text is of the number 24 below. -/
def TimeSurvives (v : Nat) : Decimal D → Prop
  | .right s => (DecLib.parse s : Option D) = none ∧ ',' ∉ s
  | .left d =>
    if 3 ≤ v ∧ v ≤ 4 then ∃ d' d'', DecLib.sub24 d = some d' ∧ DecLib.parse (DecLib.shw d') = some d'' ∧ DecLib.add24 d'' = some d
    else DecLib.parse (DecLib.shw d) = some d

/-- The same for the beat length, which up to version 3 is the rest of the line and may have commas. -/
def BeatSurvives (v : Nat) : Decimal D → Prop
  | .right s => (DecLib.parse s : Option D) = none ∧ (4 ≤ v → ',' ∉ s)
  | .left d => DecLib.parse (DecLib.shw d) = some d

/-- What is read back unchanged in version `v`. -/
structure TPSurvives (v : Nat) (t : TimingPoint D) : Prop where
  time : TimeSurvives v t.time
  beatLength : BeatSurvives v t.beatLength
  index : 4 ≤ v → IndexWritable t.sampleIndex
  named : 4 ≤ v → SampleSetNamed t.sampleSet
  flags : 5 ≤ v → t.uninherited = none → t.effects = none
  effects : 6 ≤ v → t.effects = none → t.uninherited = none
  upTo3 : v ≤ 3 → t.meter = 4 ∧ t.sampleSet = .normal ∧ t.sampleIndex = .index 1
  upTo4 : v ≤ 4 → t.volume = ⟨100⟩ ∧ t.uninherited = none ∧ t.effects = none

/-- The text of a decimal, if it is kept as text. -/
def Decimal.text : Decimal D → Str
  | .left _ => []
  | .right s => s

/-! ### Proof -/

theorem dec_noComma (d : D) : ',' ∉ DecLib.shw d := fun h => by
  have := DecLib.shw_chars d _ h
  revert this; decide

theorem noComma_iff {s : Str} : NoComma s ↔ ',' ∉ s := by
  constructor
  · intro h hc
    have := h _ hc
    simp at this
  · intro h c hc
    simp only [Bool.not_eq_true', beq_eq_false_iff_ne]
    rintro rfl
    exact h hc

theorem timeReads_ofStr {v : Nat} {p : Str} {t : Decimal D} :
    TimeReads v p t ↔ (Decimal.ofStr p : Decimal D).shiftUp v = some t := by
  unfold TimeReads Decimal.ofStr
  cases h : (DecLib.parse p : Option D) with
  | none => simp [Decimal.shiftUp, eq_comm]
  | some d =>
    simp only [Decimal.shiftUp]
    split
    · cases DecLib.add24 d <;> simp [eq_comm]
    · simp [eq_comm]

/-- The text of a time is read as the time exactly if the time survives. -/
theorem time_survives {v : Nat} {x : Decimal D} {p : Str} (hp : x.toStrShifted v = some p) :
    (',' ∉ p ∧ TimeReads v p x) ↔ TimeSurvives v x := by
  cases x with
  | right s =>
    obtain rfl : s = p := Option.some.inj hp
    unfold TimeReads TimeSurvives
    cases h : (DecLib.parse s : Option D) with
    | none => simp [h]
    | some d =>
      simp only [h, reduceCtorEq, false_and, iff_false]
      rintro ⟨-, h⟩
      split at h
      · obtain ⟨_, _, h⟩ := h; cases h
      · cases h
  | left d =>
    unfold Decimal.toStrShifted at hp
    unfold TimeReads TimeSurvives
    simp only at hp
    split at hp
    · rename_i hv
      obtain ⟨d', h1, rfl⟩ := Option.map_eq_some_iff.1 hp
      simp only [if_pos hv]
      simp only [dec_noComma, not_false_iff, true_and, h1, Option.some.injEq, exists_eq_left']
      cases h : (DecLib.parse (DecLib.shw d') : Option D) with
      | none => simp [h]
      | some d'' => simp [h]
    · rename_i hv
      cases hp
      simp only [if_neg hv, dec_noComma, not_false_iff, true_and]
      cases h : (DecLib.parse (DecLib.shw d) : Option D) with
      | none => simp [h]
      | some d'' => simp [h, eq_comm]

theorem beat_survives {v : Nat} {x : Decimal D} : (4 ≤ v → ',' ∉ x.toStr) ∧ x = Decimal.ofStr x.toStr ↔ BeatSurvives v x := by
  cases x with
  | right s =>
    unfold Decimal.ofStr BeatSurvives Decimal.toStr
    cases h : (DecLib.parse s : Option D) <;> simp [h]
  | left d =>
    unfold Decimal.ofStr BeatSurvives Decimal.toStr
    simp only [dec_noComma, not_false_iff, implies_true, true_and]
    cases h : (DecLib.parse (DecLib.shw d) : Option D) <;> simp [h, eq_comm]

theorem time_head {v : Nat} {x : Decimal D} {p q : Str} (hp : x.toStrShifted v = some p) (hq : ',' ∉ q) (h : TimeReads v q x) :
    ',' ∉ p := by
  cases x with
  | right s =>
    obtain rfl : s = p := Option.some.inj hp
    unfold TimeReads at h
    cases h' : (DecLib.parse q : Option D) with
    | none =>
      rw [h'] at h
      cases h; exact hq
    | some d =>
      rw [h'] at h
      simp only at h
      split at h
      · obtain ⟨_, _, h⟩ := h; cases h
      · cases h
  | left d =>
    unfold Decimal.toStrShifted at hp
    simp only at hp
    split at hp
    · obtain ⟨d', -, rfl⟩ := Option.map_eq_some_iff.1 hp
      exact dec_noComma _
    · cases hp; exact dec_noComma _

theorem beat_head {x : Decimal D} {q : Str} (hq : ',' ∉ q) (h : x = Decimal.ofStr q) : ',' ∉ x.toStr := by
  subst h
  unfold Decimal.ofStr
  cases h' : (DecLib.parse q : Option D) with
  | none => exact hq
  | some d => exact dec_noComma _

theorem index_survives {x : TP.SampleIndex} : TP.SampleIndex.parse x.shw = .ok x ↔ IndexWritable x := by
  refine ⟨fun h => ?_, TP.sampleIndex_round⟩
  cases x with
  | osuDefaultHitsounds => trivial
  | index n =>
    by_cases h0 : n = 0
    · subst h0
      exact absurd h (by decide)
    · have e : TP.SampleIndex.ofU32 n = .index n := by simp [TP.SampleIndex.ofU32, h0]
      have hb := (C25_tp_sample_index n n).2.2
      rw [e] at hb
      refine ⟨h0, Nat.le_of_not_lt fun hlt => ?_⟩
      obtain ⟨-, -, hx⟩ := hb hlt
      exact hx _ h

theorem set_survives {x : TP.SampleSet} : TP.SampleSet.parse x.shw = .ok x ↔ SampleSetNamed x := by
  refine ⟨fun h => ?_, TP.sampleSet_round⟩
  cases x with
  | other n =>
    refine ⟨?_, ?_, ?_, ?_⟩ <;> (rintro rfl; exact absurd h (by decide))
  | _ => trivial

/-- The fields after the time have no commas if the beat length has none. -/
theorem tail_noComma {v : Nat} {t : TimingPoint D} (hb : ',' ∉ t.beatLength.toStr) :
    ∀ q ∈ TimingPoint.tailFields v t, NoComma q := by
  have n1 : ∀ n, NoComma (i32ToStr n) := fun n => noComma_of_field (i32_field n)
  have n2 : ∀ b, NoComma (boolToStr b) := fun n => noComma_of_field (bool_field n)
  have n3 : ∀ e : TP.Effects, NoComma e.shw := fun e => noComma_of_field (fieldChar_num (TP.Effects.parse_chars (TP.effects_round e)))
  have n4 : NoComma [] := by simp [AllC]
  intro q hq
  unfold TimingPoint.tailFields at hq
  rw [List.mem_append, List.mem_append] at hq
  rcases hq with (hq | hq) | hq
  · cases List.mem_singleton.1 hq
    exact noComma_iff.2 hb
  · split at hq
    · simp only [List.mem_cons, List.not_mem_nil, or_false] at hq
      rcases hq with rfl | rfl | rfl
      · exact n1 _
      · exact n1 _
      · exact n1 _
    · cases hq
  · split at hq
    · rw [List.mem_append, List.mem_append] at hq
      rcases hq with (hq | hq) | hq
      · cases List.mem_singleton.1 hq
        exact n1 _
      · split at hq
        · cases List.mem_singleton.1 hq
          exact n2 _
        · split at hq
          · cases List.mem_singleton.1 hq
            exact n4
          · cases hq
      · split at hq
        · cases List.mem_singleton.1 hq
          exact n3 _
        · cases hq
    · cases hq

theorem tp_reads_head {v : Nat} {t : TimingPoint D} {ps : List Str} (h : TPReads v ps t) :
    ∃ p q qs, ps = p :: q :: qs ∧ TimeReads v p t.time ∧ (4 ≤ v → t.beatLength = Decimal.ofStr q) := by
  cases h with
  | old hv ht => exact ⟨_, _, _, rfl, ht, fun h => by omega⟩
  | four _ h => exact ⟨_, _, _, rfl, h.time, fun _ => h.beatLength⟩
  | six _ h => exact ⟨_, _, _, rfl, h.time, fun _ => h.beatLength⟩
  | seven _ h => exact ⟨_, _, _, rfl, h.time, fun _ => h.beatLength⟩
  | eight _ h => exact ⟨_, _, _, rfl, h.time, fun _ => h.beatLength⟩

theorem TimeSurvives.written {v : Nat} {x : Decimal D} (h : TimeSurvives v x) : ∃ p, x.toStrShifted v = some p := by
  cases x with
  | right s => exact ⟨s, rfl⟩
  | left d =>
    unfold TimeSurvives at h
    unfold Decimal.toStrShifted
    simp only at h ⊢
    split at h
    · rename_i hv
      obtain ⟨d', -, h1, -⟩ := h
      exact ⟨_, by rw [if_pos hv, h1]; rfl⟩
    · rename_i hv
      exact ⟨_, by rw [if_neg hv]⟩

theorem tp_head {v : Nat} {t : TimingPoint D} {p : Str} : TPHead v p t.beatLength.toStr (i32ToStr t.meter) t.sampleSet.shw t.sampleIndex.shw t ↔
    TimeReads v p t.time ∧ t.beatLength = Decimal.ofStr t.beatLength.toStr ∧ SampleSetNamed t.sampleSet ∧ IndexWritable t.sampleIndex := by
  rw [← index_survives, ← set_survives]
  exact ⟨fun ⟨a, b, _, c, d⟩ => ⟨a, b, c, d⟩, fun ⟨a, b, c, d⟩ => ⟨a, b, parseI32_i32ToStr _, c, d⟩⟩

/-- From version 4 on the fields mean the timing point exactly if it survives. -/
theorem tp_fields {v : Nat} (hv : 4 ≤ v) {t : TimingPoint D} {p : Str} (hp : t.time.toStrShifted v = some p)
    (hc : ',' ∉ p) (hb : ',' ∉ t.beatLength.toStr) : TPReads v (p :: TimingPoint.tailFields v t) t ↔ TPSurvives v t := by
  have ht := time_survives hp
  simp only [hc, not_false_iff, true_and] at ht
  have hbs : t.beatLength = Decimal.ofStr t.beatLength.toStr ↔ BeatSurvives v t.beatLength := by
    rw [← beat_survives (v := v)]; simp [hb]
  have g3 : v > 3 := by omega
  by_cases h4 : v = 4
  · have e : TimingPoint.tailFields v t = [t.beatLength.toStr, i32ToStr t.meter, t.sampleSet.shw, t.sampleIndex.shw] := by
      simp [TimingPoint.tailFields, h4]
    rw [e]
    constructor
    · intro h
      generalize hx : p :: _ = ps at h
      cases h with
      | old h => omega
      | four _ hh hvol hu he =>
        cases hx
        obtain ⟨a, b, c, d⟩ := tp_head.1 hh
        exact ⟨ht.1 a, hbs.1 b, fun _ => d, fun _ => c, fun h => by omega, fun h => by omega, fun h => by omega, fun _ => ⟨hvol, hu, he⟩⟩
      | six => cases hx
      | seven => cases hx
      | eight => cases hx
    · intro h
      obtain ⟨h1, h2, h3⟩ := h.upTo4 (by omega)
      exact .four h4 (tp_head.2 ⟨ht.2 h.time, hbs.2 h.beatLength, h.named hv, h.index hv⟩) h1 h2 h3
  · have g4 : v > 4 := by omega
    have hvol := TP.volume_round t.volume
    cases hu : t.uninherited with
    | none =>
      cases he : t.effects with
      | none =>
        have e : TimingPoint.tailFields v t = [t.beatLength.toStr, i32ToStr t.meter, t.sampleSet.shw, t.sampleIndex.shw, t.volume.shw] := by
          simp [TimingPoint.tailFields, hu, he, g3, g4]
        rw [e]
        constructor
        · intro h
          generalize hx : p :: _ = ps at h
          cases h with
          | old h => omega
          | four => cases hx
          | six _ hh _ _ _ =>
            cases hx
            obtain ⟨a, b, c, d⟩ := tp_head.1 hh
            exact ⟨ht.1 a, hbs.1 b, fun _ => d, fun _ => c, fun _ _ => he, fun _ _ => hu, fun h => by omega, fun h => by omega⟩
          | seven => cases hx
          | eight => cases hx
        · intro h
          exact .six hv (tp_head.2 ⟨ht.2 h.time, hbs.2 h.beatLength, h.named hv, h.index hv⟩) hvol hu he
      | some ef =>
        have e : TimingPoint.tailFields v t = [t.beatLength.toStr, i32ToStr t.meter, t.sampleSet.shw, t.sampleIndex.shw, t.volume.shw, [], ef.shw] := by
          simp [TimingPoint.tailFields, hu, he, g3, g4]
        rw [e]
        constructor
        · intro h
          generalize hx : p :: _ = ps at h
          cases h with
          | old h => omega
          | four => cases hx
          | six => cases hx
          | seven => cases hx
          | eight _ _ _ _ hux =>
            cases hx
            rw [hu] at hux; cases hux
        · intro h
          have := h.flags (by omega) hu
          rw [he] at this; cases this
    | some u =>
      cases he : t.effects with
      | none =>
        have e : TimingPoint.tailFields v t = [t.beatLength.toStr, i32ToStr t.meter, t.sampleSet.shw, t.sampleIndex.shw, t.volume.shw, boolToStr u] := by
          simp [TimingPoint.tailFields, hu, he, g3, g4]
        rw [e]
        constructor
        · intro h
          generalize hx : p :: _ = ps at h
          cases h with
          | old h => omega
          | four => cases hx
          | six => cases hx
          | seven h5 hh _ _ _ _ =>
            cases hx
            obtain ⟨a, b, c, d⟩ := tp_head.1 hh
            exact ⟨ht.1 a, hbs.1 b, fun _ => d, fun _ => c, fun _ h => (by rw [hu] at h; cases h), fun h => by omega, fun h => by omega, fun h => by omega⟩
          | eight => cases hx
        · intro h
          have h5 : v = 5 := by
            apply Classical.byContradiction
            intro h5
            have := h.effects (by omega) he
            rw [hu] at this; cases this
          exact .seven h5 (tp_head.2 ⟨ht.2 h.time, hbs.2 h.beatLength, h.named hv, h.index hv⟩) hvol (parseZeroOneBool_boolToStr u) hu he
      | some ef =>
        have e : TimingPoint.tailFields v t = [t.beatLength.toStr, i32ToStr t.meter, t.sampleSet.shw, t.sampleIndex.shw, t.volume.shw, boolToStr u, ef.shw] := by
          simp [TimingPoint.tailFields, hu, he, g3, g4]
        rw [e]
        constructor
        · intro h
          generalize hx : p :: _ = ps at h
          cases h with
          | old h => omega
          | four => cases hx
          | six => cases hx
          | seven => cases hx
          | eight _ hh _ _ _ _ _ =>
            cases hx
            obtain ⟨a, b, c, d⟩ := tp_head.1 hh
            exact ⟨ht.1 a, hbs.1 b, fun _ => d, fun _ => c, fun _ h => (by rw [hu] at h; cases h), fun _ h => (by rw [he] at h; cases h), fun h => by omega, fun h => by omega⟩
        · intro h
          exact .eight (by omega) (tp_head.2 ⟨ht.2 h.time, hbs.2 h.beatLength, h.named hv, h.index hv⟩) hvol
            (parseZeroOneBool_boolToStr u) hu (TP.effects_round ef) he

theorem tailFields_cons (v : Nat) (t : TimingPoint D) : ∃ qs, TimingPoint.tailFields v t = t.beatLength.toStr :: qs := by
  unfold TimingPoint.tailFields
  exact ⟨_, by rw [List.append_assoc]; rfl⟩

/-- A timing point is read back unchanged from the line written for it exactly if it survives. -/
theorem C15_exact {v : Nat} {t : TimingPoint D} :
    (∃ s, t.shw v = some s ∧ TimingPoint.parse v s = .ok t) ↔ TPSurvives v t := by
  have main : ∀ {p}, t.time.toStrShifted v = some p →
      (TPReads v (splitOnC ',' (join [','] (p :: TimingPoint.tailFields v t))) t ↔ TPSurvives v t) := by
    intro p hp
    obtain ⟨qs, hqs⟩ := tailFields_cons v t
    have ejoin : join [','] (p :: TimingPoint.tailFields v t) = p ++ ',' :: join [','] (TimingPoint.tailFields v t) := by
      rw [hqs, join_cons_cons]; simp
    have esplit : ',' ∉ p → splitOnC ',' (join [','] (p :: TimingPoint.tailFields v t)) =
        p :: splitOnC ',' (join [','] (TimingPoint.tailFields v t)) := fun hc => by
      rw [ejoin, splitOnC_append (noComma_iff.2 hc)]
    have hcomma : TPReads v (splitOnC ',' (join [','] (p :: TimingPoint.tailFields v t))) t → ',' ∉ p := by
      intro h
      obtain ⟨p', q, qs', e, h1, -⟩ := tp_reads_head h
      exact time_head hp (noComma_iff.1 (splitOnC_chars ',' _ p' (by rw [e]; simp))) h1
    by_cases h3 : v ≤ 3
    · have et : TimingPoint.tailFields v t = [t.beatLength.toStr] := by
        simp [TimingPoint.tailFields, show ¬ v > 3 by omega, show ¬ v > 4 by omega]
      have hj : join [','] (TimingPoint.tailFields v t) = t.beatLength.toStr := by rw [et]; rfl
      constructor
      · intro h
        have hc := hcomma h
        rw [esplit hc, hj] at h
        generalize hps : splitOnC ',' t.beatLength.toStr = ps at h
        have hjn : join [','] ps = t.beatLength.toStr := by rw [← hps, join_splitOnC]
        generalize hbl : t.beatLength.toStr = bs at hjn
        cases h with
        | old hv ht =>
          refine ⟨(time_survives hp).1 ⟨hc, ht⟩, beat_survives.1 ⟨fun h => by omega, ?_⟩, fun h => by omega, fun h => by omega,
            fun h => by omega, fun h => by omega, fun _ => ⟨rfl, rfl, rfl⟩, fun _ => ⟨rfl, rfl, rfl⟩⟩
          rw [hjn] at hbl ⊢
          rw [hbl]
        | four h => omega
        | six h => omega
        | seven h => omega
        | eight h => omega
      · intro h
        obtain ⟨hc, ht⟩ := (time_survives hp).2 h.time
        obtain ⟨-, hb⟩ := beat_survives.2 h.beatLength
        rw [esplit hc, hj]
        obtain ⟨q, qs', e⟩ : ∃ q qs', splitOnC ',' t.beatLength.toStr = q :: qs' := by
          cases e : splitOnC ',' t.beatLength.toStr with
          | nil => exact absurd e (splitOnC_ne_nil _ _)
          | cons q qs' => exact ⟨_, _, rfl⟩
        have := TPReads.old (q := q) (qs := qs') h3 ht
        rw [← e, join_splitOnC, ← hb] at this
        obtain ⟨m1, m2, m3⟩ := h.upTo3 h3
        obtain ⟨m4, m5, m6⟩ := h.upTo4 (by omega)
        rw [← m1, ← m2, ← m3, ← m4] at this
        have e' : (⟨t.time, t.beatLength, t.meter, t.sampleSet, t.sampleIndex, t.volume, none, none⟩ : TimingPoint D) = t := by
          obtain ⟨a, b, c, d, e, f, g, h⟩ := t; cases m5; cases m6; rfl
        rwa [e'] at this
    · have hv : 4 ≤ v := by omega
      have all : ',' ∉ p → ',' ∉ t.beatLength.toStr →
          splitOnC ',' (join [','] (p :: TimingPoint.tailFields v t)) = p :: TimingPoint.tailFields v t := by
        intro h1 h2
        refine splitOnC_join (by simp) fun q hq => ?_
        rcases List.mem_cons.1 hq with rfl | hq
        · exact noComma_iff.2 h1
        · exact tail_noComma h2 q hq
      constructor
      · intro h
        have hc := hcomma h
        have hb : ',' ∉ t.beatLength.toStr := by
          have h' := h
          rw [esplit hc] at h'
          obtain ⟨p', q, qs', e, -, h1⟩ := tp_reads_head h'
          refine beat_head (noComma_iff.1 (splitOnC_chars ',' (join [','] (TimingPoint.tailFields v t)) q ?_)) (h1 hv)
          rw [(List.cons.inj e).2]; simp
        rw [all hc hb] at h
        exact (tp_fields hv hp hc hb).1 h
      · intro h
        have hc := ((time_survives hp).2 h.time).1
        have hb := (beat_survives.2 h.beatLength).1 hv
        rw [all hc hb]
        exact (tp_fields hv hp hc hb).2 h
  constructor
  · rintro ⟨s, h1, h2⟩
    obtain ⟨p, hp, rfl⟩ := Option.map_eq_some_iff.1 h1
    exact (main hp).1 (TimingPoint.parse_iff.1 h2)
  · intro h
    obtain ⟨p, hp⟩ := h.time.written
    exact ⟨_, by unfold TimingPoint.shw; rw [hp]; rfl, TimingPoint.parse_iff.2 ((main hp).2 h)⟩

/-! ### The section -/

theorem dec_char {c : Char} (hc : isDecChar c = false) (d : D) : c ∉ DecLib.shw d := fun h => by
  have := DecLib.shw_chars d _ h
  rw [hc] at this; cases this

theorem shifted_char {v : Nat} {x : Decimal D} {p : Str} (hp : x.toStrShifted v = some p) {c : Char} (hc : isDecChar c = false) :
    c ∈ p ↔ c ∈ x.text := by
  cases x with
  | right s =>
    obtain rfl : s = p := Option.some.inj hp
    rfl
  | left d =>
    unfold Decimal.toStrShifted at hp
    simp only at hp
    split at hp
    · obtain ⟨d', -, rfl⟩ := Option.map_eq_some_iff.1 hp
      simp [dec_char hc, Decimal.text]
    · cases hp
      simp [dec_char hc, Decimal.text]

theorem toStr_char {x : Decimal D} {c : Char} (hc : isDecChar c = false) : c ∈ x.toStr ↔ c ∈ x.text := by
  cases x with
  | right s => rfl
  | left d => simp [dec_char hc, Decimal.text, Decimal.toStr]

theorem time_text_mem {v : Nat} {q : Str} {x : Decimal D} (h : TimeReads v q x) {c : Char} (hc : c ∈ x.text) : c ∈ q := by
  unfold TimeReads at h
  cases h' : (DecLib.parse q : Option D) with
  | none =>
    rw [h'] at h
    cases h; exact hc
  | some d =>
    rw [h'] at h
    simp only at h
    split at h
    · obtain ⟨_, _, h⟩ := h; cases h; cases hc
    · cases h; cases hc

theorem ofStr_text {q : Str} {c : Char} (hc : c ∈ (Decimal.ofStr q : Decimal D).text) : c ∈ q := by
  unfold Decimal.ofStr at hc
  split at hc
  · cases hc
  · exact hc

theorem mem_join_piece {sep : Str} {ls : List Str} {l : Str} {c : Char} (h : l ∈ ls) (hc : c ∈ l) : c ∈ join sep ls := by
  induction ls with
  | nil => cases h
  | cons x r ih =>
    cases r with
    | nil => cases List.mem_singleton.1 h; exact hc
    | cons y r =>
      rw [join_cons_cons]
      rcases List.mem_cons.1 h with rfl | h
      · simp [hc]
      · simp [ih h]

/-- The texts of a timing point come from its line. -/
theorem tp_texts {v : Nat} {x : Str} {t : TimingPoint D} (h : TimingPoint.parse v x = .ok t) {c : Char}
    (hc : c ∈ t.time.text ∨ c ∈ t.beatLength.text) : c ∈ x := by
  have h := TimingPoint.parse_iff.1 h
  have hin : ∀ q ∈ splitOnC ',' x, ∀ c ∈ q, c ∈ x := fun q hq c hc => by
    rw [← join_splitOnC ',' x]
    exact mem_join_piece hq hc
  obtain ⟨p, q, qs, e, h1, h2⟩ := tp_reads_head h
  rcases hc with hc | hc
  · exact hin p (by rw [e]; simp) c (time_text_mem h1 hc)
  · by_cases h4 : 4 ≤ v
    · rw [h2 h4] at hc
      exact hin q (by rw [e]; simp) c (ofStr_text hc)
    · rw [e] at h
      generalize hps : p :: q :: qs = ps at h
      cases h with
      | old hv ht =>
        cases hps
        have := ofStr_text hc
        rw [← join_splitOnC ',' x, e, join_cons_cons]
        simp [this]
      | four h => omega
      | six h => omega
      | seven h => omega
      | eight h => omega

theorem mem_join_comma {c : Char} (hc : c ≠ ',') {ls : List Str} : c ∈ join [','] ls ↔ ∃ q ∈ ls, c ∈ q := by
  induction ls with
  | nil => simp [join]
  | cons x r ih =>
    cases r with
    | nil => simp [join]
    | cons y r =>
      rw [join_cons_cons, List.append_assoc, List.singleton_append, List.mem_append, List.mem_cons, ih]
      simp [hc]

/-- What other characters are in the line of a timing point. -/
theorem tp_line_char {v : Nat} {t : TimingPoint D} {s : Str} (hs : t.shw v = some s) {c : Char} (hc : isDecChar c = false)
    (hc' : isNumChar c = false) (hcm : c ≠ ',') : c ∈ s ↔ c ∈ t.time.text ∨ c ∈ t.beatLength.text := by
  obtain ⟨p, hp, rfl⟩ := Option.map_eq_some_iff.1 hs
  rw [mem_join_comma hcm]
  have n1 : ∀ n, c ∉ i32ToStr n := fun n h => by
    have := (parseI32_chars (parseI32_i32ToStr n)).2 c h
    rw [hc'] at this; cases this
  have n2 : ∀ b, c ∉ boolToStr b := fun b h => by
    cases b <;> (cases List.mem_singleton.1 h; revert hc'; decide)
  have n3 : ∀ e : TP.Effects, c ∉ e.shw := fun e h => by
    have := (TP.Effects.parse_chars (TP.effects_round e)) c h
    rw [hc'] at this; cases this
  constructor
  · rintro ⟨q, hq, hcq⟩
    rcases List.mem_cons.1 hq with rfl | hq
    · exact .inl ((shifted_char hp hc).1 hcq)
    · right
      unfold TimingPoint.tailFields at hq
      rw [List.mem_append, List.mem_append] at hq
      rcases hq with (hq | hq) | hq
      · cases List.mem_singleton.1 hq
        exact (toStr_char hc).1 hcq
      · split at hq
        · simp only [List.mem_cons, List.not_mem_nil, or_false] at hq
          rcases hq with rfl | rfl | rfl <;> exact absurd hcq (n1 _)
        · cases hq
      · split at hq
        · rw [List.mem_append, List.mem_append] at hq
          rcases hq with (hq | hq) | hq
          · cases List.mem_singleton.1 hq
            exact absurd hcq (n1 _)
          · split at hq
            · cases List.mem_singleton.1 hq
              exact absurd hcq (n2 _)
            · split at hq
              · cases List.mem_singleton.1 hq
                cases hcq
              · cases hq
          · split at hq
            · cases List.mem_singleton.1 hq
              exact absurd hcq (n3 _)
            · cases hq
        · cases hq
  · rintro (h | h)
    · exact ⟨p, by simp, (shifted_char hp hc).2 h⟩
    · obtain ⟨qs, hqs⟩ := tailFields_cons v t
      exact ⟨t.beatLength.toStr, by rw [hqs]; simp, (toStr_char hc).2 h⟩

theorem tp_line_comma {v : Nat} {t : TimingPoint D} {s : Str} (hs : t.shw v = some s) : ',' ∈ s := by
  obtain ⟨p, hp, rfl⟩ := Option.map_eq_some_iff.1 hs
  obtain ⟨qs, hqs⟩ := tailFields_cons v t
  rw [hqs, join_cons_cons]; simp

theorem getLast?_join_comma {ls : List Str} {l : Str} (h : ls.getLast? = some l) (hl : l ≠ []) : (join [','] ls).getLast? = l.getLast? := by
  induction ls with
  | nil => cases h
  | cons x r ih =>
    cases r with
    | nil => cases h; rfl
    | cons y r =>
      rw [join_cons_cons, List.getLast?_append, ih (by simpa using h), List.getLast?_eq_some_getLast hl]; rfl

theorem getLast?_app_cons (p : Str) (c : Char) {b : Str} (hb : b ≠ []) : (p ++ c :: b).getLast? = b.getLast? := by
  rw [List.getLast?_append]
  cases b with
  | nil => exact absurd rfl hb
  | cons d b => rw [List.getLast?_cons_cons, List.getLast?_eq_some_getLast (List.cons_ne_nil d b)]; rfl

/-- A carriage return at the end of the line can only come from the beat length, up to version 3. -/
theorem tp_line_cr {v : Nat} {t : TimingPoint D} {s : Str} (hs : t.shw v = some s) :
    s.getLast? = some '\r' ↔ v ≤ 3 ∧ t.beatLength.text.getLast? = some '\r' := by
  obtain ⟨p, hp, rfl⟩ := Option.map_eq_some_iff.1 hs
  have n1 : ∀ {q : Str}, AllC isNumChar q → q.getLast? ≠ some '\r' := fun hq h => by
    have := hq _ (List.mem_of_getLast? h)
    revert this; decide
  by_cases h3 : v ≤ 3
  · have et : TimingPoint.tailFields v t = [t.beatLength.toStr] := by
      simp [TimingPoint.tailFields, show ¬ v > 3 by omega, show ¬ v > 4 by omega]
    rw [et, join_cons_cons]
    simp only [h3, true_and, List.append_assoc, List.singleton_append, join]
    cases hb : t.beatLength with
    | left d =>
      simp only [Decimal.toStr, Decimal.text, List.getLast?_nil, reduceCtorEq, iff_false]
      intro h
      by_cases hd : DecLib.shw d = []
      · rw [hd] at h; simp at h
      · rw [getLast?_app_cons _ _ hd] at h
        exact dec_char (by decide) d (List.mem_of_getLast? h)
    | right b =>
      simp only [Decimal.toStr, Decimal.text]
      by_cases hd : b = []
      · subst hd; simp
      · rw [getLast?_app_cons _ _ hd]
  · simp only [h3, false_and, iff_false]
    have hl : ∃ q, (p :: TimingPoint.tailFields v t).getLast? = some q ∧ AllC isNumChar q ∧ q ≠ [] := by
      have i1 : ∀ n, AllC isNumChar (i32ToStr n) ∧ i32ToStr n ≠ [] := fun n =>
        ⟨(parseI32_chars (parseI32_i32ToStr n)).2, fun h => by
          have := parseI32_i32ToStr n
          rw [h] at this; revert this; intro h; cases h⟩
      have i2 : ∀ e : TP.Effects, AllC isNumChar e.shw ∧ e.shw ≠ [] := fun e =>
        ⟨TP.Effects.parse_chars (TP.effects_round e), fun h => by
          have := TP.effects_round e
          rw [h] at this; cases this⟩
      by_cases h4 : v = 4
      · refine ⟨t.sampleIndex.shw, ?_, i1 _⟩
        simp [TimingPoint.tailFields, h4]
      · have g3 : v > 3 := by omega
        have g4 : v > 4 := by omega
        cases he : t.effects with
        | some e =>
          refine ⟨e.shw, ?_, i2 _⟩
          cases hu : t.uninherited <;> simp [TimingPoint.tailFields, hu, he, g3, g4]
        | none =>
          cases hu : t.uninherited with
          | none =>
            refine ⟨t.volume.shw, ?_, i1 _⟩
            simp [TimingPoint.tailFields, hu, he, g3, g4]
          | some u =>
            refine ⟨boolToStr u, ?_, by cases u <;> decide, by cases u <;> decide⟩
            simp [TimingPoint.tailFields, hu, he, g3, g4]
    obtain ⟨q, h1, h2, h4⟩ := hl
    rw [getLast?_join_comma h1 h4]
    exact n1 h2

/-- A list of timing points is read back unchanged from the section written for it exactly if every point survives, no
text has a line feed and, up to version 3, no beat length but that of the last point ends in a carriage return. -/
theorem C16_exact {v : Nat} {l : List (TimingPoint D)} :
    (∃ s, TimingPoints.shw v l = some s ∧ TimingPoints.parse v s = .ok l) ↔
      (∀ t ∈ l, TPSurvives v t ∧ '\n' ∉ t.time.text ∧ '\n' ∉ t.beatLength.text) ∧
      (v ≤ 3 → ∀ t ∈ l.dropLast, t.beatLength.text.getLast? ≠ some '\r') := by
  have nolf : ∀ {s : Str}, NoLF s ↔ '\n' ∉ s := by
    intro s
    constructor
    · intro h hc
      have := h _ hc
      simp at this
    · intro h c hc
      simp only [Bool.not_eq_true', beq_eq_false_iff_ne]
      rintro rfl
      exact h hc
  have hlf : ∀ {t : TimingPoint D} {s}, t.shw v = some s → (NoLF s ↔ '\n' ∉ t.time.text ∧ '\n' ∉ t.beatLength.text) := by
    intro t s hs
    rw [nolf, tp_line_char hs (by decide) (by decide) (by decide), not_or]
  unfold TimingPoints.shw TimingPoints.parse
  rw [section_exact (f := TimingPoint.parse v) (shw := TimingPoint.shw v)]
  · constructor
    · rintro ⟨h1, h2⟩
      refine ⟨fun t ht => ?_, fun h3 t ht hcr => ?_⟩
      · obtain ⟨s, a, b, c⟩ := h1 t ht
        exact ⟨C15_exact.1 ⟨s, a, c⟩, (hlf a).1 b⟩
      · obtain ⟨s, a, -, -⟩ := h1 t (List.dropLast_subset _ ht)
        exact h2 t ht s a ((tp_line_cr a).2 ⟨h3, hcr⟩)
    · rintro ⟨h1, h2⟩
      refine ⟨fun t ht => ?_, fun t ht s hs hcr => ?_⟩
      · obtain ⟨a, b⟩ := h1 t ht
        obtain ⟨s, h3, h4⟩ := C15_exact.2 a
        exact ⟨s, h3, (hlf h3).2 b, h4⟩
      · obtain ⟨h3, h4⟩ := (tp_line_cr hs).1 hcr
        exact h2 h3 t ht h4
  · intro x t s hx hf hs
    rw [hlf hs]
    rw [nolf] at hx
    exact ⟨fun h => hx (tp_texts hf (.inl h)), fun h => hx (tp_texts hf (.inr h))⟩
  · exact fun hs => tp_line_comma hs
  · intro t s hs hf hcr
    obtain ⟨h3, hb⟩ := (tp_line_cr hs).1 hcr
    obtain ⟨p, hp, rfl⟩ := Option.map_eq_some_iff.1 hs
    have et : TimingPoint.tailFields v t = [t.beatLength.toStr] := by
      simp [TimingPoint.tailFields, show ¬ v > 3 by omega, show ¬ v > 4 by omega]
    have hbl : ∃ b, t.beatLength = .right b ∧ b ≠ [] := by
      cases h : t.beatLength with
      | left d => rw [h] at hb; simp [Decimal.text] at hb
      | right b => exact ⟨b, rfl, by rintro rfl; rw [h] at hb; simp [Decimal.text] at hb⟩
    obtain ⟨b, hbl, hne⟩ := hbl
    have e : stripCR (join [','] (p :: TimingPoint.tailFields v t)) = p ++ ',' :: b.dropLast := by
      unfold stripCR
      rw [if_pos hcr, et, hbl, join_cons_cons]
      simp only [Decimal.toStr, List.append_assoc, List.singleton_append, join]
      rw [List.dropLast_append_of_ne_nil (by simp)]
      cases b with
      | nil => exact absurd rfl hne
      | cons d b => rfl
    rw [e] at hf
    have hr := TimingPoint.parse_iff.1 hf
    obtain ⟨p', q, qs, e1, h1, -⟩ := tp_reads_head hr
    have hc : ',' ∉ p := time_head hp (noComma_iff.1 (splitOnC_chars ',' _ p' (by rw [e1]; simp))) h1
    rw [splitOnC_append (noComma_iff.2 hc)] at hr
    have hj := join_splitOnC ',' b.dropLast
    generalize splitOnC ',' b.dropLast = ps at hr hj
    cases hr with
    | old hv ht =>
      rw [hj] at hbl
      simp only [Decimal.ofStr] at hbl
      split at hbl
      · cases hbl
      · have := congrArg List.length (Decimal.right.inj hbl)
        rw [List.length_dropLast] at this
        have := List.length_pos_iff.2 hne
        omega
    | four h => omega
    | six h => omega
    | seven h => omega
    | eight h => omega

/-! ### Examples -/

def tpCommas : TimingPoint Dec96 := ⟨.right c!"a", .right c!"b,c", 4, .normal, .index 1, ⟨100⟩, none, none⟩
def tpReturn : TimingPoint Dec96 := ⟨.left ⟨false, 100, 0⟩, .right c!"x\r", 4, .normal, .index 1, ⟨100⟩, none, none⟩

/-- Up to version 3 the beat length may have commas, and that of the last point may end in a carriage return. -/
example : ∃ s, TimingPoints.shw 3 [tpCommas, tpReturn] = some s ∧
    TimingPoints.parse 3 s = .ok [tpCommas, tpReturn] := by
  refine C16_exact.2 ⟨fun t ht => ?_, fun _ t ht => ?_⟩
  · simp only [List.mem_cons, List.not_mem_nil, or_false] at ht
    rcases ht with rfl | rfl
    · refine ⟨⟨⟨by decide, by decide⟩, ⟨by decide, fun h => absurd h (by decide)⟩, fun h => absurd h (by decide), fun h => absurd h (by decide),
        fun h => absurd h (by decide), fun h => absurd h (by decide), fun _ => ⟨rfl, rfl, rfl⟩, fun _ => ⟨rfl, rfl, rfl⟩⟩, by decide, by decide⟩
    · refine ⟨⟨?_, ⟨by decide, fun h => absurd h (by decide)⟩, fun h => absurd h (by decide), fun h => absurd h (by decide),
        fun h => absurd h (by decide), fun h => absurd h (by decide), fun _ => ⟨rfl, rfl, rfl⟩, fun _ => ⟨rfl, rfl, rfl⟩⟩, by decide, by decide⟩
      simp only [TimeSurvives, tpReturn]
      rw [if_pos (by decide)]
      exact ⟨⟨false, 76, 0⟩, ⟨false, 76, 0⟩, by decide, by decide, by decide⟩
  · simp only [List.dropLast_cons₂, List.dropLast_singleton, List.mem_singleton] at ht
    subst ht; decide

/-- The same in the other order: the carriage return is lost. -/
example : ¬∃ s, TimingPoints.shw 3 [tpReturn, tpCommas] = some s ∧
    TimingPoints.parse 3 s = .ok [tpReturn, tpCommas] := by
  intro h
  exact (C16_exact.1 h).2 (by decide) tpReturn (by simp) (by decide)

/-- A flag without effects, and effects without the flag, from version 6 on. -/
example {v : Nat} (hv : 6 ≤ v) {t : TimingPoint Dec96} (h : t.uninherited.isSome ≠ t.effects.isSome) :
    ¬∃ s, t.shw v = some s ∧ TimingPoint.parse v s = .ok t := by
  intro hs
  have hs := C15_exact.1 hs
  cases hu : t.uninherited <;> cases he : t.effects
  · simp [hu, he] at h
  · have := hs.flags (by omega) hu; rw [he] at this; cases this
  · have := hs.effects hv he; rw [hu] at this; cases this
  · simp [hu, he] at h

end Osu
