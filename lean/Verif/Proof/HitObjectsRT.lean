/-
Hit objects: what is printed is read back.
-/
import Verif.Proof.HitObjects

namespace Osu
open Parser

theorem line_split0 {p : Str} {ps : List Str} (hp : NoC ',' p) (hps : ∀ q ∈ ps, NoC ',' q) :
    splitOnC ',' (p ++ preC ',' ps) = p :: ps := splitOnC_iff.2 ⟨rfl, hp, hps⟩

theorem preC_append (c : Char) (a b : List Str) : preC c (a ++ b) = preC c a ++ preC c b := by simp [preC]

theorem line_split {p : Str} {ps : List Str} (t : Str) (hp : NoC ',' p) (hps : ∀ q ∈ ps, NoC ',' q) :
    splitOnC ',' (p ++ preC ',' ps ++ ',' :: t) = p :: ps ++ splitOnC ',' t := by
  cases hs : splitOnC ',' t with
  | nil => exact absurd hs (splitOnC_ne_nil _ _)
  | cons q qs =>
    obtain ⟨rfl, hq, hqs⟩ := splitOnC_iff.1 hs
    rw [List.cons_append, splitOnC_iff]
    refine ⟨by rw [preC_append, preC_cons]; simp, hp, ?_⟩
    intro x hx
    simp at hx
    rcases hx with hx | rfl | hx
    · exact hps x hx
    · exact hq
    · exact hqs x hx

theorem lineOK_of {s : Str} (h : AllC lastChar s) (hc : ',' ∈ s) : LineOK s := by
  refine ⟨h.noLF (by decide), h.noEndCR (by decide), ?_⟩
  rw [nonBlank_iff, Ne, trim_eq_nil]
  intro hw
  exact absurd (hw ',' hc) (by decide)

theorem preC_last {ps : List Str} (h : ∀ x ∈ ps, AllC lastChar x) : AllC lastChar (preC ',' ps) := by
  induction ps with
  | nil => exact .nil
  | cons x l ih =>
    rw [preC_cons]
    exact .cons (by decide) ((h x (by simp)).append (ih fun y hy => h y (by simp [hy])))

theorem field_last {s : Str} (h : AllC fieldChar s) : AllC lastChar s := h.mono fun _ hc => lastChar_of_field hc

/-! ### Hit samples -/

namespace HO

theorem num_hold {s : Str} (h : AllC isNumChar s) : AllC holdChar s :=
  h.mono fun c hc => by
    have h1 : c ≠ ':' := by rintro rfl; exact absurd hc (by decide)
    have h2 : c ≠ '\n' := by rintro rfl; exact absurd hc (by decide)
    have h3 : c ≠ '\r' := by rintro rfl; exact absurd hc (by decide)
    simp [holdChar, h1, h2, h3]

theorem hold_last {s : Str} (h : AllC holdChar s) : AllC lastChar s :=
  h.mono fun c hc => by simp [holdChar] at hc; simp [lastChar, hc]

theorem hold_noColon {s : Str} (h : AllC holdChar s) : NoC ':' s :=
  h.mono fun c hc => by simp [holdChar] at hc; simp [hc]

theorem notBlank_num {s : Str} {n} (h : parseUsize s = .ok n) : blanks s = false := by
  obtain ⟨h1, h2⟩ := parseUsize_chars h
  rw [Bool.eq_false_iff]
  intro hb
  rw [blanks_iff] at hb
  cases s with
  | nil => exact h1 rfl
  | cons c s =>
    have : c = ' ' ∨ c = '\t' := by simpa [isSpace] using hb.of_cons.1
    rcases this with rfl | rfl <;> exact absurd h2.of_cons.1 (by decide)

/-- Printing a hit sample gives text that means what `sampleBack` says. -/
theorem HitSample.print {v : Nat} {h : HitSample} (hw : SampleWritable v h) (hv : ¬ NoSample v) :
    ∃ t h', h.shw v = some t ∧ sampleBack v h = some h' ∧ SampleReads (splitOnC ':' t) h' ∧ AllC lastChar t := by
  have ha := SampleSet.round hw.normalSet
  have hb := SampleSet.round hw.additionSet
  have hi := SampleIndex.round hw.index
  have ca := num_hold (SampleSet.parse_chars ha)
  have cb := num_hold (SampleSet.parse_chars hb)
  have ci := num_hold (SampleIndex.parse_chars hi)
  have hib : blanks h.index.shw = false := by
    obtain ⟨n, hn, _⟩ := Res.bind_eq_ok.1 hi
    exact notBlank_num hn
  have hv' : ¬ (3 ≤ v ∧ v ≤ 9) := hv
  have hjoin : ∀ qs : List Str, (∀ q ∈ qs, AllC holdChar q) → qs ≠ [] →
      splitOnC ':' (join [':'] qs) = qs ∧ AllC lastChar (join [':'] qs) := by
    intro qs h hne
    refine ⟨splitOnC_join hne fun q hq => hold_noColon (h q hq), ?_⟩
    cases qs with
    | nil => exact absurd rfl hne
    | cons q qs =>
      rw [join_eq_preC]
      refine (hold_last (h q (by simp))).append ?_
      have : ∀ qs : List Str, (∀ q ∈ qs, AllC holdChar q) → AllC lastChar (preC ':' qs) := by
        intro qs h
        induction qs with
        | nil => exact .nil
        | cons q qs ih =>
          rw [preC_cons]
          exact .cons (by decide) ((hold_last (h q (by simp))).append (ih fun x hx => h x (by simp [hx])))
      exact this qs fun x hx => h x (by simp [hx])
  unfold HitSample.shw sampleBack
  rw [if_neg hv', if_neg hv]
  by_cases hs : ShortSample v
  · have hs' : 10 ≤ v ∧ v ≤ 11 := hs
    rw [if_pos hs', if_pos hs]
    obtain ⟨h1, h2⟩ := hjoin [h.normalSet.shw, h.additionSet.shw, h.index.shw] (by
      intro q hq; simp at hq; rcases hq with rfl | rfl | rfl <;> assumption) (by simp)
    have e : h.normalSet.shw ++ [':'] ++ h.additionSet.shw ++ [':'] ++ h.index.shw =
        join [':'] [h.normalSet.shw, h.additionSet.shw, h.index.shw] := by simp [join]
    refine ⟨_, _, rfl, rfl, ?_, by rw [e]; exact h2⟩
    rw [e, h1]
    have hd : dropBlankLast [h.normalSet.shw, h.additionSet.shw, h.index.shw] =
        [h.normalSet.shw, h.additionSet.shw, h.index.shw] := by simp [dropBlankLast, hib]
    refine ⟨?_, ?_, ?_, ?_, ?_⟩ <;> rw [hd]
    · exact ha
    · exact hb
    · exact hi
    · rfl
    · rfl
  · have hs' : ¬ (10 ≤ v ∧ v ≤ 11) := hs
    rw [if_neg hs', if_neg hs]
    have hvol := Volume.round (hw.volume hs)
    obtain ⟨hf1, hf2⟩ := hw.filename hs
    have cv := num_hold (Volume.parse_chars hvol)
    obtain ⟨h1, h2⟩ := hjoin [h.normalSet.shw, h.additionSet.shw, h.index.shw, h.volume.shw, h.filename] (by
      intro q hq; simp at hq; rcases hq with rfl | rfl | rfl | rfl | rfl <;> assumption) (by simp)
    have e : h.normalSet.shw ++ [':'] ++ h.additionSet.shw ++ [':'] ++ h.index.shw ++ [':'] ++ h.volume.shw ++ [':'] ++ h.filename =
        join [':'] [h.normalSet.shw, h.additionSet.shw, h.index.shw, h.volume.shw, h.filename] := by simp [join]
    refine ⟨_, _, rfl, rfl, ?_, by rw [e]; exact h2⟩
    rw [e, h1]
    rcases hf2 with hf2 | hf2
    · have hd : dropBlankLast [h.normalSet.shw, h.additionSet.shw, h.index.shw, h.volume.shw, h.filename] =
        [h.normalSet.shw, h.additionSet.shw, h.index.shw, h.volume.shw] := by simp [dropBlankLast, hf2, blanks]
      refine ⟨?_, ?_, ?_, ?_, ?_⟩ <;> rw [hd]
      · exact ha
      · exact hb
      · exact hi
      · exact hvol
      · exact hf2
    · have hd : dropBlankLast [h.normalSet.shw, h.additionSet.shw, h.index.shw, h.volume.shw, h.filename] =
        [h.normalSet.shw, h.additionSet.shw, h.index.shw, h.volume.shw, h.filename] := by simp [dropBlankLast, hf2]
      refine ⟨?_, ?_, ?_, ?_, ?_⟩ <;> rw [hd]
      · exact ha
      · exact hb
      · exact hi
      · exact hvol
      · rfl

theorem HitSample.print_none {v : Nat} {h : HitSample} (hv : NoSample v) : h.shw v = none ∧ sampleBack v h = none := by
  have hv' : 3 ≤ v ∧ v ≤ 9 := hv
  unfold HitSample.shw sampleBack
  rw [if_pos hv', if_pos hv]; exact ⟨rfl, rfl⟩

theorem sampleReads_nil : SampleReads (splitOnC ':' []) HitSample.default := by
  refine ⟨?_, ?_, ?_, ?_, ?_⟩ <;> rfl

end HO

theorem sampleTail_split {t : Str} {h : HO.HitSample} (hr : SampleReads (splitOnC ':' t) h) :
    SampleTail (splitOnC ',' t) (some h) := by
  cases hs : splitOnC ',' t with
  | nil => exact absurd hs (splitOnC_ne_nil _ _)
  | cons q qs =>
    have := join_splitOnC ',' t
    rw [hs] at this
    exact ⟨h, by rw [this]; exact hr, rfl⟩

/-! ### Lists -/

theorem pipeReads_print {ε α : Type} {f : Str → Res ε α} {shw : α → Str} {l : List α}
    (h : ∀ a ∈ l, f (shw a) = .ok a ∧ AllC pipeC (shw a)) :
    PipeReads f (HitObject.pipeStr shw l) l ∧ AllC fieldChar (HitObject.pipeStr shw l) := by
  unfold HitObject.pipeStr
  cases l with
  | nil => exact ⟨.inl ⟨rfl, rfl⟩, .nil⟩
  | cons a l =>
    have hc : ∀ q ∈ (a :: l).map shw, AllC pipeC q := by
      intro q hq
      obtain ⟨b, hb, rfl⟩ := List.mem_map.1 hq
      exact (h b hb).2
    have hall : AllC fieldChar (join ['|'] ((a :: l).map shw)) := by
      have p2f : ∀ s, AllC pipeC s → AllC fieldChar s := fun s hs => hs.mono fun c hc => by
        simp [pipeC] at hc; simp [fieldChar, hc]
      rw [List.map_cons, join_eq_preC]
      refine (p2f _ (hc _ (by simp))).append ?_
      have : ∀ qs : List Str, (∀ q ∈ qs, AllC pipeC q) → AllC fieldChar (preC '|' qs) := by
        intro qs h
        induction qs with
        | nil => exact .nil
        | cons q qs ih =>
          rw [preC_cons]
          exact .cons (by decide) ((p2f _ (h q (by simp))).append (ih fun x hx => h x (by simp [hx])))
      exact this _ fun x hx => hc x (by simp at hx ⊢; exact .inr hx)
    refine ⟨.inr ⟨?_, ?_, ?_⟩, hall⟩
    · rw [lacks_iff]; exact hall.mono fun c hc => by simp [fieldChar] at hc; simp [hc]
    · rw [lacks_iff]; exact hall.mono fun c hc => by simp [fieldChar] at hc; simp [hc]
    · rw [splitOnC_join (by simp) fun q hq => pipeC_noBar (hc q hq)]
      rw [List.map_map]
      apply List.map_congr_left
      intro b hb
      exact (h b hb).1

theorem num_pipe {s : Str} (h : AllC isNumChar s) : AllC pipeC s :=
  h.mono fun c hc => by
    have h1 : c ≠ ',' := by rintro rfl; exact absurd hc (by decide)
    have h2 : c ≠ '\n' := by rintro rfl; exact absurd hc (by decide)
    have h3 : c ≠ '\r' := by rintro rfl; exact absurd hc (by decide)
    have h4 : c ≠ '|' := by rintro rfl; exact absurd hc (by decide)
    simp [pipeC, h1, h2, h3, h4]

theorem edgeSounds_print (l : List HO.HitSound) :
    PipeReads HO.HitSound.parse (HitObject.pipeStr HO.HitSound.shw l) l ∧ AllC fieldChar (HitObject.pipeStr HO.HitSound.shw l) :=
  pipeReads_print fun a _ => ⟨HO.HitSound.round a, num_pipe (HO.HitSound.parse_chars (HO.HitSound.round a))⟩

theorem edgeSets_print {l : List HO.EdgeSet} (h : ∀ e ∈ l, HOSetNamed e.normalSet ∧ HOSetNamed e.additionSet) :
    PipeReads HO.EdgeSet.parse (HitObject.pipeStr HO.EdgeSet.shw l) l ∧ AllC fieldChar (HitObject.pipeStr HO.EdgeSet.shw l) :=
  pipeReads_print fun a ha => ⟨HO.EdgeSet.round (h a ha).1 (h a ha).2, by
    unfold HO.EdgeSet.shw
    have h1 := num_pipe (HO.SampleSet.parse_chars (HO.SampleSet.round (h a ha).1))
    have h2 := num_pipe (HO.SampleSet.parse_chars (HO.SampleSet.round (h a ha).2))
    exact (h1.append (.cons (by decide) .nil)).append h2⟩

section
variable {D : Type} [DecLib D]

theorem point_dec {c : Char} (h : isDecChar c = true) : pointX c = true ∧ pointY c = true := by
  have h1 := isDecChar_ne h (d := ',') (by decide)
  have h2 := isDecChar_ne h (d := '\n') (by decide)
  have h3 := isDecChar_ne h (d := '\r') (by decide)
  have h4 := isDecChar_ne h (d := '|') (by decide)
  have h5 := isDecChar_ne h (d := ':') (by decide)
  simp [pointX, pointY, h1, h2, h3, h4, h5]

theorem pointX_Y {s : Str} (h : AllC pointX s) : AllC pointY s :=
  h.mono fun c hc => by simp [pointX] at hc; simp [pointY, hc]

theorem pointY_pipe {s : Str} (h : AllC pointY s) : AllC pipeC s :=
  h.mono fun c hc => by simp [pointY] at hc; simp [pipeC, hc]

theorem curvePoint_print {c : HO.CurvePoint D} (h1 : DecWritable pointX c.pos.x) (h2 : DecWritable pointY c.pos.y) :
    HO.CurvePoint.parse c.shw = .ok c ∧ AllC pipeC c.shw := by
  have c1 := h1.chars fun c hc => (point_dec hc).1
  have c2 := h2.chars fun c hc => (point_dec hc).2
  constructor
  · rw [HO.CurvePoint.parse_iff]
    refine ⟨c.pos.x.toStr, c.pos.y.toStr, by simp [HO.CurvePoint.shw], ?_, ?_, ?_⟩
    · exact c1.mono fun c hc => by simp [pointX] at hc; simp [hc]
    · rw [Decimal.ofStr_toStr h1.wf]
    · rw [Decimal.ofStr_toStr h2.wf]
  · unfold HO.CurvePoint.shw
    exact ((pointY_pipe (pointX_Y c1)).append (.cons (by decide) .nil)).append (pointY_pipe c2)

/-- Any position printed as a curve point is accepted, though perhaps with another meaning. -/
theorem position_print {c : HO.CurvePoint D} (h1 : DecWritable pointY c.pos.x) (h2 : DecWritable pointY c.pos.y) :
    (∃ c', HO.CurvePoint.parse c.shw = .ok (c' : HO.CurvePoint D)) ∧ AllC pipeC c.shw := by
  have c1 := h1.chars fun c hc => (point_dec hc).2
  have c2 := h2.chars fun c hc => (point_dec hc).2
  have hc : AllC pipeC c.shw := by
    unfold HO.CurvePoint.shw
    exact ((pointY_pipe c1).append (.cons (by decide) .nil)).append (pointY_pipe c2)
  refine ⟨?_, hc⟩
  have hm : ':' ∈ c.shw := by simp [HO.CurvePoint.shw]
  have hdec : ∀ s : Str, ':' ∈ s → ∃ x y, s = x ++ ':' :: y ∧ NoC ':' x := by
    intro s
    induction s with
    | nil => intro h; cases h
    | cons d s ih =>
      intro h
      by_cases hd : d = ':'
      · subst hd; exact ⟨[], s, rfl, .nil⟩
      · have : ':' ∈ s := by
          rcases List.mem_cons.1 h with h | h
          · exact absurd h.symm hd
          · exact h
        obtain ⟨x, y, rfl, hx⟩ := ih this
        exact ⟨d :: x, y, rfl, .cons (by simpa using hd) hx⟩
  obtain ⟨x, y, e, hx⟩ := hdec _ hm
  exact ⟨⟨⟨Decimal.ofStr x, Decimal.ofStr y⟩⟩, HO.CurvePoint.parse_iff.2 ⟨x, y, e, hx, rfl, rfl⟩⟩

theorem TimeWritableC.print {f : Char → Bool} (hf : ∀ c, isDecChar c = true → f c = true) {v : Nat} {x : Decimal D} (h : TimeWritableC f v x) :
    ∃ p, x.toStrShifted v = some p ∧ TimeReads v p x ∧ AllC f p := by
  cases x with
  | right s =>
    obtain ⟨h1, h2⟩ := h
    exact ⟨s, rfl, by unfold TimeReads; rw [h1], h2⟩
  | left d =>
    simp only [TimeWritableC] at h
    simp only [Decimal.toStrShifted]
    by_cases hv : 3 ≤ v ∧ v ≤ 4
    · rw [if_pos hv] at h
      obtain ⟨d', h1, h2, h3⟩ := h
      refine ⟨DecLib.shw d', by rw [if_pos hv, h1]; rfl, ?_, fun c hc => hf c (DecLib.shw_chars _ c hc)⟩
      unfold TimeReads
      rw [DecLib.parse_shw h2]
      simp only [if_pos hv]
      exact ⟨d, h3, rfl⟩
    · rw [if_neg hv] at h
      refine ⟨DecLib.shw d, by rw [if_neg hv], ?_, fun c hc => hf c (DecLib.shw_chars _ c hc)⟩
      unfold TimeReads
      rw [DecLib.parse_shw h]
      simp only [if_neg hv]

theorem hold_dec {c : Char} (h : isDecChar c = true) : holdChar c = true := by
  have h2 := isDecChar_ne h (d := '\n') (by decide)
  have h3 := isDecChar_ne h (d := '\r') (by decide)
  have h5 := isDecChar_ne h (d := ':') (by decide)
  simp [holdChar, h2, h3, h5]

end

namespace HitObject
variable {D : Type} [DecLib D]

/-- The kind bit of an object. -/
def kindOf : HOParams D → Nat
  | .hitCircle => 1
  | .slider _ => 2
  | .spinner _ => 8
  | .hold _ => 128

omit [DecLib D] in
theorem typeByte_toNat {o : HitObject D} (h : o.comboSkip.val.toNat ≤ 7) :
    o.typeByte.toNat = kindOf o.params + (if o.newCombo then 4 else 0) + 16 * o.comboSkip.val.toNat := by
  obtain ⟨pos, time, params, nc, ⟨k⟩, hs, smp⟩ := o
  simp only at h
  have hk : k = 0 ∨ k = 1 ∨ k = 2 ∨ k = 3 ∨ k = 4 ∨ k = 5 ∨ k = 6 ∨ k = 7 := by
    simp only [← UInt8.toNat_inj]
    simp
    omega
  unfold typeByte kindOf
  cases params <;> cases nc <;> rcases hk with rfl | rfl | rfl | rfl | rfl | rfl | rfl | rfl <;>
    simp only [Bool.false_eq_true, if_false, if_true] <;> decide

theorem parseI32_u8ToStr (b : UInt8) : ∃ n : Int32, parseI32 (u8ToStr b) = .ok n ∧ n.toInt = b.toNat := by
  have hb : b.toNat < 256 := b.toNat_lt
  have e : (Int32.ofNat b.toNat).toInt = b.toNat := Int32.toInt_ofNat_of_lt (by omega)
  refine ⟨Int32.ofNat b.toNat, ?_, e⟩
  have : u8ToStr b = i32ToStr (Int32.ofNat b.toNat) := by
    unfold u8ToStr i32ToStr
    rw [e]
    unfold intToStr
    rw [if_neg (by omega)]; rfl
  rw [this, parseI32_i32ToStr]

/-- The common fields. -/
theorem head_print {v : Nat} {o : HitObject D} (h : HOWritable v o) :
    ∃ (tm : Str) (n : Int32), o.time.toStrShifted v = some tm ∧
      (AllC fieldChar o.position.x.toStr ∧ AllC fieldChar o.position.y.toStr ∧ AllC fieldChar tm ∧
        AllC fieldChar (u8ToStr o.typeByte) ∧ AllC fieldChar o.hitsound.shw) ∧
      n.toInt = ((kindOf o.params + (if o.newCombo then 4 else 0) + 16 * o.comboSkip.val.toNat : Nat) : Int) ∧
      ∀ o' : HitObject D, o'.position = o.position → o'.time = o.time → o'.newCombo = o.newCombo →
        o'.comboSkip = o.comboSkip → o'.hitsound = o.hitsound →
        HOHead v o.position.x.toStr o.position.y.toStr tm (u8ToStr o.typeByte) o.hitsound.shw n o' := by
  obtain ⟨tm, h1, h2, h3⟩ := h.time.print
  obtain ⟨n, h4, h5⟩ := parseI32_u8ToStr o.typeByte
  have hn := typeByte_toNat h.skip
  have hk := h.skip
  have hkind : kindOf o.params = 1 ∨ kindOf o.params = 2 ∨ kindOf o.params = 8 ∨ kindOf o.params = 128 := by
    cases o.params <;> simp [kindOf]
  refine ⟨tm, n, h1, ⟨h.x.chars fun c hc => fieldChar_dec hc, h.y.chars fun c hc => fieldChar_dec hc, h3,
    fieldChar_num (parseI32_chars h4).2, fieldChar_num (HO.HitSound.parse_chars (HO.HitSound.round _))⟩, ?_, ?_⟩
  · rw [h5, hn]
  · intro o' e1 e2 e3 e4 e5
    refine ⟨?_, ?_, ?_, h4, ?_, ?_, ?_⟩
    · rw [e1, Decimal.ofStr_toStr h.x.wf]
    · rw [e1, Decimal.ofStr_toStr h.y.wf]
    · rw [e2]; exact h2
    · unfold typeBit
      rw [e3, h5, hn]
      cases o.newCombo
      · simp; omega
      · simp; omega
    · rw [e4, h5, hn]
      cases o.newCombo
      · simp; omega
      · simp; omega
    · rw [e5]; exact HO.HitSound.round _

theorem kind_bits {v : Nat} {o : HitObject D} (h : HOWritable v o) {n : Int32}
    (hn : n.toInt = ((kindOf o.params + (if o.newCombo then 4 else 0) + 16 * o.comboSkip.val.toNat : Nat) : Int)) :
    (typeBit n 0 ↔ kindOf o.params = 1) ∧ (typeBit n 1 ↔ kindOf o.params = 2) ∧ (typeBit n 3 ↔ kindOf o.params = 8) ∧
      (typeBit n 7 ↔ kindOf o.params = 128) := by
  have hk := h.skip
  have hkind : kindOf o.params = 1 ∨ kindOf o.params = 2 ∨ kindOf o.params = 8 ∨ kindOf o.params = 128 := by
    cases o.params <;> simp [kindOf]
  unfold typeBit
  rw [hn]
  cases o.newCombo
  · simp; omega
  · simp; omega

/-- The hit sample part at the end of a line. -/
theorem sample_print {v : Nat} {o : HitObject D} (h : HOWritable v o) :
    sampleList v o.hitsample = [] ∧ o.hitsample.bind (sampleBack v) = none ∨
    ∃ t h', sampleList v o.hitsample = [t] ∧
      o.hitsample.bind (sampleBack v) = some h' ∧ SampleReads (splitOnC ':' t) h' ∧ AllC lastChar t := by
  cases hs : o.hitsample with
  | none => exact .inl ⟨rfl, rfl⟩
  | some hsm =>
    by_cases hv : NoSample v
    · left
      have := HO.HitSample.print_none (h := hsm) hv
      simp [sampleList, this.1, this.2]
    · right
      obtain ⟨t, h', h1, h2, h3, h4⟩ := HO.HitSample.print (h.hitsample hv hsm hs) hv
      exact ⟨t, h', by simp [sampleList, h1], by simp [h2], h3, h4⟩

/-- Round trip, with the losses `hoBack` describes. -/
theorem round_trip {v : Nat} {o : HitObject D} (h : HOWritable v o) :
    ∃ s, shw v o = some s ∧ LineOK s ∧ parse v s = .ok (hoBack v o) := by
  obtain ⟨tm, n, h1, ⟨cx, cy, ct, cty, chs⟩, hn, hhead⟩ := head_print h
  obtain ⟨b0, b1, b3, b7⟩ := kind_bits h hn
  have smp := sample_print h
  -- all lines consist of the common fields and something more
  have fin : ∀ (s rest : Str) (o' : HitObject D),
      s = o.position.x.toStr ++ preC ',' [o.position.y.toStr, tm, u8ToStr o.typeByte, o.hitsound.shw] ++ rest →
      AllC lastChar rest → HOReads v (splitOnC ',' s) o' → LineOK s ∧ parse v s = .ok o' := by
    intro s rest o' e hr ho
    refine ⟨lineOK_of ?_ ?_, parse_iff.2 ho⟩
    · rw [e]
      refine ((field_last cx).append (preC_last ?_)).append hr
      intro x hx
      simp at hx
      rcases hx with rfl | rfl | rfl | rfl
      · exact field_last cy
      · exact field_last ct
      · exact field_last cty
      · exact field_last chs
    · rw [e, preC_cons]; simp
  have nx := noComma_of_field cx
  have n4 : ∀ q ∈ [o.position.y.toStr, tm, u8ToStr o.typeByte, o.hitsound.shw], NoC ',' q := by
    intro x hx
    simp at hx
    rcases hx with rfl | rfl | rfl | rfl
    · exact noComma_of_field cy
    · exact noComma_of_field ct
    · exact noComma_of_field cty
    · exact noComma_of_field chs
  unfold shw
  rw [h1, Option.bind_some]
  cases hp : o.params with
  | hitCircle =>
    have hk : kindOf o.params = 1 := by rw [hp]; rfl
    simp only
    refine ⟨_, rfl, ?_⟩
    have hback : hoBack v o = { o with hitsample := if v = 3 then some HO.HitSample.default else o.hitsample.bind (sampleBack v) } := by
      unfold hoBack; rw [hp]
    rw [hback]
    by_cases hv : v = 3
    · have hs : sampleList v o.hitsample = [] := by
        cases o.hitsample with
        | none => rfl
        | some hsm => simp [sampleList, (HO.HitSample.print_none (h := hsm) (v := v) (by subst hv; decide)).1]
      rw [if_pos hv, if_pos hv, hs]
      have e : join [','] ([o.position.x.toStr, o.position.y.toStr, tm, u8ToStr o.typeByte, o.hitsound.shw] ++ []) ++ [','] =
          o.position.x.toStr ++ preC ',' [o.position.y.toStr, tm, u8ToStr o.typeByte, o.hitsound.shw] ++ ',' :: [] := by
        simp [join_eq_preC]
      rw [e]
      refine fin _ _ _ rfl (.cons (by decide) .nil) ?_
      rw [line_split _ nx n4]
      exact .circle (hhead _ rfl rfl rfl rfl rfl) (b0.2 hk) hp ⟨_, HO.sampleReads_nil, rfl⟩
    · rw [if_neg hv, if_neg hv]
      rcases smp with ⟨s1, s2⟩ | ⟨t, h', s1, s2, s3, s4⟩
      · rw [s1, s2]
        have e : join [','] ([o.position.x.toStr, o.position.y.toStr, tm, u8ToStr o.typeByte, o.hitsound.shw] ++ []) =
            o.position.x.toStr ++ preC ',' [o.position.y.toStr, tm, u8ToStr o.typeByte, o.hitsound.shw] := by
          simp [join_eq_preC]
        refine fin _ [] _ (by rw [e]; simp) .nil ?_
        rw [e, line_split0 nx n4]
        exact .circle (hhead _ rfl rfl rfl rfl rfl) (b0.2 hk) hp rfl
      · rw [s1, s2]
        have e : join [','] ([o.position.x.toStr, o.position.y.toStr, tm, u8ToStr o.typeByte, o.hitsound.shw] ++ [t]) =
            o.position.x.toStr ++ preC ',' [o.position.y.toStr, tm, u8ToStr o.typeByte, o.hitsound.shw] ++ ',' :: t := by
          simp [join_eq_preC, preC]
        refine fin _ _ _ e (.cons (by decide) s4) ?_
        rw [e, line_split _ nx n4]
        exact .circle (hhead _ rfl rfl rfl rfl rfl) (b0.2 hk) hp (sampleTail_split s3)
  | spinner e =>
    have hk : kindOf o.params = 8 := by rw [hp]; rfl
    have hw := h.params
    rw [hp] at hw
    obtain ⟨te, g1, g2, g3⟩ := TimeWritable.print hw
    simp only
    rw [g1, Option.map_some]
    refine ⟨_, rfl, ?_⟩
    have hback : hoBack v o = { o with hitsample := o.hitsample.bind (sampleBack v) } := by
      unfold hoBack; rw [hp]
    rw [hback]
    have n5 : ∀ q ∈ [o.position.y.toStr, tm, u8ToStr o.typeByte, o.hitsound.shw, te], NoC ',' q := by
      intro x hx
      rw [show [o.position.y.toStr, tm, u8ToStr o.typeByte, o.hitsound.shw, te] =
        [o.position.y.toStr, tm, u8ToStr o.typeByte, o.hitsound.shw] ++ [te] from rfl, List.mem_append] at hx
      rcases hx with hx | hx
      · exact n4 x hx
      · simp at hx; subst hx; exact noComma_of_field g3
    have not0 : ¬ typeBit n 0 := fun h => by have := b0.1 h; omega
    have not1 : ¬ typeBit n 1 := fun h => by have := b1.1 h; omega
    rcases smp with ⟨s1, s2⟩ | ⟨t, h', s1, s2, s3, s4⟩
    · rw [s1, s2]
      have e' : join [','] ([o.position.x.toStr, o.position.y.toStr, tm, u8ToStr o.typeByte, o.hitsound.shw] ++ [te] ++ []) =
          o.position.x.toStr ++ preC ',' [o.position.y.toStr, tm, u8ToStr o.typeByte, o.hitsound.shw, te] := by
        simp [join_eq_preC]
      refine fin _ (',' :: te) _ (by rw [e']; simp [preC]) (.cons (by decide) (field_last g3)) ?_
      rw [e', line_split0 nx n5]
      exact .spinner (hhead _ rfl rfl rfl rfl rfl) not0 not1 (b3.2 hk) hp g2 rfl
    · rw [s1, s2]
      have e' : join [','] ([o.position.x.toStr, o.position.y.toStr, tm, u8ToStr o.typeByte, o.hitsound.shw] ++ [te] ++ [t]) =
          o.position.x.toStr ++ preC ',' [o.position.y.toStr, tm, u8ToStr o.typeByte, o.hitsound.shw, te] ++ ',' :: t := by
        simp [join_eq_preC, preC]
      refine fin _ (',' :: te ++ ',' :: t) _ (by rw [e']; simp [preC])
        ((AllC.cons (by decide) (field_last g3)).append (.cons (by decide) s4)) ?_
      rw [e', line_split _ nx n5]
      exact .spinner (hhead _ rfl rfl rfl rfl rfl) not0 not1 (b3.2 hk) hp g2 (sampleTail_split s3)
  | hold e =>
    have hk : kindOf o.params = 128 := by rw [hp]; rfl
    have hw := h.params
    rw [hp] at hw
    obtain ⟨te, g1, g2, g3⟩ := TimeWritableC.print (fun c hc => hold_dec hc) hw
    simp only
    rw [g1, Option.map_some]
    refine ⟨_, rfl, ?_⟩
    have hback : hoBack v o = { o with hitsample := some ((o.hitsample.bind (sampleBack v)).getD HO.HitSample.default) } := by
      unfold hoBack; rw [hp]
    rw [hback]
    have not0 : ¬ typeBit n 0 := fun h => by have := b0.1 h; omega
    have not1 : ¬ typeBit n 1 := fun h => by have := b1.1 h; omega
    have not3 : ¬ typeBit n 3 := fun h => by have := b3.1 h; omega
    have smp' : ∃ t h', sampleText v o.hitsample = t ∧
        (o.hitsample.bind (sampleBack v)).getD HO.HitSample.default = h' ∧ SampleReads (splitOnC ':' t) h' ∧ AllC lastChar t := by
      rcases smp with ⟨s1, s2⟩ | ⟨t, h', s1, s2, s3, s4⟩
      · refine ⟨[], HO.HitSample.default, ?_, by rw [s2]; rfl, HO.sampleReads_nil, .nil⟩
        cases hs : o.hitsample with
        | none => rfl
        | some hsm =>
          rw [hs] at s1
          simp only [sampleList, Option.toList_eq_nil_iff] at s1
          simp [sampleText, s1]
      · refine ⟨t, h', ?_, by rw [s2]; rfl, s3, s4⟩
        cases hs : o.hitsample with
        | none => rw [hs] at s1; simp [sampleList] at s1
        | some hsm =>
          rw [hs] at s1
          simp only [sampleList, Option.toList_eq_singleton_iff] at s1
          simp [sampleText, s1]
    obtain ⟨t, h', s1, s2, s3, s4⟩ := smp'
    rw [s1, s2]
    have e' : join [','] ([o.position.x.toStr, o.position.y.toStr, tm, u8ToStr o.typeByte, o.hitsound.shw] ++ [te]) ++ [':'] ++ t =
        o.position.x.toStr ++ preC ',' [o.position.y.toStr, tm, u8ToStr o.typeByte, o.hitsound.shw] ++ ',' :: (te ++ ':' :: t) := by
      simp [join_eq_preC, preC]
    refine fin _ _ _ e' (.cons (by decide) ((HO.hold_last g3).append (.cons (by decide) s4))) ?_
    rw [e', line_split _ nx n4]
    cases hs : splitOnC ',' (te ++ ':' :: t) with
    | nil => exact absurd hs (splitOnC_ne_nil _ _)
    | cons q qs =>
      have hj := join_splitOnC ',' (te ++ ':' :: t)
      rw [hs] at hj
      refine .hold (hhead _ rfl rfl rfl rfl rfl) not0 not1 not3 (b7.2 hk) hp ⟨te, t, h', hj, ?_, g2, s3, rfl⟩
      rw [lacks_iff]; exact HO.hold_noColon g3
  | slider p =>
    have hk : kindOf o.params = 2 := by rw [hp]; rfl
    have hw := h.params
    rw [hp] at hw
    have hw : SliderWritable v o.position p := hw
    simp only
    refine ⟨_, rfl, ?_⟩
    have not0 : ¬ typeBit n 0 := fun h => by have := b0.1 h; omega
    obtain ⟨r1, r2⟩ := edgeSounds_print p.edgeSounds
    obtain ⟨r3, r4⟩ := edgeSets_print hw.sets
    have clen := hw.length.chars fun c hc => fieldChar_dec hc
    -- the curve
    have curve : ∃ c, AllC fieldChar c ∧ CurveReads v c p.curveType p.curvePoints ∧
        ∀ more : List Str, more ≠ [] →
          (if v = 3 ∨ p.curvePoints ≠ [] then
            join [','] ([o.position.x.toStr, o.position.y.toStr, tm, u8ToStr o.typeByte, o.hitsound.shw] ++ [p.curveType.shw]) ++ ['|'] ++
              join [','] ((if v = 3 then [pipeStr HO.CurvePoint.shw (⟨o.position⟩ :: p.curvePoints)]
                else if p.curvePoints ≠ [] then [pipeStr HO.CurvePoint.shw p.curvePoints] else []) ++ more)
          else
            join [','] ([o.position.x.toStr, o.position.y.toStr, tm, u8ToStr o.typeByte, o.hitsound.shw] ++ [p.curveType.shw]) ++ [','] ++
              join [','] ((if v = 3 then [pipeStr HO.CurvePoint.shw (⟨o.position⟩ :: p.curvePoints)]
                else if p.curvePoints ≠ [] then [pipeStr HO.CurvePoint.shw p.curvePoints] else []) ++ more)) =
          o.position.x.toStr ++ preC ',' ([o.position.y.toStr, tm, u8ToStr o.typeByte, o.hitsound.shw, c] ++ more) := by
      have cc : AllC fieldChar p.curveType.shw := by cases p.curveType <;> decide
      have cl : lacks '|' p.curveType.shw = true := by cases p.curveType <;> decide
      have pts : ∀ l : List (HO.CurvePoint D), (∀ c ∈ l, c ∈ p.curvePoints) →
          ∀ c ∈ l, HO.CurvePoint.parse c.shw = .ok c ∧ AllC pipeC c.shw := fun l hl c hc =>
        curvePoint_print (hw.points c (hl c hc)).1 (hw.points c (hl c hc)).2
      by_cases hv : v = 3
      · obtain ⟨⟨c0, g1⟩, g2⟩ := position_print (c := ⟨o.position⟩) (hw.position hv).1 (hw.position hv).2
        -- the list with the position in front
        have hread : PipeReads HO.CurvePoint.parse (pipeStr HO.CurvePoint.shw (⟨o.position⟩ :: p.curvePoints)) (c0 :: p.curvePoints) ∧
            AllC fieldChar (pipeStr HO.CurvePoint.shw (⟨o.position⟩ :: p.curvePoints)) := by
          have hall : ∀ q ∈ (⟨o.position⟩ :: p.curvePoints).map HO.CurvePoint.shw, AllC pipeC q := by
            intro q hq
            obtain ⟨b, hb, rfl⟩ := List.mem_map.1 hq
            rcases List.mem_cons.1 hb with rfl | hb
            · exact g2
            · exact (pts _ (fun c hc => hc) b hb).2
          have hf : AllC fieldChar (pipeStr HO.CurvePoint.shw (⟨o.position⟩ :: p.curvePoints)) := by
            have := pipeReads_print (f := fun s => (.ok s : Res Unit Str)) (shw := id)
              (l := (⟨o.position⟩ :: p.curvePoints).map HO.CurvePoint.shw) (fun a ha => ⟨rfl, hall a ha⟩)
            have h2 := this.2
            unfold pipeStr at h2 ⊢
            rw [List.map_id] at h2
            exact h2
          refine ⟨.inr ⟨?_, ?_, ?_⟩, hf⟩
          · rw [lacks_iff]; exact hf.mono fun c hc => by simp [fieldChar] at hc; simp [hc]
          · rw [lacks_iff]; exact hf.mono fun c hc => by simp [fieldChar] at hc; simp [hc]
          · unfold pipeStr
            rw [splitOnC_join (by simp) fun q hq => pipeC_noBar (hall q hq)]
            simp only [List.map_cons, List.map_map, g1]
            congr 1
            apply List.map_congr_left
            intro b hb
            exact (pts _ (fun c hc => hc) b hb).1
        refine ⟨p.curveType.shw ++ '|' :: pipeStr HO.CurvePoint.shw (⟨o.position⟩ :: p.curvePoints), cc.append (.cons (by decide) hread.2), ?_, ?_⟩
        · exact .inr ⟨_, _, _, rfl, cl, curveType_round _, hread.1, by simp [hv]⟩
        · intro more hm
          rw [if_pos (.inl hv), if_pos hv]
          simp [join_eq_preC, preC]
      · by_cases hpts : p.curvePoints = []
        · refine ⟨p.curveType.shw, cc, .inl ⟨curveType_round _, hpts⟩, ?_⟩
          intro more hm
          rw [if_neg (by simp [hv, hpts]), if_neg hv, if_neg (by simp [hpts]), List.nil_append]
          cases more with
          | nil => exact absurd rfl hm
          | cons a more => simp [join_eq_preC, preC]
        · have hread := pipeReads_print (pts p.curvePoints fun c hc => hc)
          refine ⟨p.curveType.shw ++ '|' :: pipeStr HO.CurvePoint.shw p.curvePoints, cc.append (.cons (by decide) hread.2), ?_, ?_⟩
          · exact .inr ⟨_, _, _, rfl, cl, curveType_round _, hread.1, by rw [if_neg hv]⟩
          · intro more hm
            rw [if_pos (.inr hpts), if_neg hv, if_pos hpts]
            simp [join_eq_preC, preC]
    obtain ⟨c, c1, c2, c3⟩ := curve
    -- the end of the line
    have tail : ∃ es t, (if p.edgeSounds ≠ [] ∨ p.edgeSoundsShort = false ∨ p.edgeSets ≠ [] ∨ p.edgeSetsShort = false ∨
        o.hitsample.isSome then [pipeStr HO.HitSound.shw p.edgeSounds] else []) ++
      (if p.edgeSets ≠ [] ∨ p.edgeSetsShort = false ∨ o.hitsample.isSome then [pipeStr HO.EdgeSet.shw p.edgeSets] else []) ++
      sampleList v o.hitsample = es ++ t ∧ (∀ q ∈ es, AllC fieldChar q) ∧
        ((t = [] ∧ EdgeReads es p.edgeSounds (!decide (p.edgeSounds ≠ [] ∨ p.edgeSoundsShort = false ∨
            (p.edgeSets ≠ [] ∨ p.edgeSetsShort = false ∨ o.hitsample.isSome))) p.edgeSets
            (!decide (p.edgeSets ≠ [] ∨ p.edgeSetsShort = false ∨ o.hitsample.isSome)) (o.hitsample.bind (sampleBack v))) ∨
         ∃ x, t = [x] ∧ AllC lastChar x ∧ EdgeReads (es ++ splitOnC ',' x) p.edgeSounds (!decide (p.edgeSounds ≠ [] ∨ p.edgeSoundsShort = false ∨
            (p.edgeSets ≠ [] ∨ p.edgeSetsShort = false ∨ o.hitsample.isSome))) p.edgeSets
            (!decide (p.edgeSets ≠ [] ∨ p.edgeSetsShort = false ∨ o.hitsample.isSome)) (o.hitsample.bind (sampleBack v))) := by
      by_cases hsets : p.edgeSets ≠ [] ∨ p.edgeSetsShort = false ∨ o.hitsample.isSome
      · have hsounds : p.edgeSounds ≠ [] ∨ p.edgeSoundsShort = false ∨ p.edgeSets ≠ [] ∨ p.edgeSetsShort = false ∨
          o.hitsample.isSome = true := .inr (.inr hsets)
        rw [if_pos hsets, if_pos hsounds]
        refine ⟨[pipeStr HO.HitSound.shw p.edgeSounds, pipeStr HO.EdgeSet.shw p.edgeSets], _, rfl, ?_, ?_⟩
        · intro q hq; simp at hq; rcases hq with rfl | rfl <;> assumption
        · rw [decide_eq_true hsounds, decide_eq_true hsets]
          rcases smp with ⟨s1, s2⟩ | ⟨t, h', s1, s2, s3, s4⟩
          · left; rw [s1, s2]; exact ⟨rfl, .sets r1 (.inl r3)⟩
          · right; rw [s1, s2]
            refine ⟨t, rfl, s4, ?_⟩
            have := sampleTail_split s3
            cases hs : splitOnC ',' t with
            | nil => exact absurd hs (splitOnC_ne_nil _ _)
            | cons q qs => rw [hs] at this; exact .sample r1 r3 this
      · rw [if_neg hsets]
        have hnone : o.hitsample = none := by
          cases ho : o.hitsample with
          | none => rfl
          | some x => exact absurd (.inr (.inr (by rw [ho]; rfl))) hsets
        have hes : p.edgeSets = [] := Classical.byContradiction fun h => hsets (.inl h)
        have hsm : sampleList v o.hitsample = ([] : List Str) := by rw [hnone]; rfl
        rw [hsm]
        have hbind : o.hitsample.bind (sampleBack v) = none := by rw [hnone]; rfl
        rw [decide_eq_false hsets, hbind]
        by_cases hsounds : p.edgeSounds ≠ [] ∨ p.edgeSoundsShort = false ∨ p.edgeSets ≠ [] ∨ p.edgeSetsShort = false ∨
          o.hitsample.isSome = true
        · rw [if_pos hsounds]
          refine ⟨[pipeStr HO.HitSound.shw p.edgeSounds], [], by simp, ?_, .inl ⟨rfl, ?_⟩⟩
          · intro q hq; simp at hq; subst hq; assumption
          · rw [decide_eq_true hsounds, hes]
            exact .sounds (.inl r1)
        · rw [if_neg hsounds]
          refine ⟨[], [], by simp, by simp, .inl ⟨rfl, ?_⟩⟩
          rw [decide_eq_false hsounds, hes]
          have : p.edgeSounds = [] := Classical.byContradiction fun h => hsounds (.inl h)
          rw [this]
          exact .none
    obtain ⟨es, t, t1, t2, t3⟩ := tail
    have e : (if v = 3 ∨ p.curvePoints ≠ [] then
        join [','] ([o.position.x.toStr, o.position.y.toStr, tm, u8ToStr o.typeByte, o.hitsound.shw] ++ [p.curveType.shw]) ++ ['|'] ++
          join [','] (sliderTail v o.position p o.hitsample)
        else
        join [','] ([o.position.x.toStr, o.position.y.toStr, tm, u8ToStr o.typeByte, o.hitsound.shw] ++ [p.curveType.shw]) ++ [','] ++
          join [','] (sliderTail v o.position p o.hitsample)) =
        o.position.x.toStr ++ preC ',' ([o.position.y.toStr, tm, u8ToStr o.typeByte, o.hitsound.shw, c] ++
          (i32ToStr p.slides :: p.length.toStr :: es ++ t)) := by
      rw [← c3 _ (by simp)]
      have : sliderTail v o.position p o.hitsample = (if v = 3 then [pipeStr HO.CurvePoint.shw (⟨o.position⟩ :: p.curvePoints)]
                else if p.curvePoints ≠ [] then [pipeStr HO.CurvePoint.shw p.curvePoints] else []) ++
                (i32ToStr p.slides :: p.length.toStr :: es ++ t) := by
        unfold sliderTail
        simp only [List.append_assoc]
        rw [List.append_assoc] at t1
        simp only [List.cons_append, List.nil_append]
        rw [t1]
      rw [this]
    rw [e]
    have hback : hoBack v o = { o with
        params := .slider { p with
          edgeSoundsShort := !decide (p.edgeSounds ≠ [] ∨ p.edgeSoundsShort = false ∨
            (p.edgeSets ≠ [] ∨ p.edgeSetsShort = false ∨ o.hitsample.isSome)),
          edgeSetsShort := !decide (p.edgeSets ≠ [] ∨ p.edgeSetsShort = false ∨ o.hitsample.isSome) }
        hitsample := o.hitsample.bind (sampleBack v) } := by
      unfold hoBack; rw [hp]
    rw [hback]
    have nall : ∀ q ∈ [o.position.y.toStr, tm, u8ToStr o.typeByte, o.hitsound.shw] ++
        (c :: i32ToStr p.slides :: p.length.toStr :: es), NoC ',' q := by
      intro q hq
      rcases List.mem_append.1 hq with hq | hq
      · exact n4 q hq
      · simp at hq
        rcases hq with rfl | rfl | rfl | hq
        · exact noComma_of_field c1
        · exact noComma_of_field (i32_field _)
        · exact noComma_of_field clen
        · exact noComma_of_field (t2 q hq)
    have call : AllC lastChar (preC ',' (c :: i32ToStr p.slides :: p.length.toStr :: es)) := by
      refine preC_last ?_
      intro q hq
      simp at hq
      rcases hq with rfl | rfl | rfl | hq
      · exact field_last c1
      · exact field_last (i32_field _)
      · exact field_last clen
      · exact field_last (t2 q hq)
    rcases t3 with ⟨rfl, t3⟩ | ⟨x, rfl, hx, t3⟩
    · refine fin _ (preC ',' (c :: i32ToStr p.slides :: p.length.toStr :: es)) _ ?_ call ?_
      · simp [preC]
      · rw [show [o.position.y.toStr, tm, u8ToStr o.typeByte, o.hitsound.shw, c] ++ (i32ToStr p.slides :: p.length.toStr :: es ++ []) =
          [o.position.y.toStr, tm, u8ToStr o.typeByte, o.hitsound.shw] ++ (c :: i32ToStr p.slides :: p.length.toStr :: es) by simp]
        rw [line_split0 nx nall]
        exact .slider (hhead _ rfl rfl rfl rfl rfl) not0 (b1.2 hk) rfl
          ⟨c2, parseI32_i32ToStr _, (Decimal.ofStr_toStr hw.length.wf).symm, t3⟩
    · refine fin _ (preC ',' (c :: i32ToStr p.slides :: p.length.toStr :: es) ++ ',' :: x) _ ?_ (call.append (.cons (by decide) hx)) ?_
      · simp [preC]
      · rw [show o.position.x.toStr ++ preC ',' ([o.position.y.toStr, tm, u8ToStr o.typeByte, o.hitsound.shw, c] ++
            (i32ToStr p.slides :: p.length.toStr :: es ++ [x])) = o.position.x.toStr ++ preC ','
            ([o.position.y.toStr, tm, u8ToStr o.typeByte, o.hitsound.shw] ++ (c :: i32ToStr p.slides :: p.length.toStr :: es)) ++ ',' :: x by
            simp [preC]]
        rw [line_split _ nx nall]
        exact .slider (hhead _ rfl rfl rfl rfl rfl) not0 (b1.2 hk) rfl
          ⟨c2, parseI32_i32ToStr _, (Decimal.ofStr_toStr hw.length.wf).symm, t3⟩

end HitObject
end Osu
