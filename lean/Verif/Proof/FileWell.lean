/-
The texts written for sections can stand in a file.
-/
import Verif.Proof.FilePrint
import Verif.Spec.FileValue

namespace Osu
open Parser Ev

/-! ### Key/value sections -/

theorem KVLine.OK.line {l : KVLine} (h : l.OK) (hb : l.key.head? ≠ some '[') :
    LineOK l.text ∧ HeadNot isMultispace l.text ∧ l.text.head? ≠ some '[' := by
  have hsp : ∀ c ∈ l.ws, c = ' ' ∨ c = '\t' := by
    intro c hc
    have := h.ws c hc
    simpa [isSpace] using this
  have htail : ∀ c ∈ ':' :: (l.ws ++ l.value), c ≠ '\r' ∧ c ≠ '\n' := by
    intro c hc
    rcases List.mem_cons.1 hc with rfl | hc
    · decide
    · rcases List.mem_append.1 hc with hc | hc
      · rcases hsp c hc with rfl | rfl <;> decide
      · have := h.value c hc
        simpa using this
  refine ⟨⟨?_, ?_, ?_⟩, ?_, ?_⟩
  · intro c hc
    have : c ≠ '\n' := by
      rcases List.mem_append.1 hc with hc | hc
      · have := h.key c hc
        simp at this
        exact this.2
      · exact (htail c hc).2
    simpa using this
  · unfold NoEndCR KVLine.text
    rw [List.getLast?_append]
    cases hg : (':' :: (l.ws ++ l.value)).getLast? with
    | none => rw [List.getLast?_eq_none_iff] at hg; cases hg
    | some c =>
      intro e
      simp only [Option.some_or, Option.some.injEq] at e
      exact (htail c (List.mem_of_getLast? hg)).1 e
  · rw [nonBlank_iff, Ne, trim_eq_nil]
    intro hw
    exact absurd (hw ':' (by simp [KVLine.text])) (by decide)
  · unfold KVLine.text
    have := h.keyHead
    cases hk : l.key with
    | nil => exact .cons (by decide)
    | cons c k => rw [hk] at this; exact .cons this.of_cons
  · unfold KVLine.text
    cases hk : l.key with
    | nil => simp
    | cons c k => rw [hk] at hb; simpa using hb

theorem Schema.wellText {S : Schema} (hS : S.Lawful) (hb : ∀ k, (S.name k).head? ≠ some '[') {v : Nat} {sec : S.Section}
    (hg : ∀ k x t, sec k = some x → S.shw k v x = some t → GoodVal t) (hne : S.toStr v sec ≠ []) : WellText (S.toStr v sec) := by
  have hline : ∀ t ∈ S.keys.filterMap (S.printed v sec), LineOK t.text ∧ HeadNot isMultispace t.text ∧ t.text.head? ≠ some '[' := by
    intro l hl
    obtain ⟨k, _, hk⟩ := List.mem_filterMap.1 hl
    unfold Schema.printed at hk
    split at hk
    · cases hk
    · rename_i x hx
      split at hk
      · cases hk
      · rename_i t ht
        cases hk
        have := hg k x t hx ht
        exact KVLine.OK.line ⟨hS.nameOK k, hS.nameHead k, hS.spacing v t, this.chars, this.head⟩ (hb k)
  rw [Schema.toStr_eq] at hne ⊢
  unfold kvText at hne ⊢
  generalize S.keys.filterMap (S.printed v sec) = ls at hne hline
  refine ⟨ls.map KVLine.text, rfl, ?_, ?_, ?_, ?_⟩
  · rintro e; rw [e] at hne; exact hne rfl
  · intro l hl
    obtain ⟨x, hx, rfl⟩ := List.mem_map.1 hl
    exact (hline x hx).1
  · intro l hl
    obtain ⟨x, hx, rfl⟩ := List.mem_map.1 (List.mem_of_head? hl)
    exact (hline x hx).2.1
  · intro l hl
    obtain ⟨x, hx, rfl⟩ := List.mem_map.1 (List.mem_of_mem_tail hl)
    exact (hline x hx).2.2

theorem general_bracket {D : Type} [DecLib D] (k : GKey) : ((General D).name k).head? ≠ some '[' := by
  show (GKey.name k).head? ≠ _; cases k <;> decide
theorem editor_bracket {D : Type} [DecLib D] (k : EKey) : ((Editor D).name k).head? ≠ some '[' := by
  show (EKey.name k).head? ≠ _; cases k <;> decide
theorem metadata_bracket (k : MKey) : (Metadata.name k).head? ≠ some '[' := by cases k <;> decide
theorem difficulty_bracket {D : Type} [DecLib D] (k : DKey) : ((Difficulty D).name k).head? ≠ some '[' := by
  show (DKey.name k).head? ≠ _; cases k <;> decide

/-! ### Colours -/

theorem Colour.shw_start (c : Colour) : HeadNot isMultispace c.shw ∧ c.shw.head? ≠ some '[' := by
  cases c <;> exact ⟨.cons (by decide), by simp [Colour.shw]⟩

theorem colours_wellText {v : Nat} {l : List Colour} {t : Str} (h : Colours.shw v l = some t) (hne : l ≠ []) : WellText t := by
  unfold Colours.shw at h
  split at h
  · cases h
  · cases h
    refine ⟨l.map Colour.shw, rfl, by simpa using hne, ?_, ?_, ?_⟩
    · intro x hx
      obtain ⟨c, _, rfl⟩ := List.mem_map.1 hx
      exact c.shw_lineOK
    · intro x hx
      obtain ⟨c, _, rfl⟩ := List.mem_map.1 (List.mem_of_head? hx)
      exact c.shw_start.1
    · intro x hx
      obtain ⟨c, _, rfl⟩ := List.mem_map.1 (List.mem_of_mem_tail hx)
      exact c.shw_start.2

/-! ### Events -/

theorem splitOnC_head {l p : Str} {ps : List Str} (h : splitOnC ',' l = p :: ps) {c : Char} {q : Str} (hp : p = c :: q) :
    ∃ r, l = c :: r := by
  obtain ⟨e, -, -⟩ := splitOnC_iff.1 h
  rw [e, hp]
  exact ⟨_, rfl⟩

section
variable {D : Type} [DecLib D]

theorem evReads_start {v : Nat} {ps : List Str} {e : Event D} (h : EvReads v ps e) :
    ∃ c q qs, ps = (c :: q) :: qs ∧ isMultispace c = false ∧ c ≠ '[' := by
  cases h
  case video short hh _ _ _ => cases short <;> (subst hh; exact ⟨_, _, _, rfl, by decide, by decide⟩)
  case break_ short hh _ _ _ _ => cases short <;> (subst hh; exact ⟨_, _, _, rfl, by decide, by decide⟩)
  all_goals (refine ⟨_, _, _, rfl, ?_, ?_⟩ <;> decide)

theorem headReads_start {v : Nat} {l : Str} {e : Event D} (h : HeadReads v l e) : HeadNot isMultispace l ∧ l.head? ≠ some '[' := by
  cases h with
  | comment s => exact ⟨.cons (by decide), by simp⟩
  | event h =>
    obtain ⟨c, q, qs, e, h1, h2⟩ := evReads_start h
    obtain ⟨r, rfl⟩ := splitOnC_head e rfl
    exact ⟨.cons h1, by simpa using h2⟩

variable [UniLib]

theorem cmdLine_start {vars : List Variable} {l : Str} {x : Nat × SB.Command D} (h : CmdLineParses vars l x) : l.head? ≠ some '[' := by
  obtain ⟨-, h1, h2, -⟩ := h
  cases l with
  | nil => simp
  | cons c l =>
    intro e
    simp only [List.head?_cons, Option.some.injEq] at e
    subst e
    rw [List.takeWhile_cons] at h2
    have : SB.Command.isIndent '[' = false := by decide
    rw [this] at h2
    simp at h2
    omega

theorem sectionReads_start {v : Nat} {vars : List Variable} {ls : List Str} {evs : List (Event D)}
    (h : SectionReads v (CmdLineParses vars) ls evs) :
    (∀ l, ls.head? = some l → HeadNot isMultispace l) ∧ ∀ l ∈ ls, l.head? ≠ some '[' := by
  induction h with
  | nil => exact ⟨nofun, nofun⟩
  | @cons hd cls ls e evs hh hc hs ih =>
    obtain ⟨h1, h2⟩ := headReads_start hh
    refine ⟨fun l hl => by cases hl; exact h1, ?_⟩
    intro l hl
    rcases List.mem_cons.1 hl with rfl | hl
    · exact h2
    · rcases List.mem_append.1 hl with hl | hl
      · have : ∀ {cls : List Str} {xs : List (Nat × SB.Command D)}, CmdLines (CmdLineParses vars) cls xs → ∀ l ∈ cls, l.head? ≠ some '[' := by
          intro cls xs h
          induction h with
          | nil => nofun
          | cons h hs ih =>
            intro l hl
            rcases List.mem_cons.1 hl with rfl | hl
            · exact cmdLine_start h
            · exact ih l hl
        exact this hc l hl
      · exact ih.2 l hl

theorem events_wellText {v : Nat} {vars : List Variable} {t : Str} {evs : List (Event D)} {ls : List Str} (h : Events.parseVars v vars t = .ok evs)
    (he : t = join ['\n'] ls) (hl : ∀ l ∈ ls, LineOK l) (hne : ls ≠ []) : WellText t := by
  rw [events_reads_vars, he, (lines_printed hl).1, (lines_printed hl).2] at h
  obtain ⟨h1, h2⟩ := sectionReads_start h
  exact ⟨ls, he, hne, hl, h1, fun l hm => h2 l (List.mem_of_mem_tail hm)⟩

end

/-! ### Timing points and hit objects -/

section
variable {D : Type} [DecLib D]

theorem decChar_start {c : Char} (h : isDecChar c = true) : isMultispace c = false ∧ c ≠ '[' := by
  constructor
  · cases hm : isMultispace c with
    | false => rfl
    | true =>
      simp only [isMultispace, Bool.or_eq_true, beq_iff_eq] at hm
      rcases hm with ((rfl | rfl) | rfl) | rfl <;> exact absurd h (by decide)
  · rintro rfl; exact absurd h (by decide)

theorem shw_start {d : D} (h : DecLib.canon d) : ∃ c r, DecLib.shw d = c :: r ∧ isMultispace c = false ∧ c ≠ '[' := by
  cases hs : DecLib.shw d with
  | nil =>
    have := DecLib.parse_shw h
    rw [hs, DecLib.parse_nil] at this
    cases this
  | cons c r =>
    have := DecLib.shw_chars _ c (by rw [hs]; simp)
    exact ⟨c, r, rfl, decChar_start this⟩

/-- A line that begins with the text of a decimal, followed by a comma. -/
theorem lead_line {x : Decimal D} {t q : Str} (ht : (∃ d : D, DecLib.canon d ∧ t = DecLib.shw d) ∨ x = .right t) :
    (NotIndented x → HeadNot isMultispace (t ++ ',' :: q)) ∧ (NotBracket x → (t ++ ',' :: q).head? ≠ some '[') := by
  rcases ht with ⟨d, hd, rfl⟩ | rfl
  · obtain ⟨c, r, e, h1, h2⟩ := shw_start hd
    rw [e]
    exact ⟨fun _ => .cons h1, fun _ => by simpa using h2⟩
  · cases t with
    | nil => exact ⟨fun _ => .cons (by decide), fun _ => by simp⟩
    | cons c t => exact ⟨fun h => .cons (HeadNot.of_cons h), fun h => by simpa [NotBracket] using h⟩

theorem TimeWritable.lead {v : Nat} {x : Decimal D} (h : TimeWritable v x) {t : Str} (ht : x.toStrShifted v = some t) :
    (∃ d : D, DecLib.canon d ∧ t = DecLib.shw d) ∨ x = .right t := by
  cases x with
  | right s => cases ht; exact .inr rfl
  | left d =>
    left
    simp only [TimeWritable] at h
    simp only [Decimal.toStrShifted] at ht
    split at ht
    · rename_i hv
      rw [if_pos hv] at h
      obtain ⟨d', h1, h2, -⟩ := h
      rw [h1] at ht
      cases ht
      exact ⟨d', h2, rfl⟩
    · rename_i hv
      rw [if_neg hv] at h
      cases ht
      exact ⟨d, h, rfl⟩

theorem tp_line {v : Nat} {t : TimingPoint D} (h : TPWritable v t) {s : Str} (hs : t.shw v = some s) :
    LineOK s ∧ (NotIndented t.time → HeadNot isMultispace s) ∧ (NotBracket t.time → s.head? ≠ some '[') := by
  obtain ⟨s', h1, h2, -⟩ := TimingPoint.round_trip h
  rw [hs] at h1
  cases h1
  refine ⟨h2, ?_⟩
  unfold TimingPoint.shw at hs
  obtain ⟨tm, ht, rfl⟩ := Option.map_eq_some_iff.1 hs
  have : ∃ q, join [','] (tm :: TimingPoint.tailFields v t) = tm ++ ',' :: q := by
    cases hq : TimingPoint.tailFields v t with
    | nil =>
      exfalso
      unfold TimingPoint.tailFields at hq
      revert hq
      repeat' split
      all_goals simp
    | cons a b => exact ⟨_, by rw [join_cons_cons]; simp; rfl⟩
  obtain ⟨q, e⟩ := this
  rw [e]
  exact lead_line (h.time.lead ht)

theorem ho_line {v : Nat} {o : HitObject D} (h : HOWritable v o) {s : Str} (hs : o.shw v = some s) :
    LineOK s ∧ (NotIndented o.position.x → HeadNot isMultispace s) ∧ (NotBracket o.position.x → s.head? ≠ some '[') := by
  obtain ⟨s', h1, h2, -⟩ := HitObject.round_trip h
  rw [hs] at h1
  cases h1
  refine ⟨h2, ?_⟩
  have : ∃ q, s = o.position.x.toStr ++ ',' :: q := by
    unfold HitObject.shw at hs
    obtain ⟨tm, ht, hs⟩ := Option.bind_eq_some_iff.1 hs
    simp only [List.cons_append, List.nil_append, join_cons_cons] at hs
    split at hs
    · split at hs <;> (cases hs; exact ⟨_, by simp only [List.append_assoc, List.cons_append, List.nil_append]; rfl⟩)
    · split at hs <;> (cases hs; exact ⟨_, by simp only [List.append_assoc, List.cons_append, List.nil_append]; rfl⟩)
    · obtain ⟨_, _, rfl⟩ := Option.map_eq_some_iff.1 hs
      exact ⟨_, by simp only [List.append_assoc, List.cons_append, List.nil_append]; rfl⟩
    · obtain ⟨_, _, rfl⟩ := Option.map_eq_some_iff.1 hs
      exact ⟨_, by simp only [List.append_assoc, List.cons_append, List.nil_append]; rfl⟩
  obtain ⟨q, rfl⟩ := this
  refine lead_line ?_
  have hx := h.x
  cases ho : o.position.x with
  | left d => rw [ho] at hx; exact .inl ⟨d, hx, rfl⟩
  | right s => exact .inr rfl

theorem lines_wellText {α : Type} {shw : α → Option Str} {lead : α → Decimal D} {l : List α}
    (h : ∀ a ∈ l, ∀ s, shw a = some s → LineOK s ∧ (NotIndented (lead a) → HeadNot isMultispace s) ∧ (NotBracket (lead a) → s.head? ≠ some '['))
    (hs : StartsOK (l.map lead)) (hne : l ≠ []) {t : Str} (ht : printLinesP shw l = some t) : WellText t := by
  unfold printLinesP at ht
  obtain ⟨ls, hl, rfl⟩ := Option.map_eq_some_iff.1 ht
  have key : ∀ {l : List α} {ls : List Str}, l.mapM shw = some ls →
      (∀ a ∈ l, ∀ s, shw a = some s → LineOK s ∧ (NotIndented (lead a) → HeadNot isMultispace s) ∧ (NotBracket (lead a) → s.head? ≠ some '[')) →
      (∀ x ∈ ls, LineOK x) ∧ ((∀ a ∈ l, NotBracket (lead a)) → ∀ x ∈ ls, x.head? ≠ some '[') := by
    intro l
    induction l with
    | nil => intro ls hl h; cases hl; exact ⟨nofun, fun _ => nofun⟩
    | cons a l ih =>
      intro ls hl h
      rw [List.mapM_cons] at hl
      simp only [Option.bind_eq_bind, Option.bind_eq_some_iff] at hl
      obtain ⟨x, hx, xs, hxs, e⟩ := hl
      cases e
      obtain ⟨i1, i2⟩ := ih hxs fun b hb => h b (by simp [hb])
      obtain ⟨j1, -, j3⟩ := h a (by simp) x hx
      constructor
      · intro y hy
        rcases List.mem_cons.1 hy with rfl | hy
        · exact j1
        · exact i1 y hy
      · intro hb y hy
        rcases List.mem_cons.1 hy with rfl | hy
        · exact j3 (hb a (by simp))
        · exact i2 (fun b hb' => hb b (by simp [hb'])) y hy
  cases l with
  | nil => exact absurd rfl hne
  | cons a l =>
    have k1 := (key hl h).1
    rw [List.mapM_cons] at hl
    simp only [Option.bind_eq_bind, Option.bind_eq_some_iff] at hl
    obtain ⟨x, hx, xs, hxs, e⟩ := hl
    cases e
    obtain ⟨s1, s2⟩ := hs
    refine ⟨x :: xs, rfl, by simp, k1, ?_, ?_⟩
    · intro y hy; cases hy; exact (h a (by simp) x hx).2.1 s1
    · exact (key hxs fun b hb => h b (by simp [hb])).2 fun b hb => s2 _ (List.mem_map.2 ⟨b, hb, rfl⟩)

end

end Osu
