/-
The text of a file that reads as the file value it was written for is made of sections that can stand in a file.
-/
import Verif.Props.FileText
import Verif.Props.SectionsExact
import Verif.Props.EventsExact
import Verif.Props.TimingPointsExact
import Verif.Props.HitObjectsExact
import Verif.Proof.FaultsColours

namespace Osu
open Parser Ev

/-! ### Splitting texts in one way -/

theorem headNot_unique {f : Char → Bool} {a a' b b' : Str} (ha : AllC f a) (ha' : AllC f a') (hb : HeadNot f b) (hb' : HeadNot f b')
    (e : a ++ b = a' ++ b') : a = a' ∧ b = b' := by
  have h1 := takeWhile_app ha hb
  have h2 := dropWhile_app ha hb
  rw [e, takeWhile_app ha' hb'] at h1
  rw [e, dropWhile_app ha' hb'] at h2
  exact ⟨h1.symm, h2.symm⟩

/-- A text that is empty or begins with a line feed. -/
def AtEnd (r : Str) : Prop := r = [] ∨ ∃ r', r = '\n' :: r'

theorem AtEnd.head {r : Str} (h : AtEnd r) : HeadNot (fun c => !(c == '\n')) r := by
  rcases h with rfl | ⟨r', rfl⟩
  · exact .nil
  · exact .cons (by decide)

theorem line_unique {u u' r r' : Str} (hu : NoLF u) (hu' : NoLF u') (hr : AtEnd r) (hr' : AtEnd r') (e : u ++ r = u' ++ r') :
    u = u' ∧ r = r' := headNot_unique hu hu' hr.head hr'.head e

theorem name_unique {n n' r r' : Str} (hn : ']' ∉ n) (hn' : ']' ∉ n') (e : n ++ ']' :: r = n' ++ ']' :: r') : n = n' ∧ r = r' := by
  have key : ∀ {m : Str}, ']' ∉ m → AllC (fun c => !(c == ']')) m := by
    intro m hm c hc
    have : c ≠ ']' := by rintro rfl; exact hm hc
    simpa using this
  obtain ⟨h1, h2⟩ := headNot_unique (key hn) (key hn') (.cons (by decide)) (.cons (by decide)) e
  exact ⟨h1, (List.cons.inj h2).2⟩

/-! ### A header is not read as the content of a section -/

section
variable {D : Type} [DecLib D] [UniLib]

theorem kv_not_bracket {S : Schema} (hS : S.Lawful) (hb : ∀ k, (S.name k).head? ≠ some '[') (hn : ∀ k, S.name k ≠ []) {v : Nat} {s : Str}
    {sec : S.Section} (h : S.fromStr v s = .ok sec) : s.head? ≠ some '[' := by
  obtain ⟨es, r, ⟨hs, -⟩, hr, -, hk, -⟩ := (Schema.fromStr_ok_iff hS v s sec).1 h
  cases hs with
  | nil =>
    intro e
    cases s with
    | nil => cases e
    | cons c s =>
      cases e
      have := (trim_eq_nil.1 hr).of_cons.1
      revert this; decide
  | @cons l gap t es r _ _ _ _ _ _ _ _ _ =>
    obtain ⟨k, e, -⟩ := hk (l, gap) (by simp)
    have h1 := hb k
    have h2 := hn k
    have e : S.name k = l.key := e
    rw [e] at h1 h2
    unfold KVLine.text
    cases hl : l.key with
    | nil => exact absurd hl h2
    | cons c q => rw [hl] at h1; simpa using h1

theorem general_ne (k : GKey) : (General D).name k ≠ [] := by show GKey.name k ≠ []; cases k <;> decide
theorem editor_ne (k : EKey) : (Editor D).name k ≠ [] := by show EKey.name k ≠ []; cases k <;> decide
theorem metadata_ne (k : MKey) : Metadata.name k ≠ [] := by cases k <;> decide
theorem difficulty_ne (k : DKey) : (Difficulty D).name k ≠ [] := by show DKey.name k ≠ []; cases k <;> decide

theorem splitOnC_two {l p q : Str} {ps : List Str} (h : splitOnC ',' l = p :: q :: ps) : ',' ∈ l := by
  have := join_splitOnC ',' l
  rw [h, join_cons_cons] at this
  rw [← this]; simp

theorem tp_comma {v : Nat} {l : Str} {t : TimingPoint D} (h : TimingPoint.parse v l = .ok t) : ',' ∈ l := by
  obtain ⟨p, q, qs, e, -, -⟩ := tp_reads_head (TimingPoint.parse_iff.1 h)
  exact splitOnC_two e

theorem ho_comma {v : Nat} {l : Str} {o : HitObject D} (h : HitObject.parse v l = .ok o) : ',' ∈ l := by
  have h := HitObject.parse_iff.1 h
  generalize hps : splitOnC ',' l = ps at h
  cases h <;> exact splitOnC_two hps

/-- The first line of a section that is read line by line. -/
theorem first_item {E α : Type} {f : Str → Res E α} {u rest : Str} {as : List α} (hu : NoLF u) (hcr : NoEndCR u)
    (hr : AtEnd rest) (hnb : nonBlank u = true) (h : parseLines f (u ++ rest) = .ok as) : ∃ a, f u = .ok a := by
  have hune : u ≠ [] := by rintro rfl; revert hnb; decide
  have : ∃ us, lines (u ++ rest) = u :: us := by
    rcases hr with rfl | ⟨r, rfl⟩
    · exact ⟨[], by rw [List.append_nil, lines_single hu hune]⟩
    · exact ⟨_, lines_append_nl hu hcr r⟩
  obtain ⟨us, e⟩ := this
  rw [parseLines_ok_iff, e, List.filter_cons_of_pos hnb, List.map_cons] at h
  cases as with
  | nil => cases h
  | cons a as => exact ⟨a, (List.cons.inj h).1⟩

theorem colour_bracket {l : Str} {c : Colour} (h : ColourReads l c) : l.head? ≠ some '[' := by
  cases h with
  | mk hn hb ht => cases hn <;> simp

theorem header_line (m : SName) : NoLF ('[' :: (m.text ++ [']'])) ∧ NoEndCR ('[' :: (m.text ++ [']'])) ∧
    nonBlank ('[' :: (m.text ++ [']'])) = true ∧ ',' ∉ '[' :: (m.text ++ [']']) ∧ trim ('[' :: (m.text ++ [']'])) = '[' :: (m.text ++ [']']) := by
  cases m <;> decide

theorem not_header {f : OsuFile D} {v : Nat} {n m : SName} {z : Str} (hz : AtEnd z) (hcol : n = .colours → f.colours ≠ none)
    (h : SectReads v f ('[' :: (m.text ++ [']']) ++ z) n) : False := by
  obtain ⟨h1, h2, h3, h4, h5⟩ := header_line m
  cases n
  case general => obtain ⟨x, h, -⟩ := h; exact kv_not_bracket (General_lawful D) general_bracket general_ne h rfl
  case editor => obtain ⟨x, h, -⟩ := h; exact kv_not_bracket (Editor_lawful D) editor_bracket editor_ne h rfl
  case metadata => obtain ⟨x, h, -⟩ := h; exact kv_not_bracket Metadata_lawful metadata_bracket metadata_ne h rfl
  case difficulty => obtain ⟨x, h, -⟩ := h; exact kv_not_bracket (Difficulty_lawful D) difficulty_bracket difficulty_ne h rfl
  case events =>
    obtain ⟨x, h, -⟩ := h
    rw [Events.parse, events_reads_vars] at h
    have hm : '[' :: (m.text ++ [']']) ∈ (lines ('[' :: (m.text ++ [']']) ++ z)).filter nonBlank := by
      refine List.mem_filter.2 ⟨?_, h3⟩
      rcases hz with rfl | ⟨r, rfl⟩
      · rw [List.append_nil, lines_single h1 (by simp)]; simp
      · rw [lines_append_nl h1 h2]; simp
    exact (sectionReads_start h).2 _ hm rfl
  case timingPoints =>
    obtain ⟨x, h, -⟩ := h
    obtain ⟨a, h⟩ := first_item h1 h2 hz h3 h
    exact h4 (tp_comma h)
  case hitobjects =>
    obtain ⟨x, h, -⟩ := h
    obtain ⟨a, h⟩ := first_item h1 h2 hz h3 h
    exact h4 (ho_comma h)
  case colours =>
    obtain ⟨x, h, e⟩ := h
    cases x with
    | none => exact hcol rfl e
    | some l =>
      have hv : ¬ (3 ≤ v ∧ v ≤ 4) := fun hv => by
        have := (C07_colours_gate h).2 hv; cases this
      rw [Colours.parse, if_neg hv] at h
      have : ∃ l', parseLines Colour.parse ('[' :: (m.text ++ [']']) ++ z) = .ok l' := by
        cases hp : parseLines Colour.parse ('[' :: (m.text ++ [']']) ++ z) with
        | ok l' => exact ⟨l', rfl⟩
        | err e => rw [hp] at h; cases h
        | panic => rw [hp] at h; cases h
      obtain ⟨l', h⟩ := this
      obtain ⟨a, h⟩ := first_item h1 h2 hz h3 h
      have := colour_bracket (Colour.ok_iff.1 h)
      rw [h5] at this
      exact this rfl

/-! ### Lines that are written -/

theorem lead_start {x : Decimal D} {t q : Str} (ht : (∃ d : D, t = DecLib.shw d) ∨ x = .right t) :
    (NotIndented x → HeadNot isMultispace (t ++ ',' :: q)) ∧ (NotBracket x → (t ++ ',' :: q).head? ≠ some '[') := by
  rcases ht with ⟨d, rfl⟩ | rfl
  · cases h : DecLib.shw d with
    | nil => exact ⟨fun _ => .cons (by decide), fun _ => by simp⟩
    | cons c r =>
      obtain ⟨h1, h2⟩ := decChar_start (DecLib.shw_chars d c (by rw [h]; simp))
      exact ⟨fun _ => .cons h1, fun _ => by simpa using h2⟩
  · cases t with
    | nil => exact ⟨fun _ => .cons (by decide), fun _ => by simp⟩
    | cons c t => exact ⟨fun h => .cons (HeadNot.of_cons h), fun h => by simpa [NotBracket] using h⟩

theorem comma_nonBlank {s : Str} (h : ',' ∈ s) : nonBlank s = true := by
  rw [nonBlank_iff, Ne, trim_eq_nil]
  intro hw
  have := hw _ h
  revert this; decide

/-- A line written for an item, when no line of the text of the section ends in a carriage return. -/
structure ItemLine (x : Decimal D) (s : Str) : Prop where
  line : LineOK s
  comma : ',' ∈ s
  start : (NotIndented x → HeadNot isMultispace s) ∧ (NotBracket x → s.head? ≠ some '[')

theorem tp_item {v : Nat} {t : TimingPoint D} {s : Str} (hs : t.shw v = some s) (hlf : '\n' ∉ t.time.text ∧ '\n' ∉ t.beatLength.text)
    (hcr : NoEndCR s) : ItemLine t.time s := by
  have hc := tp_line_comma hs
  refine ⟨⟨noC_mem.2 fun h => ?_, hcr, comma_nonBlank hc⟩, hc, ?_⟩
  · rcases (tp_line_char hs (by decide) (by decide) (by decide)).1 h with h | h
    · exact hlf.1 h
    · exact hlf.2 h
  · obtain ⟨p, hp, rfl⟩ := Option.map_eq_some_iff.1 hs
    obtain ⟨qs, hqs⟩ := tailFields_cons v t
    rw [hqs, join_cons_cons, List.append_assoc]
    refine lead_start ?_
    cases ht : t.time with
    | right u => rw [ht] at hp; cases hp; exact .inr rfl
    | left d =>
      left
      rw [ht] at hp
      simp only [Decimal.toStrShifted] at hp
      split at hp
      · obtain ⟨d', -, rfl⟩ := Option.map_eq_some_iff.1 hp; exact ⟨d', rfl⟩
      · cases hp; exact ⟨d, rfl⟩

theorem ho_item {v : Nat} {o : HitObject D} {s : Str} (hs : o.shw v = some s) (hlf : ∀ t ∈ o.texts ++ o.pointTexts, '\n' ∉ t)
    (hcr : NoEndCR s) : ItemLine o.position.x s := by
  have hlf' : '\n' ∉ s := fun h => by
    obtain ⟨t, ht, hm⟩ := ho_line_lf hs (.inl rfl) h
    exact hlf t ht hm
  have key : ',' ∈ s ∧ ((NotIndented o.position.x → HeadNot isMultispace s) ∧ (NotBracket o.position.x → s.head? ≠ some '[')) := by
    rw [ho_shw_form] at hs
    obtain ⟨tm, htm, hs⟩ := Option.bind_eq_some_iff.1 hs
    obtain ⟨ts, hts, rfl⟩ := Option.map_eq_some_iff.1 hs
    rw [preC]
    refine ⟨by simp, lead_start ?_⟩
    cases o.position.x with
    | left d => exact .inl ⟨d, rfl⟩
    | right u => exact .inr rfl
  exact ⟨⟨noC_mem.2 hlf', hcr, comma_nonBlank key.1⟩, key.1, key.2⟩

/-- The first line of a section that is written line by line. -/
theorem items_first {α : Type} {shw : α → Option Str} {lead : α → Decimal D} {l : List α} {t : Str}
    (h : ∀ a ∈ l, ∀ s, shw a = some s → ItemLine (lead a) s) (hne : l ≠ []) (ht : printLinesP shw l = some t) :
    ∃ u z, t = u ++ z ∧ AtEnd z ∧ NoLF u ∧ ',' ∈ u := by
  unfold printLinesP at ht
  obtain ⟨ls, hl, rfl⟩ := Option.map_eq_some_iff.1 ht
  cases l with
  | nil => exact absurd rfl hne
  | cons a l =>
    rw [List.mapM_cons] at hl
    obtain ⟨s, hs, hl⟩ := Option.bind_eq_some_iff.1 hl
    obtain ⟨ls', hl', hl⟩ := Option.bind_eq_some_iff.1 hl
    cases hl
    have := h a (by simp) s hs
    cases ls' with
    | nil => exact ⟨s, [], by simp [join], .inl rfl, this.line.lf, this.comma⟩
    | cons x xs => exact ⟨s, '\n' :: join ['\n'] (x :: xs), by rw [join_cons_cons]; simp, .inr ⟨_, rfl⟩, this.line.lf, this.comma⟩

theorem items_noEndCR {α : Type} {shw : α → Option Str} {l : List α} {t : Str} (ht : printLinesP shw l = some t) (hcr : CleanEnds t) :
    ∀ a ∈ l, ∀ s, shw a = some s → NoEndCR s := by
  unfold printLinesP at ht
  obtain ⟨ls, hl, rfl⟩ := Option.map_eq_some_iff.1 ht
  have key : ∀ {l : List α} {ls : List Str}, l.mapM shw = some ls → ∀ a ∈ l, ∀ s, shw a = some s → s ∈ ls := by
    intro l
    induction l with
    | nil => nofun
    | cons a l ih =>
      intro ls hl
      rw [List.mapM_cons] at hl
      obtain ⟨s, hs, hl⟩ := Option.bind_eq_some_iff.1 hl
      obtain ⟨ls', hl', hl⟩ := Option.bind_eq_some_iff.1 hl
      cases hl
      intro b hb s' hs'
      rcases List.mem_cons.1 hb with rfl | hb
      · rw [hs] at hs'; cases hs'; exact List.mem_cons_self
      · exact List.mem_cons_of_mem _ (ih hl' b hb s' hs')
  exact fun a ha s hs => cleanEnds_join hcr s (key hl a ha s hs)

/-! ### A section that reads as what it was written for -/

/-- What stands after the header of a section with the text `t`. -/
inductive UnderHeader (t : Str) : Str → Prop
  | last : UnderHeader t ('\n' :: t)
  | lastShort {R : Str} (h : R ++ ['\n'] = '\n' :: t) : UnderHeader t R
  | more {m : SName} {z : Str} (hz : AtEnd z) : UnderHeader t ('\n' :: (t ++ '\n' :: '\n' :: ('[' :: (m.text ++ [']']) ++ z)))

theorem items_well {E α : Type} {f : Str → Res E α} {shw : α → Option Str} {lead : α → Decimal D} (hf : ∀ l a, f l = .ok a → LeadOf l (lead a))
    {l : List α} {t : Str} (h : ∀ a ∈ l, ∀ s, shw a = some s → ItemLine (lead a) s) (ht : printLinesP shw l = some t) (hne : l ≠ [])
    {R ws body s' : Str} (hR : UnderHeader t R) (e : R = ws ++ (body ++ s')) (hw : AllC isMultispace ws) (hb : HeadNot isMultispace (body ++ s'))
    (he : BodyEnds body s') (hbn : body ≠ []) (hcr : CleanEnds body) (hr : parseLines f body = .ok l) : WellText t := by
  obtain ⟨u, z, et, hz, hu, hc⟩ := items_first h hne ht
  obtain ⟨z', hz', eR⟩ : ∃ z', AtEnd z' ∧ R = '\n' :: (u ++ z') := by
    cases hR with
    | last => exact ⟨z, hz, by rw [et]⟩
    | more hz2 =>
      refine ⟨_, ?_, by rw [et, List.append_assoc]⟩
      rcases hz with rfl | ⟨q, rfl⟩
      · exact .inr ⟨_, rfl⟩
      · exact .inr ⟨_, rfl⟩
    | lastShort h =>
      rw [et] at h
      rcases List.eq_nil_or_concat z with rfl | ⟨z0, c, rfl⟩
      · exfalso
        rw [List.append_nil] at h
        have hh := congrArg List.getLast? h
        rw [List.getLast?_append] at hh
        cases u with
        | nil => cases hc
        | cons a b =>
          simp only [List.getLast?_singleton, Option.some_or, List.getLast?_cons_cons] at hh
          have := hu _ (List.mem_of_getLast? hh.symm)
          revert this; decide
      · have h' : R ++ ['\n'] = ('\n' :: (u ++ z0)) ++ [c] := by rw [h]; simp
        refine ⟨z0, ?_, List.append_inj_left' h' rfl⟩
        rcases hz with hz | ⟨q, hz⟩
        · simp at hz
        · cases z0 with
          | nil => exact .inl rfl
          | cons a b => simp only [List.concat_eq_append, List.cons_append, List.cons.injEq] at hz; exact .inr ⟨b, by rw [hz.1]⟩
  -- the blanks that are skipped are the line feed and the blanks the first line begins with
  have hsplit : ∃ p q, u = p ++ q ∧ AllC isMultispace p ∧ HeadNot isMultispace (q ++ z') ∧ ',' ∈ q := by
    refine ⟨u.takeWhile isMultispace, u.dropWhile isMultispace, (List.takeWhile_append_dropWhile).symm, takeWhile_allC _ _, ?_, ?_⟩
    · cases hd : u.dropWhile isMultispace with
      | nil =>
        exfalso
        have := List.takeWhile_append_dropWhile (p := isMultispace) (l := u)
        rw [hd, List.append_nil] at this
        rw [← this] at hc
        have := takeWhile_allC isMultispace u _ hc
        revert this; decide
      | cons c q =>
        have := dropWhile_head (f := isMultispace) (a := u) (x := c) (by rw [hd]; rfl)
        exact .cons this
    · have hx := hc
      rw [← List.takeWhile_append_dropWhile (p := isMultispace) (l := u)] at hx
      rcases List.mem_append.1 hx with hx | hx
      · exact absurd (takeWhile_allC isMultispace u _ hx) (by decide)
      · exact hx
  obtain ⟨p, q, eu, hp, hq, hcq⟩ := hsplit
  have ebody : body ++ s' = q ++ z' := by
    have : ws ++ (body ++ s') = ('\n' :: p) ++ (q ++ z') := by rw [← e, eR, eu]; simp
    exact (headNot_unique hw (.cons (by decide) hp) hb hq this).2
  have hh : HeadNot isMultispace body := by
    cases body with
    | nil => exact absurd rfl hbn
    | cons c b => exact .cons hb.of_cons
  have hqu : NoLF q := fun c hc => hu c (by rw [eu]; simp [hc])
  obtain ⟨-, hst⟩ := items_start_of hf hcr hh he.2 (fun u' rest eb hu' hr' => by
    have h1 : AtEnd (rest ++ s') := by
      rcases hr' with rfl | ⟨r, rfl⟩
      · exact he.1.imp (fun h => by simpa using h) fun ⟨r, h⟩ => ⟨_, by simpa using h⟩
      · exact .inr ⟨_, rfl⟩
    have h2 : u' ++ (rest ++ s') = q ++ z' := by rw [← ebody, eb]; simp
    obtain ⟨rfl, -⟩ := line_unique hu' hqu h1 hz' h2
    exact comma_nonBlank hcq) hbn hr
  exact lines_wellText (fun a ha s hs => ⟨(h a ha s hs).line, (h a ha s hs).start⟩) hst hne ht

theorem block_nonempty {f : OsuFile D} {n : SName} (hcol : n = .colours → f.colours ≠ none) {R ws body s' : Str} (hR : UnderHeader [] R)
    (e : R = ws ++ (body ++ s')) (hw : AllC isMultispace ws) (hb : HeadNot isMultispace (body ++ s')) (he : BodyEnds body s') (hbn : body ≠ [])
    {v : Nat} (hr : SectReads v f body n) : False := by
  have hms : ∀ {w}, AllC isMultispace w → w = ws ++ (body ++ s') → False := by
    intro w hw' e
    cases body with
    | nil => exact hbn rfl
    | cons c b =>
      have h1 := hb.of_cons
      have h2 := hw' c (by rw [e]; simp)
      rw [h1] at h2; cases h2
  cases hR with
  | last => exact hms (.cons (by decide) .nil) e
  | lastShort h =>
    have : R = [] := by
      cases R with
      | nil => rfl
      | cons a b => have := congrArg List.length h; simp at this
    subst this
    exact hms .nil e
  | @more m z hz =>
    obtain ⟨h1, -⟩ := header_line m
    have hsp := headNot_unique (a := ['\n', '\n', '\n']) (b := '[' :: (m.text ++ [']']) ++ z) (.cons (by decide) (.cons (by decide) (.cons (by decide) .nil))) hw
      (.cons (by decide)) hb e
    obtain ⟨u, rest, eb, hu, hr'⟩ := firstLine_split body
    have h2 : AtEnd (rest ++ s') := by
      rcases hr' with rfl | ⟨r, rfl⟩
      · exact he.1.imp (fun h => by simpa using h) fun ⟨r, h⟩ => ⟨_, by simpa using h⟩
      · exact .inr ⟨_, rfl⟩
    obtain ⟨rfl, -⟩ := line_unique h1 hu hz h2 (by rw [hsp.2, eb]; simp)
    rw [eb] at hr
    exact not_header hr' hcol hr

/-- A section that reads as what it was written for has a text that can stand in a file. -/
theorem block_well {f : OsuFile D} {n : SName} {t : Str} (hp : SectPrints f (some t) n) (hct : CleanEnds t) {R ws body s' : Str} (hR : UnderHeader t R)
    (e : R = ws ++ (body ++ s')) (hw : AllC isMultispace ws) (hb : HeadNot isMultispace (body ++ s')) (he : BodyEnds body s') (hbn : body ≠ [])
    (hcr : CleanEnds body) (hr : SectReads f.version f body n) : WellText t := by
  have hcol : n = .colours → f.colours ≠ none := by
    rintro rfl h
    have hp : some t = f.colours.bind (Colours.shw f.version) := hp
    rw [h] at hp; cases hp
  have hne : t ≠ [] := by
    rintro rfl
    exact block_nonempty hcol hR e hw hb he hbn hr
  cases n
  case general =>
    have hp : some t = f.general.map _ := hp
    obtain ⟨sec, hsec, rfl⟩ := Option.map_eq_some_iff.1 hp.symm
    obtain ⟨x, h1, h2⟩ := hr
    rw [hsec] at h2; cases h2
    exact Schema.wellText (General_lawful D) general_bracket (fun k y t hy hyt => (GKey.field _ k y t (C04_general_read h1 k y hy) hyt).1) hne
  case editor =>
    have hp : some t = f.editor.map _ := hp
    obtain ⟨sec, hsec, rfl⟩ := Option.map_eq_some_iff.1 hp.symm
    obtain ⟨x, h1, h2⟩ := hr
    rw [hsec] at h2; cases h2
    exact Schema.wellText (Editor_lawful D) editor_bracket (fun k y t hy hyt => (EKey.field _ k y t (C04_editor_read h1 k y hy) hyt).1) hne
  case metadata =>
    have hp : some t = f.metadata.map _ := hp
    obtain ⟨sec, hsec, rfl⟩ := Option.map_eq_some_iff.1 hp.symm
    obtain ⟨x, h1, h2⟩ := hr
    rw [hsec] at h2; cases h2
    exact Schema.wellText Metadata_lawful metadata_bracket (fun k y t hy hyt => (MKey.field _ k y t (C04_metadata_read h1 k y hy) hyt).1) hne
  case difficulty =>
    have hp : some t = f.difficulty.map _ := hp
    obtain ⟨sec, hsec, rfl⟩ := Option.map_eq_some_iff.1 hp.symm
    obtain ⟨x, h1, h2⟩ := hr
    rw [hsec] at h2; cases h2
    exact Schema.wellText (Difficulty_lawful D) difficulty_bracket (fun k y t hy hyt => by cases hyt; exact DecOK.good (C04_difficulty_read h1 k y hy)) hne
  case events =>
    rcases hp with ⟨-, h⟩ | ⟨x, t', hx, ht, h⟩
    · cases h
    cases h
    obtain ⟨y, h1, h2⟩ := hr
    rw [hx] at h2; cases h2
    have hw' : ∀ e ∈ x.filter (writtenIn f.version), EvFits f.version e := fun e he =>
      read_writableC (cr := true) nofun h1 e (List.mem_filter.1 he).1 (List.mem_filter.1 he).2
    have hf' : Events.shw f.version (x.filter (writtenIn f.version)) = Events.shw f.version x := shwVars_filter f.version [] x
    obtain ⟨t', g1, g2, ls, g4, g5, -⟩ := events_round_trip_fits hw' (fun _ s hs => by rw [hf', ht] at hs; cases hs; exact hct)
    rw [hf', ht] at g1; cases g1
    refine events_wellText g2 g4 g5 ?_
    rintro rfl
    exact hne g4
  case timingPoints =>
    rcases hp with ⟨-, h⟩ | ⟨x, t', hx, ht, h⟩
    · cases h
    cases h
    obtain ⟨y, h1, h2⟩ := hr
    rw [hx] at h2; cases h2
    refine items_well (lead := TimingPoint.time) (fun _ _ => tp_lead) (fun a ha s hs => ?_) ht (by rintro rfl; cases ht; exact hne rfl)
      hR e hw hb he hbn hcr h1
    obtain ⟨l, hl, -, hf⟩ := parseLines_mem h1 a ha
    have hlf := noC_mem.1 (lines_noLF _ l hl)
    exact tp_item hs ⟨fun h => hlf (tp_texts hf (.inl h)), fun h => hlf (tp_texts hf (.inr h))⟩ (items_noEndCR ht hct a ha s hs)
  case colours =>
    have hp : some t = f.colours.bind (Colours.shw f.version) := hp
    obtain ⟨x, hx, ht⟩ := Option.bind_eq_some_iff.1 hp.symm
    refine colours_wellText ht ?_
    rintro rfl
    unfold Colours.shw at ht
    split at ht
    · cases ht
    · cases ht; exact hne rfl
  case hitobjects =>
    rcases hp with ⟨-, h⟩ | ⟨x, t', hx, ht, h⟩
    · cases h
    cases h
    obtain ⟨y, h1, h2⟩ := hr
    rw [hx] at h2; cases h2
    refine items_well (lead := fun o : HitObject D => o.position.x) (fun _ _ => ho_lead) (fun a ha s hs => ?_) ht (by rintro rfl; cases ht; exact hne rfl)
      hR e hw hb he hbn hcr h1
    obtain ⟨l, hl, -, hf⟩ := parseLines_mem h1 a ha
    have hlf := noC_mem.1 (lines_noLF _ l hl)
    exact ho_item hs (fun t ht h => hlf (ho_texts hf (by decide) ht h)) (items_noEndCR ht hct a ha s hs)

/-! ### All sections of a file -/

/-- A text, maybe without its last line feed. -/
def Near (T J : Str) : Prop := T = J ∨ T ++ ['\n'] = J

theorem Near.tail {T A J : Str} (h : Near T (A ++ J)) (hJ : J ≠ []) : ∃ T', T = A ++ T' ∧ Near T' J := by
  rcases h with rfl | h
  · exact ⟨J, rfl, .inl rfl⟩
  · obtain ⟨J', c, rfl⟩ := (List.eq_nil_or_concat J).resolve_left hJ
    rw [List.concat_eq_append, ← List.append_assoc] at h
    have hc : ['\n'] = [c] := List.append_inj_right' h rfl
    refine ⟨J', List.append_inj_left' h rfl, .inr ?_⟩
    rw [List.concat_eq_append, hc]

theorem blocks_well {f : OsuFile D} {bs : List (Str × Str)} (h : ∀ b ∈ bs, ∃ n : SName, n.text = b.1 ∧ SectPrints f (some b.2) n ∧ CleanEnds b.2) :
    ∀ {w T rest : Str} {xs : List Sect}, AllC isMultispace w → Near T (join ['\n', '\n'] (bs.map blockText)) → Sections (w ++ T) xs rest →
      CleanEnds T → (∀ x ∈ xs, x.body ≠ [] ∧ ∃ n : SName, n.text = x.name ∧ SectReads f.version f x.body n) → ∀ b ∈ bs, WellText b.2 := by
  induction bs with
  | nil => intros; contradiction
  | cons b bs ih =>
    intro w T rest xs hw hn hs hcr hx
    obtain ⟨n, hnm, hpr, hct⟩ := h b (by simp)
    have hnameOK : NameOK b.1 := hnm ▸ n.nameOK
    -- the text after the header
    have hT : ∃ R, T = '[' :: (b.1 ++ ']' :: R) ∧ UnderHeader b.2 R ∧
        (bs ≠ [] → ∃ T2, R = '\n' :: (b.2 ++ '\n' :: '\n' :: T2) ∧ Near T2 (join ['\n', '\n'] (bs.map blockText)) ∧ ∃ r, T2 = '[' :: r) := by
      cases bs with
      | nil =>
        have e : join ['\n', '\n'] ([b].map blockText) = ('[' :: (b.1 ++ [']'])) ++ ('\n' :: b.2) := by simp [join, blockText]
        rw [e] at hn
        obtain ⟨R, rfl, hR⟩ := hn.tail (by simp)
        refine ⟨R, by simp, ?_, fun h => absurd rfl h⟩
        rcases hR with rfl | hR
        · exact .last
        · exact .lastShort hR
      | cons b' bs =>
        obtain ⟨m, hm, -⟩ := h b' (by simp)
        have e : join ['\n', '\n'] ((b :: b' :: bs).map blockText) =
            ('[' :: (b.1 ++ ']' :: '\n' :: (b.2 ++ ['\n', '\n']))) ++ join ['\n', '\n'] ((b' :: bs).map blockText) := by
          rw [List.map_cons, List.map_cons, join_cons_cons]; simp [blockText]
        have e2 : ∃ q, join ['\n', '\n'] ((b' :: bs).map blockText) = ('[' :: (b'.1 ++ [']'])) ++ ('\n' :: q) := by
          cases bs with
          | nil => exact ⟨b'.2, by simp [join, blockText]⟩
          | cons b2 bs => exact ⟨_, by rw [List.map_cons, List.map_cons, join_cons_cons]; simp [blockText]; rfl⟩
        obtain ⟨q, e2⟩ := e2
        rw [e] at hn
        obtain ⟨T2, rfl, h2⟩ := hn.tail (by rw [e2]; simp)
        have h2' := h2
        rw [e2] at h2
        obtain ⟨z, rfl, hz⟩ := h2.tail (by simp)
        have hz' : AtEnd z := by
          rcases hz with rfl | hz
          · exact .inr ⟨q, rfl⟩
          · cases z with
            | nil => exact .inl rfl
            | cons a z => exact .inr ⟨z, by rw [(List.cons.inj hz).1]⟩
        refine ⟨'\n' :: (b.2 ++ '\n' :: '\n' :: ('[' :: (b'.1 ++ [']']) ++ z)), by simp, ?_, fun _ => ⟨_, rfl, h2', _, rfl⟩⟩
        rw [← hm]
        exact .more hz'
    obtain ⟨R, rfl, hR, hmore⟩ := hT
    have hwell : WellText b.2 := by
      generalize eT : w ++ '[' :: (b.1 ++ ']' :: R) = TT at hs
      cases hs with
      | nil hno => exact absurd ⟨w, b.1, R, eT.symm, hw, hnameOK⟩ hno
      | @cons x s' xs' _ hxw hxn hxw2 hxb hxe hs' =>
        obtain ⟨-, e1⟩ := headNot_unique hw hxw (.cons (by decide)) (.cons (by decide)) eT
        obtain ⟨e2, e3⟩ := name_unique hnameOK.1 hxn.1 (List.cons.inj e1).2
        obtain ⟨g1, m, g2, g3⟩ := hx x (by simp)
        have := SName.text_inj (g2.trans (e2.symm.trans hnm.symm))
        subst this
        refine block_well hpr hct hR e3 hxw2 hxb hxe g1 ?_ g3
        have h1 : CleanEnds (x.body ++ s') := CleanEnds.suffix (a := '[' :: (b.1 ++ ']' :: x.ws2)) (by rw [e3] at hcr; simpa using hcr)
        rcases hxe.1 with rfl | ⟨r, rfl⟩
        · simpa using h1
        · exact h1.prefix
    intro c hc
    rcases List.mem_cons.1 hc with rfl | hc
    · exact hwell
    · have hbs : bs ≠ [] := by rintro rfl; cases hc
      obtain ⟨T2, rfl, hn2, r, eT2⟩ := hmore hbs
      obtain ⟨xs2, r2, h2⟩ := sections_exists (['\n'] ++ T2)
      have hnew : Sections (w ++ '[' :: (b.1 ++ ']' :: (['\n'] ++ ((b.2 ++ ['\n']) ++ (['\n'] ++ T2))))) (⟨w, b.1, ['\n'], b.2 ++ ['\n']⟩ :: xs2) r2 := by
        refine .cons (x := ⟨w, b.1, ['\n'], b.2 ++ ['\n']⟩) hw hnameOK (.cons (by decide) .nil) ?_ ⟨.inr ⟨r, by rw [eT2]; rfl⟩, ?_⟩ h2
        · have h1 := hwell.head
          obtain ⟨d, t, e⟩ := List.exists_cons_of_ne_nil hwell.ne_nil
          show HeadNot isMultispace (b.2 ++ ['\n'] ++ _)
          rw [e] at h1 ⊢
          exact .cons h1.of_cons
        · intro a q e
          rcases List.eq_nil_or_concat q with rfl | ⟨q', z, rfl⟩
          · have := congrArg List.getLast? (show b.2 ++ ['\n'] = (a ++ ['\n']) ++ ['['] by rw [show b.2 ++ ['\n'] = _ from e]; simp)
            simp at this
          · have e : b.2 ++ ['\n'] = (a ++ '\n' :: '[' :: q') ++ [z] := by
              rw [show b.2 ++ ['\n'] = _ from e]; simp
            exact hwell.noBracket a q' (List.append_inj_left' e rfl)
      have eq : w ++ '[' :: (b.1 ++ ']' :: '\n' :: (b.2 ++ '\n' :: '\n' :: T2)) =
          w ++ '[' :: (b.1 ++ ']' :: (['\n'] ++ ((b.2 ++ ['\n']) ++ (['\n'] ++ T2)))) := by simp
      rw [eq] at hs
      obtain ⟨rfl, -⟩ := sections_unique hs hnew
      exact ih (fun x hx => h x (by simp [hx])) (.cons (by decide) .nil) hn2 h2 (CleanEnds.suffix (a := '[' :: (b.1 ++ ']' :: '\n' :: (b.2 ++ ['\n', '\n']))) (by simpa using hcr)) (fun x hxm => hx x (by simp [hxm])) c hc

theorem blocks_cleanEnds {bs : List (Str × Str)} (h : CleanEnds (join ['\n', '\n'] (bs.map blockText))) : ∀ b ∈ bs, CleanEnds b.2 := by
  induction bs with
  | nil => nofun
  | cons a bs ih =>
    intro b hb
    have hblk : ∀ {a : Str × Str}, CleanEnds (blockText a) → CleanEnds a.2 := fun {a} h =>
      CleanEnds.suffix (a := '[' :: (a.1 ++ [']', '\n'])) (by simpa [blockText] using h)
    cases bs with
    | nil =>
      have := List.mem_singleton.1 hb
      subst this
      exact hblk (by simpa [join] using h)
    | cons a' bs =>
      rw [List.map_cons, List.map_cons, join_cons_cons] at h
      rcases List.mem_cons.1 hb with rfl | hb
      · exact hblk (CleanEnds.prefix (b := '\n' :: join ['\n', '\n'] (blockText a' :: bs.map blockText)) (by simpa using h))
      · exact ih (CleanEnds.suffix (a := blockText a ++ ['\n', '\n']) (by simpa using h)) b hb

/-- Every section of a file that reads as the value it was written for can stand in a file. -/
theorem file_well {f : OsuFile D} {s : Str} {p : SName → Option Str} (hp : ∀ n, SectPrints f (p n) n)
    (hs : s = fileText (natToStr f.version) (listed p)) (hcr : CleanEnds s) (h : OsuFile.parse s = .ok f) : ∀ b ∈ listed p, WellText b.2 := by
  obtain ⟨ws, num, r, pre, xs, rest, hv, hk, hl, -, hf⟩ := (C53_exact s f).1 h
  obtain ⟨-, -, -, h4, -⟩ := hf
  have hkv := known_nat (v := f.version) ⟨hk.2.1, hk.2.2⟩
  have hnum : '\r' ∉ natToStr f.version ∧ '\n' ∉ natToStr f.version := by
    obtain ⟨u, hu, -⟩ := knownVersion_iff.1 hkv
    have := (parseU8_chars hu).2
    constructor <;> (intro hm; exact absurd (this _ hm) (by decide))
  have hver : Versioned s [] (natToStr f.version) (c!"\n\n" ++ join ['\n', '\n'] ((listed p).map blockText)) :=
    ⟨⟨[], .inl rfl, by rw [hs]; simp [fileText]⟩, .nil, hnum.1, hnum.2, .inr ⟨_, .inr rfl⟩⟩
  obtain ⟨-, -, rfl⟩ := versioned_unique hv hver
  have hJ : CleanEnds (join ['\n', '\n'] ((listed p).map blockText)) := by
    rw [hs] at hcr
    exact CleanEnds.suffix (a := _) hcr
  have hmem := blocks_cleanEnds hJ
  cases hbs : listed p with
  | nil => nofun
  | cons b bs =>
    obtain ⟨ls, h1, h2, h3, hsec⟩ := hl
    obtain ⟨n, -, hn⟩ := listed_mem.1 (show b ∈ listed p by rw [hbs]; simp)
    have hline : ∃ ms, lines (join ['\n', '\n'] ((b :: bs).map blockText)) = ('[' :: (n.text ++ [']'])) :: ms := by
      have : ∃ q, join ['\n', '\n'] ((b :: bs).map blockText) = '[' :: (n.text ++ [']']) ++ '\n' :: q := by
        rw [hn]
        cases bs with
        | nil => exact ⟨b.2, by simp [join, blockText]⟩
        | cons b2 bs => exact ⟨_, by rw [List.map_cons, List.map_cons, join_cons_cons]; simp [blockText]; rfl⟩
      obtain ⟨q, e⟩ := this
      obtain ⟨k1, k2, -⟩ := header_line n
      exact ⟨_, by rw [e]; exact lines_append_nl k1 k2 q⟩
    obtain ⟨ms, hms⟩ := hline
    have hls : ls = lines (join ['\n', '\n'] ((b :: bs).map blockText)) := by
      have e0 : lines (c!"\n\n" ++ join ['\n', '\n'] ((b :: bs).map blockText)) = [[], []] ++ lines (join ['\n', '\n'] ((b :: bs).map blockText)) := by
        show lines ([] ++ '\n' :: ([] ++ '\n' :: _)) = _
        rw [lines_append_nl .nil (by simp [NoEndCR]), lines_append_nl .nil (by simp [NoEndCR])]
        rfl
      have hb1 : ¬ Bracketed [] := not_bracketed_nil
      have hb2 : Bracketed ('[' :: (n.text ++ [']'])) := .inl ⟨n.text ++ [']'], (header_line n).2.2.2.2⟩
      rw [hbs, e0, hms] at h1
      rw [hms]
      -- the lines before the first section are the two empty ones
      cases pre with
      | nil => exact absurd (h3 [] (by rw [← List.nil_append ls, ← h1]; rfl)) hb1
      | cons p1 pre =>
        cases pre with
        | nil =>
          have h1 : _ = ls := (List.cons.inj h1).2
          exact absurd (h3 [] (by rw [← h1]; rfl)) hb1
        | cons p2 pre =>
          have h1 := (List.cons.inj (List.cons.inj h1).2).2
          cases pre with
          | nil => exact h1.symm
          | cons p3 pre =>
            have e3 : '[' :: (n.text ++ [']']) = p3 := (List.cons.inj h1).1
            exact absurd (e3 ▸ hb2) (h2 p3 (by simp))
    rw [hbs] at hJ
    have hnear : Near (join ['\n'] ls) (join ['\n', '\n'] ((b :: bs).map blockText)) := by
      rw [hls]
      exact (lines_text_ce hJ).imp Eq.symm Eq.symm
    rw [← hbs]
    refine blocks_well (w := []) (fun b hb => ?_) .nil (by rw [hbs]; exact hnear) hsec ?_ h4
    · obtain ⟨m, hm, e⟩ := listed_mem.1 hb
      exact ⟨m, e, hm ▸ hp m, hmem b hb⟩
    · rcases hnear with e | e
      · rwa [e]
      · exact CleanEnds.prefix (b := []) (by rw [e]; exact hJ)

end

end Osu
