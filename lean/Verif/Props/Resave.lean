/-
C75: when loading a text and saving it goes unnoticed by the comparison of texts.
-/
import Verif.Proof.Resave
import Verif.Props.FileText
import Verif.Props.Trimmer
import Verif.Props.Faults

namespace Osu
open Parser Ev Trimmer

section
variable {D : Type} [DecLib D] [UniLib]

theorem sectPrints_unique {f : OsuFile D} {n : SName} {t t' : Str} (h : SectPrints f (some t) n) (h' : SectPrints f (some t') n) : t = t' := by
  cases n <;> simp only [SectPrints] at h h'
  case general => rw [← h'] at h; cases h; rfl
  case editor => rw [← h'] at h; cases h; rfl
  case metadata => rw [← h'] at h; cases h; rfl
  case difficulty => rw [← h'] at h; cases h; rfl
  case colours => rw [← h'] at h; cases h; rfl
  all_goals
    rcases h with ⟨-, h⟩ | ⟨x, s, h1, h2, h3⟩
    · cases h
    · rcases h' with ⟨g, -⟩ | ⟨y, u, g1, g2, g3⟩
      · rw [h1] at g; cases g
      · rw [h1] at g1; cases g1
        rw [h2] at g2; cases g2
        cases h3; cases g3; rfl

theorem sectPrints_absent {f : OsuFile D} {n : SName} {t : Str} (h : SectPrints f (some t) n) : ¬SectAbsent f n := by
  intro ha
  cases n <;> simp only [SectPrints] at h <;> simp only [SectAbsent] at ha
  all_goals simp [ha] at h

omit [UniLib] in
theorem sameSections_zip (xs : List Sect) (bs : List (Str × Str)) :
    SameSections (xs.map fun x => (headerOf x.name, cleanLines x.body)) (bs.map fun b => (headerOf b.1, cleanLines b.2)) ↔
      xs.map Sect.name = bs.map Prod.fst ∧ ∀ p ∈ xs.zip bs, SameLines (cleanLines p.1.body) (cleanLines p.2.2) := by
  induction xs generalizing bs with
  | nil =>
    cases bs with
    | nil => exact ⟨fun _ => ⟨rfl, by simp⟩, fun _ => .nil⟩
    | cons b bs => exact ⟨fun h => (by cases h), fun h => (by cases h.1)⟩
  | cons x xs ih =>
    cases bs with
    | nil => exact ⟨fun h => (by cases h), fun h => (by cases h.1)⟩
    | cons b bs =>
      constructor
      · intro h
        simp only [List.map_cons] at h
        generalize hx : headerOf x.name = a at h
        generalize hb : headerOf b.1 = a' at h
        cases h with
        | cons h1 h2 =>
          obtain ⟨i1, i2⟩ := (ih bs).1 h2
          refine ⟨by rw [List.map_cons, List.map_cons, i1, headerOf_inj (hx.trans hb.symm)], ?_⟩
          intro p hp
          rcases List.mem_cons.1 hp with rfl | hp
          · exact h1
          · exact i2 p hp
      · rintro ⟨h1, h2⟩
        simp only [List.map_cons, List.cons.injEq] at h1
        rw [List.map_cons, List.map_cons, h1.1]
        exact .cons (h2 (x, b) (by simp)) ((ih bs).2 ⟨h1.2, fun p hp => h2 p (by simp [hp])⟩)

/-- A text whose headers stand on lines of their own is read and written again: the two texts compare as equal exactly when
the version is written without plus sign and leading zeros, the sections come in the order in which they are written, all of
them are written, and each one compares as equal to what is written for it. -/
theorem C75_file {s u num : Str} {xs : List Sect} {f : OsuFile D} (h : OwnLines s num xs) (hf : OsuFile.parse s = .ok f)
    (hu : f.shw = some u) (hh : ∀ n t, SectPrints f (some t) n → ∀ l ∈ cleanLines t, ¬LooksHeader l) (hb : BomOK s)
    (hb' : BomOK u) :
    osuStrEq s u = true ↔ num = natToStr f.version ∧
      (xs.map Sect.name).Sublist [c!"General", c!"Editor", c!"Metadata", c!"Difficulty", c!"Events", c!"TimingPoints", c!"Colours",
        c!"HitObjects"] ∧
      ∀ x ∈ xs, ∃ n t, SName.text n = x.name ∧ SectPrints f (some t) n ∧ SameLines (cleanLines x.body) (cleanLines t) := by
  obtain ⟨v, hk, ⟨hv, -, hnd, hrd, habs⟩, pre, hpre, hl⟩ := ownLines_reads h hf
  obtain ⟨bs, rfl, hsub, hbs⟩ := C43_written f u hu
  have hn14 : (c!"General" :: [c!"Editor", c!"Metadata", c!"Difficulty", c!"Events", c!"TimingPoints", c!"Colours",
      c!"HitObjects"]).Nodup := by decide
  have hbn : ∀ b ∈ bs, ∃ n : SName, n.text = b.1 ∧ SectPrints f (some b.2) n := by
    intro b hb
    have : b.1 ∈ SName.all.map SName.text := hsub.subset (List.mem_map_of_mem hb)
    obtain ⟨n, -, e⟩ := List.mem_map.1 this
    exact ⟨n, e, (hbs n b.2).1 (by rw [e]; exact hb)⟩
  have hl' : TrimLayout (cleanLines (fileText (natToStr f.version) bs)) [formatLine (natToStr f.version)]
      (bs.map fun b => (headerOf b.1, cleanLines b.2)) := by
    have hkn := (known_nat (v := f.version) (by rw [hv]; exact hk.2)).1
    refine ⟨?_, ?_, ?_, ?_⟩
    · rw [cleanLines_fileText hkn, List.flatMap_map]; · rfl
      intro b hb
      obtain ⟨n, e, -⟩ := hbn b hb
      rw [← e]; exact n.noBom
    · intro l hl
      rw [List.mem_singleton.1 hl]
      exact (formatLine_chars hkn).2.2.2
    · intro b hb
      obtain ⟨x, -, rfl⟩ := List.mem_map.1 hb
      exact headerOf_looks _
    · intro b hb
      obtain ⟨x, hx, rfl⟩ := List.mem_map.1 hb
      obtain ⟨n, -, e⟩ := hbn x hx
      exact hh n _ e
  rw [eq_layouts hb hb' hl hl', sameSections_zip]
  have hpfx : ∀ num : Str, c!"osu file format v" <+: formatLine num := fun num => ⟨num, rfl⟩
  have hkp : ∀ (num : Str) (pre : List Str), keptPre (formatLine num :: pre) = [formatLine num] := by
    intro num pre; simp only [keptPre]; rw [if_pos (hpfx num)]
  rw [hkp, hkp]
  have hfm : [formatLine num] = [formatLine (natToStr f.version)] ↔ num = natToStr f.version := by
    constructor
    · intro e; simp only [List.cons.injEq, and_true] at e; exact List.append_cancel_left e
    · rintro rfl; rfl
  rw [hfm]
  refine and_congr_right fun _ => ?_
  constructor
  · rintro ⟨e, hz⟩
    refine ⟨by rw [e]; exact hsub, ?_⟩
    intro x hx
    obtain ⟨i, hi, rfl⟩ := List.mem_iff_getElem.1 hx
    have hlen : xs.length = bs.length := by simpa using congrArg List.length e
    have hib : i < bs.length := by omega
    have en : (xs.map Sect.name)[i]'(by simpa using hi) = (bs.map Prod.fst)[i]'(by simpa using hib) := by simp only [e]
    simp only [List.getElem_map] at en
    obtain ⟨n, e1, e2⟩ := hbn bs[i] (List.getElem_mem hib)
    refine ⟨n, bs[i].2, e1.trans en.symm, e2, hz (xs[i], bs[i]) ?_⟩
    rw [List.mem_iff_getElem]
    exact ⟨i, by simp; omega, by simp⟩
  · rintro ⟨hs, hx⟩
    have e : xs.map Sect.name = bs.map Prod.fst := by
      refine sublist_same hn14 hs hsub fun nm => ?_
      constructor
      · intro hm
        obtain ⟨x, hx', rfl⟩ := List.mem_map.1 hm
        obtain ⟨n, t, e1, e2, -⟩ := hx x hx'
        exact List.mem_map.2 ⟨_, (hbs n t).2 e2, e1⟩
      · intro hm
        obtain ⟨b, hb, rfl⟩ := List.mem_map.1 hm
        obtain ⟨n, e1, e2⟩ := hbn b hb
        rw [← e1]
        exact Classical.byContradiction fun hno => sectPrints_absent e2 (habs n hno)
    refine ⟨e, ?_⟩
    intro p hp
    obtain ⟨i, hi, rfl⟩ := List.mem_iff_getElem.1 hp
    have hix : i < xs.length := by simp at hi; omega
    have hib : i < bs.length := by simp at hi; omega
    have en : (xs.map Sect.name)[i]'(by simpa using hix) = (bs.map Prod.fst)[i]'(by simpa using hib) := by simp only [e]
    simp only [List.getElem_map] at en
    obtain ⟨n, e1, e2⟩ := hbn bs[i] (List.getElem_mem hib)
    obtain ⟨n', t, g1, g2, g3⟩ := hx xs[i] (List.getElem_mem hix)
    have := SName.text_inj (g1.trans (en.trans e1.symm))
    subst this
    have := sectPrints_unique e2 g2
    subst this
    simpa using g3

end

/-! ## Sections -/

section
variable {D : Type} [DecLib D]

/-- A `[General]` text compares as equal to what is written after reading it exactly when every entry is written, with the
same value up to blanks. -/
theorem C75_general {v : Nat} {s : Str} {sec : (General D).Section} (h : (General D).fromStr v s = .ok sec) (hr : CrLf s)
    {es : List (KVLine × Str)} {r : Str} (hes : KVSplits s es r) :
    SameLines (cleanLines s) (cleanLines ((General D).toStr v sec)) ↔
      ∀ e ∈ es, ∃ k x t, (General D).name k = e.1.key ∧ sec k = some x ∧ (General D).shw k v x = some t ∧
        bareText t = bareText e.1.value :=
  Schema.sameLines_iff (General_lawful D) General_stable (fun k => by
    show bareText (GKey.name k) = GKey.name k
    cases k <;> decide) h hr hes

/-- The same for `[Editor]`. -/
theorem C75_editor {v : Nat} {s : Str} {sec : (Editor D).Section} (h : (Editor D).fromStr v s = .ok sec) (hr : CrLf s)
    {es : List (KVLine × Str)} {r : Str} (hes : KVSplits s es r) :
    SameLines (cleanLines s) (cleanLines ((Editor D).toStr v sec)) ↔
      ∀ e ∈ es, ∃ k x t, (Editor D).name k = e.1.key ∧ sec k = some x ∧ (Editor D).shw k v x = some t ∧
        bareText t = bareText e.1.value :=
  Schema.sameLines_iff (Editor_lawful D) Editor_stable (fun k => by
    show bareText (EKey.name k) = EKey.name k
    cases k <;> decide) h hr hes

/-- A `[Difficulty]` text compares as equal to what is written after reading it exactly when every value that is a number is
written the way the number is printed. -/
theorem C75_difficulty {v : Nat} {s : Str} {sec : (Difficulty D).Section} (h : (Difficulty D).fromStr v s = .ok sec) (hr : CrLf s)
    {es : List (KVLine × Str)} {r : Str} (hes : KVSplits s es r) :
    SameLines (cleanLines s) (cleanLines ((Difficulty D).toStr v sec)) ↔
      ∀ e ∈ es, ∀ d : D, DecLib.parse e.1.value = some d → bareText (DecLib.shw d) = bareText e.1.value := by
  rw [Schema.sameLines_iff (Difficulty_lawful D) Difficulty_stable (fun k => by
    show bareText (DKey.name k) = DKey.name k
    cases k <;> decide) h hr hes]
  obtain ⟨es', r', hes', -, -, hsec, -⟩ := (Schema.fromStr_ok_iff (Difficulty_lawful D) v s sec).1 h
  obtain ⟨rfl, rfl⟩ := kvSplits_unique hes hes'
  constructor
  · intro hall e he d hd
    obtain ⟨k, x, t, h1, h2, h3, h4⟩ := hall e he
    obtain ⟨k', g1, g2⟩ := hsec e he
    have := (Difficulty_lawful D).inj k' k (g1.trans h1.symm)
    subst this
    have g2 : decField e.1.value = .ok (sec k') := g2
    rw [h2] at g2
    cases g2
    cases h3
    rw [← h4]
    simp only [Decimal.ofStr, hd]
    rfl
  · intro hall e he
    obtain ⟨k, g1, g2⟩ := hsec e he
    have g2 : decField e.1.value = .ok (sec k) := g2
    refine ⟨k, Decimal.ofStr e.1.value, _, g1, (Res.ok.inj g2).symm, rfl, ?_⟩
    cases hd : (DecLib.parse e.1.value : Option D) with
    | none => simp only [Decimal.ofStr, hd]; rfl
    | some d => simp only [Decimal.ofStr, hd]; exact hall e he d hd

end

theorem metadata_name (k : MKey) : bareText (MKey.name k) = MKey.name k := by cases k <;> decide

/-- A `[Metadata]` text compares as equal to what is written after reading it exactly when the two numbers are written as
they are printed: without plus sign and leading zeros. -/
theorem C75_metadata {v : Nat} {s : Str} {sec : Metadata.Section} (h : Metadata.fromStr v s = .ok sec) (hr : CrLf s)
    {es : List (KVLine × Str)} {r : Str} (hes : KVSplits s es r) :
    SameLines (cleanLines s) (cleanLines (Metadata.toStr v sec)) ↔
      ∀ e ∈ es, e.1.key = c!"BeatmapID" ∨ e.1.key = c!"BeatmapSetID" → ∃ n : Int32, e.1.value = i32ToStr n := by
  rw [Schema.sameLines_iff Metadata_lawful Metadata_stable metadata_name h hr hes]
  obtain ⟨es', r', hes', -, -, hsec, -⟩ := (Schema.fromStr_ok_iff Metadata_lawful v s sec).1 h
  obtain ⟨rfl, rfl⟩ := kvSplits_unique hes hes'
  have idp : ∀ {t : Str} {o : Option Int32}, idField t = .ok o → ∃ n, o = some n ∧ parseI32 t = .ok n := by
    intro t o ho
    unfold idField at ho
    split at ho
    · rename_i n hn; cases ho; exact ⟨n, rfl, hn⟩
    · cases ho
  have num : ∀ n : Int32, bareText (i32ToStr n) = i32ToStr n := fun n => bareText_num (parseI32_chars (parseI32_i32ToStr n)).2
  constructor
  · rintro hall e he hid
    obtain ⟨k, x, t, h1, h2, h3, h4⟩ := hall e he
    obtain ⟨k', g1, g2⟩ := hsec e he
    have := Metadata_lawful.inj k' k (g1.trans h1.symm)
    subst this
    have g2 : MKey.parse k' v e.1.value = .ok (sec k') := g2
    have h3 : MKey.shw k' v x = some t := h3
    have g1 : MKey.name k' = e.1.key := g1
    rw [← g1] at hid
    have key : ∀ {o : Option Int32} {y : Int32}, idField e.1.value = .ok o → o = some y → t = i32ToStr y →
        ∃ n : Int32, e.1.value = i32ToStr n := by
      intro o y g2 h2 h3
      obtain ⟨n, e1, e2⟩ := idp g2
      rw [h2] at e1
      cases e1
      rw [h3, num, bareText_num (parseI32_chars e2).2] at h4
      exact ⟨y, h4.symm⟩
    cases k'
    case beatmapID => exact key g2 h2 (Option.some.inj h3).symm
    case beatmapSetID => exact key g2 h2 (Option.some.inj h3).symm
    all_goals exact absurd hid (by decide)
  · intro hall e he
    obtain ⟨k, g1, g2⟩ := hsec e he
    have g2' : MKey.parse k v e.1.value = .ok (sec k) := g2
    have hid := hall e he
    rw [← g1] at hid
    cases k
    case beatmapID =>
      obtain ⟨n, hn⟩ := hid (.inl rfl)
      obtain ⟨m, e1, e2⟩ := idp g2'
      rw [hn, parseI32_i32ToStr] at e2; cases e2
      exact ⟨.beatmapID, n, i32ToStr n, g1, e1, rfl, by rw [hn]⟩
    case beatmapSetID =>
      obtain ⟨n, hn⟩ := hid (.inr rfl)
      obtain ⟨m, e1, e2⟩ := idp g2'
      rw [hn, parseI32_i32ToStr] at e2; cases e2
      exact ⟨.beatmapSetID, n, i32ToStr n, g1, e1, rfl, by rw [hn]⟩
    case tags =>
      simp only [MKey.parse, parseTags_eq] at g2'
      have e1 := (Res.ok.inj g2').symm
      refine ⟨.tags, _, _, g1, e1, rfl, ?_⟩
      have : tagsToStr (splitOnC ' ' e.1.value) = e.1.value := join_splitOnC ' ' e.1.value
      rw [this]
    all_goals exact ⟨_, _, _, g1, (Res.ok.inj g2').symm, rfl, rfl⟩

/-- `[Colours]` compare as equal to what is written after reading them exactly when every line, up to blanks, is the one
written for its colour: no leading zeros, no plus sign, `SliderBorder` with a capital `B`. -/
theorem C75_colours {v : Nat} {s u : Str} {l : List Colour} (h : Colours.parse v s = .ok (some l)) (hu : Colours.shw v l = some u) :
    SameLines (cleanLines s) (cleanLines u) ↔
      ((lines s).filter nonBlank).map bareText = l.map fun c => bareText c.shw := by
  have hv : ¬ (3 ≤ v ∧ v ≤ 4) := fun hv => by
    have := (C07_colours_gate h).2 hv; cases this
  rw [Colours.parse, if_neg hv] at h
  obtain ⟨l', h1, h2⟩ := Res.bind_eq_ok'.1 h
  cases h2
  rw [Colours.shw, if_neg hv] at hu
  cases hu
  have hw : ∀ c ∈ l, ColourWritable c := by
    intro c hc
    obtain ⟨t, _, _, h3⟩ := parseLines_mem h1 c hc
    exact C11_read_is_writable h3
  rw [parseLines_ok_iff] at h1
  have hread : ∀ t ∈ (lines s).filter nonBlank, ∃ c, ColourReads (trim t) c := by
    intro t ht
    have : Colour.parse t ∈ l.map Res.ok := by rw [← h1]; exact List.mem_map_of_mem ht
    obtain ⟨c, -, hc⟩ := List.mem_map.1 this
    exact ⟨c, Colour.ok_iff.1 hc.symm⟩
  have hcol : ∀ t ∈ (lines s).filter nonBlank, ':' ∈ t := by
    intro t ht
    obtain ⟨c, hc⟩ := hread t ht
    have : ':' ∈ (trim t).filter fun c => !isWs c := List.mem_filter.2 ⟨colour_colon hc, by decide⟩
    rw [filter_trim] at this
    exact (List.mem_filter.1 this).1
  have hback : ∀ c ∈ l, ColourReads c.shw c := by
    intro c hc
    have := Colour.ok_iff.1 ((C11_colour_round_trip c).2 (hw c hc))
    rwa [Colour.trim_shw] at this
  have hcu : cleanLines (printLines Colour.shw l) = (l.map Colour.shw).map cleanLine := by
    by_cases hn : l = []
    · subst hn; rfl
    · unfold printLines
      rw [cleanLines_split, splitNL_join (by simpa using hn), cleaned_colon]
      · intro x hx
        obtain ⟨c, hc, rfl⟩ := List.mem_map.1 hx
        exact colour_colon (hback c hc)
      · intro x hx
        obtain ⟨c, hc, rfl⟩ := List.mem_map.1 hx
        exact c.shw_lineOK.lf
  rw [cleanLines_filter, cleaned_colon hcol, hcu, sameLines_colon, List.map_map, List.map_map, List.map_map]
  rotate_left
  · intro x hx
    obtain ⟨t, ht, rfl⟩ := List.mem_map.1 hx
    exact colon_clean (hcol t ht)
  have e1 : ((lines s).filter nonBlank).map (squeeze ∘ cleanLine) = ((lines s).filter nonBlank).map bareText :=
    List.map_congr_left fun t ht => squeeze_clean (hcol t ht)
  have e2 : l.map ((squeeze ∘ cleanLine) ∘ Colour.shw) = l.map fun c => bareText c.shw :=
    List.map_congr_left fun c hc => squeeze_clean (colour_colon (hback c hc))
  rw [e1, e2]
  constructor
  · intro hp
    refine perm_pointwise hp fun i hi hi' hm => ?_
    simp only [List.length_map] at hi hi'
    simp only [List.getElem_map] at hm ⊢
    obtain ⟨c', hc', e⟩ := List.mem_map.1 hm
    have hpi : Colour.parse (((lines s).filter nonBlank)[i]) = .ok l[i] := by
      have := congrArg (fun x => x[i]?) h1
      simpa [List.getElem?_eq_getElem, hi, hi'] using this
    have hr := Colour.ok_iff.1 hpi
    have := colour_same hr (hback c' hc') (by rw [bareText_trim]; exact e.symm)
    rw [this]; exact e
  · intro e; rw [e]

/-- In a section without colons the lines must be the same, in the same order. -/
theorem C75_no_colon {s u : Str} (h : ':' ∉ s) :
    SameLines (cleanLines s) (cleanLines u) ↔ cleanLines s = cleanLines u := by
  constructor
  · intro hs
    have hc : ∀ l ∈ cleanLines s, ':' ∉ l := by
      intro l hl hm
      obtain ⟨hl, -⟩ := List.mem_filter.1 hl
      obtain ⟨l', hl', rfl⟩ := List.mem_map.1 hl
      have : ':' ∈ trim l' := (List.mem_filter.1 hm).1
      have : ':' ∈ (trim l').filter fun c => !isWs c := List.mem_filter.2 ⟨this, by decide⟩
      rw [filter_trim] at this
      have hall : AllC (fun c => !(c == ':')) s := fun c hc => by
        simp only [Bool.not_eq_true', beq_eq_false_iff_ne]
        rintro rfl; exact h hc
      exact absurd (lines_allC hall l' hl' _ (List.mem_filter.1 this).1) (by decide)
    have hid : ∀ {ls : List Str}, (∀ l ∈ ls, ':' ∉ l) → ls.map squeeze = ls := by
      intro ls h
      conv => rhs; rw [← List.map_id ls]
      exact List.map_congr_left fun l hl => by simp [squeeze, h l hl]
    have hm : (cleanLines s).map squeeze = (cleanLines u).map squeeze := by
      rcases hs with e | ⟨g, e⟩
      · exact e
      · cases hcs : cleanLines s with
        | nil =>
          rw [hcs] at e
          exact List.Perm.nil_eq e
        | cons a b => exact absurd (g a (by simp [hcs])) (hc a (by simp [hcs]))
    have hcu : ∀ l ∈ cleanLines u, ':' ∉ l := by
      intro l hl hc'
      have : squeeze l ∈ (cleanLines s).map squeeze := by rw [hm]; exact List.mem_map_of_mem hl
      rw [hid hc] at this
      exact hc _ this (squeeze_colon.2 hc')
    rwa [hid hc, hid hcu] at hm
  · intro e; exact .inl (by rw [e])

section
attribute [local instance] asciiUni

/-- A text in which only blanks, line breaks, a comment and the order of entries are not those the library writes. -/
def rsText : Str := c!"osu file format v14\r\n// by hand\r\n[Metadata]\r\nBeatmapID:  7\r\nTitle:a b\r\n\r\n[Colours]\r\n  Combo1:1,2, 3\r\n"

def rsSects : List Sect := [⟨[], c!"Metadata", c!"\n", c!"BeatmapID:  7\nTitle:a b\n"⟩, ⟨c!"\n", c!"Colours", c!"\n  ", c!"Combo1:1,2, 3"⟩]

theorem rsText_own : OwnLines rsText c!"14" rsSects := by
  refine ⟨⟨[], c!"\r\n// by hand\r\n[Metadata]\r\nBeatmapID:  7\r\nTitle:a b\r\n\r\n[Colours]\r\n  Combo1:1,2, 3\r\n", [[], c!"// by hand"],
    ⟨⟨[], .inl rfl, rfl⟩, nofun, by decide, by decide, .inr ⟨_, .inl rfl⟩⟩, .inr ⟨_, .inr rfl⟩, layout_iff.2 ⟨by decide, ?_⟩⟩, by decide, by decide⟩
  exact sections_iff.1 (by decide)

/-- What can be seen of a file value with these two sections. -/
private def rsView (f : OsuFile Dec96) : Nat × List Bool × Option Str × Option Str × Option Str :=
  (f.version, [f.general.isSome, f.editor.isSome, f.difficulty.isSome, f.events.isSome, f.timingPoints.isSome, f.hitobjects.isSome],
    f.metadata.map (Metadata.toStr f.version), f.colours.bind (Colours.shw f.version), f.shw)

/-- It compares as equal to what is written after reading it. -/
example : ∃ f u, OsuFile.parse rsText = .ok (f : OsuFile Dec96) ∧ f.shw = some u ∧ osuStrEq rsText u = true := by
  obtain ⟨f, hf⟩ := Res.of_isOk (r := (OsuFile.parse rsText : Res _ (OsuFile Dec96))) (by decide)
  have hv : (OsuFile.parse rsText >>= fun f => Res.ok (rsView f) : Res _ _) = .ok (14, [false, false, false, false, false, false],
      some c!"Title:a b\nBeatmapID:7", some c!"Combo1 : 1,2,3",
      some c!"osu file format v14\n\n[Metadata]\nTitle:a b\nBeatmapID:7\n\n[Colours]\nCombo1 : 1,2,3") := by rfl
  rw [hf] at hv
  have hv := Res.ok.inj hv
  simp only [rsView, Prod.mk.injEq, List.cons.injEq, Option.isSome_eq_false_iff, Option.isNone_iff_eq_none, and_true] at hv
  obtain ⟨h1, ⟨g1, g2, g3, g4, g5, g6⟩, g7, g8, hu⟩ := hv
  refine ⟨f, _, hf, hu, (C75_file rsText_own hf hu ?_ (bomOK_none (by decide)) (bomOK_none (by decide))).2 ⟨by rw [h1]; decide, by decide, ?_⟩⟩
  · intro n t ht
    cases n
    case metadata => simp only [SectPrints, g7] at ht; cases ht; decide
    case colours => simp only [SectPrints, g8] at ht; cases ht; decide
    all_goals exact absurd (by assumption) (sectPrints_absent ht)
  · intro x hx
    simp only [rsSects, List.mem_cons, List.mem_nil_iff, or_false] at hx
    rcases hx with rfl | rfl
    · exact ⟨.metadata, _, rfl, g7.symm, .inr ⟨by decide, by decide⟩⟩
    · exact ⟨.colours, _, rfl, g8.symm, .inr ⟨by decide, by decide⟩⟩

/-- The same text with `007` does not, and neither does one with the sections in another order or with version `014`. -/
example : (OsuFile.parse (replace c!"  7" c!" 007" rsText) >>= fun f : OsuFile Dec96 =>
      Res.ok (f.shw.map fun u => osuStrEq (replace c!"  7" c!" 007" rsText) u) : Res _ _) = .ok (some false) ∧
    (OsuFile.parse c!"osu file format v14\n[Colours]\nCombo1 : 1,2,3\n[Metadata]\nTitle:a" >>= fun f : OsuFile Dec96 =>
      Res.ok (f.shw.map fun u => osuStrEq c!"osu file format v14\n[Colours]\nCombo1 : 1,2,3\n[Metadata]\nTitle:a" u) : Res _ _) = .ok (some false) ∧
    (OsuFile.parse c!"osu file format v014\n[Metadata]\nTitle:a" >>= fun f : OsuFile Dec96 =>
      Res.ok (f.shw.map fun u => osuStrEq c!"osu file format v014\n[Metadata]\nTitle:a" u) : Res _ _) = .ok (some false) := by
  refine ⟨by decide, by decide, by decide⟩

example : ∃ sec, Metadata.fromStr 14 c!"BeatmapID:  7\r\nTitle:a b\n" = .ok sec ∧
    SameLines (cleanLines c!"BeatmapID:  7\r\nTitle:a b\n") (cleanLines (Metadata.toStr 14 sec)) := by
  obtain ⟨sec, h⟩ := Res.of_isOk (r := Metadata.fromStr 14 c!"BeatmapID:  7\r\nTitle:a b\n") (by decide)
  obtain ⟨es, r, hes⟩ := kvSplits_exists c!"BeatmapID:  7\r\nTitle:a b\n"
  refine ⟨sec, h, (C75_metadata h (crlfB_iff (by decide)) hes).2 ?_⟩
  have : KVSplits c!"BeatmapID:  7\r\nTitle:a b\n" [(⟨c!"BeatmapID", c!"  ", c!"7"⟩, ['\r', '\n']), (⟨c!"Title", [], c!"a b"⟩, ['\n'])] [] := by
    have := (getFields_iff (s := c!"BeatmapID:  7\r\nTitle:a b\n") (r := [])
      (fs := [(⟨c!"BeatmapID", c!"  ", c!"7"⟩, ['\r', '\n']), (⟨c!"Title", [], c!"a b"⟩, ['\n'])].map toFieldLine)).1 (by decide)
    obtain ⟨es', h1, h2⟩ := this
    rw [toFieldLine_inj h2]; exact h1
  obtain ⟨rfl, -⟩ := kvSplits_unique hes this
  intro e he hid
  simp only [List.mem_cons, List.mem_nil_iff, or_false] at he
  rcases he with rfl | rfl
  · exact ⟨7, rfl⟩
  · exact absurd hid (by decide)

example : Colours.parse 14 c!"Combo1:1,2, 3\n\nCombo2 : 4,5,6" = .ok (some [.combo 1 ⟨1, 2, 3⟩, .combo 2 ⟨4, 5, 6⟩]) ∧
    ((lines c!"Combo1:1,2, 3\n\nCombo2 : 4,5,6").filter nonBlank).map bareText =
      [Colour.combo 1 ⟨1, 2, 3⟩, .combo 2 ⟨4, 5, 6⟩].map (fun c => bareText c.shw) ∧
    ((lines c!"Combo01:1,2, 3").filter nonBlank).map bareText ≠ [Colour.combo 1 ⟨1, 2, 3⟩].map fun c => bareText c.shw :=
  ⟨by decide, by decide, by decide⟩

/-- Values that are written differently than they were read: `01` as `1`, `+4` as `4`, `05` as `5`. -/
example : ((General Dec96).fromStr 14 c!"Mode: 0\nAudioLeadIn:  0" >>= fun x => Res.ok (osuStrEq (c!"[]\n" ++ c!"Mode: 0\nAudioLeadIn:  0")
      (c!"[]\n" ++ (General Dec96).toStr 14 x)) : Res _ _) = .ok true ∧
    ((General Dec96).fromStr 14 c!"AudioLeadIn: 01" >>= fun x => Res.ok (osuStrEq (c!"[]\n" ++ c!"AudioLeadIn: 01")
      (c!"[]\n" ++ (General Dec96).toStr 14 x)) : Res _ _) = .ok false ∧
    ((Editor Dec96).fromStr 14 c!"GridSize: +4" >>= fun x => Res.ok (osuStrEq (c!"[]\n" ++ c!"GridSize: +4")
      (c!"[]\n" ++ (Editor Dec96).toStr 14 x)) : Res _ _) = .ok false ∧
    ((Difficulty Dec96).fromStr 14 c!"HPDrainRate:5\nOverallDifficulty:x y" >>= fun x => Res.ok (osuStrEq
      (c!"[]\n" ++ c!"HPDrainRate:5\nOverallDifficulty:x y") (c!"[]\n" ++ (Difficulty Dec96).toStr 14 x)) : Res _ _) = .ok true ∧
    ((Difficulty Dec96).fromStr 14 c!"HPDrainRate:05" >>= fun x => Res.ok (osuStrEq (c!"[]\n" ++ c!"HPDrainRate:05")
      (c!"[]\n" ++ (Difficulty Dec96).toStr 14 x)) : Res _ _) = .ok false :=
  ⟨by rfl, by rfl, by rfl, by rfl, by rfl⟩

example : SameLines (cleanLines c!" 1,2,3\n\n4,5") (cleanLines c!"1,2,3\n4,5") ∧ ¬SameLines (cleanLines c!"1,2,3\n4,5") (cleanLines c!"4,5\n1,2,3") :=
  ⟨(C75_no_colon (by decide)).2 (by decide), fun h => absurd ((C75_no_colon (by decide)).1 h) (by decide)⟩

end

section
attribute [local instance] asciiUni

private theorem rsSplits {s : Str} {es es' : List (KVLine × Str)} {r : Str} (hes : KVSplits s es r)
    (h : getColonFieldValueLines s = .ok [] (es'.map toFieldLine)) : es = es' := by
  obtain ⟨es'', h1, h2⟩ := getFields_iff.1 h
  obtain ⟨rfl, -⟩ := kvSplits_unique hes h1
  exact (toFieldLine_inj h2).symm

/-- `Mode:  01` is written as `Mode: 1`: the texts are then not the same. -/
example (sec : (General Dec96).Section) (h : (General Dec96).fromStr 14 c!"Mode: 01" = .ok sec) (hm : sec GKey.mode = some Mode.taiko) :
    ¬SameLines (cleanLines c!"Mode: 01") (cleanLines ((General Dec96).toStr 14 sec)) := fun hc => by
  obtain ⟨es, r, hes⟩ := kvSplits_exists c!"Mode: 01"
  have hs := rsSplits hes (es' := [(⟨c!"Mode", c!" ", c!"01"⟩, [])]) (by decide)
  subst hs
  obtain ⟨k, x, t, h1, h2, h3, h4⟩ := (C75_general h (crlfB_iff (by decide)) hes).1 hc _ List.mem_cons_self
  have hk : k = GKey.mode := by
    cases k <;> first | rfl | (exact absurd h1 (by decide))
  subst hk
  rw [hm] at h2
  cases h2
  cases h3
  exact absurd h4 (by decide)

example (sec : (Editor Dec96).Section) (h : (Editor Dec96).fromStr 14 c!"GridSize: 4" = .ok sec) (hg : sec EKey.gridSize = some (4 : Int32)) :
    SameLines (cleanLines c!"GridSize: 4") (cleanLines ((Editor Dec96).toStr 14 sec)) := by
  obtain ⟨es, r, hes⟩ := kvSplits_exists c!"GridSize: 4"
  have hs := rsSplits hes (es' := [(⟨c!"GridSize", c!" ", c!"4"⟩, [])]) (by decide)
  subst hs
  refine (C75_editor h (crlfB_iff (by decide)) hes).2 fun e he => ?_
  cases List.mem_singleton.1 he
  exact ⟨EKey.gridSize, (4 : Int32), c!"4", rfl, hg, rfl, rfl⟩

example (sec : (Difficulty Dec96).Section) (h : (Difficulty Dec96).fromStr 14 c!"HPDrainRate:5" = .ok sec) :
    SameLines (cleanLines c!"HPDrainRate:5") (cleanLines ((Difficulty Dec96).toStr 14 sec)) := by
  obtain ⟨es, r, hes⟩ := kvSplits_exists c!"HPDrainRate:5"
  have hs := rsSplits hes (es' := [(⟨c!"HPDrainRate", [], c!"5"⟩, [])]) (by decide)
  subst hs
  refine (C75_difficulty h (crlfB_iff (by decide)) hes).2 fun e he d hd => ?_
  cases List.mem_singleton.1 he
  have : d = ⟨false, 5, 0⟩ := Option.some.inj (hd.symm.trans (by decide))
  subst this
  decide

example : ((General Dec96).fromStr 14 c!"Mode: 01").isOk = true ∧ ((Editor Dec96).fromStr 14 c!"GridSize: 4").isOk = true ∧
    ((Difficulty Dec96).fromStr 14 c!"HPDrainRate:5").isOk = true := ⟨by rfl, by rfl, by rfl⟩

example : SameLines (cleanLines c!"Combo1:1,2, 3") (cleanLines c!"Combo1 : 1,2,3") :=
  (C75_colours (v := 14) (l := [.combo 1 ⟨1, 2, 3⟩]) (by decide) (by decide)).2 (by decide)

end

end Osu
