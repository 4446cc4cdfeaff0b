/-
C71: a section that is put into a file or left out of it.
-/
import Verif.Props.Edits

namespace Osu
open SB Ev Parser

section
variable {D : Type} [DecLib D] [UniLib]

/-- Sections with one more among them. -/
theorem fileReads_insert {v : Nat} {a b : List Sect} {x : Sect} {n : SName} (hn : n.text = x.name) {f : OsuFile D} (hf : FileReads v (a ++ b) f)
    (hx : x.name ∉ (a ++ b).map Sect.name) (g : OsuFile D) :
    FileReads v (a ++ x :: b) g ↔ SameBut n f g ∧ g.osb = none ∧ x.body ≠ [] ∧ SectReads v g x.body n := by
  obtain ⟨h1, h2, h3, h4, h5⟩ := hf
  have hmem : ∀ y, y ∈ a ++ x :: b ↔ y = x ∨ y ∈ a ++ b := fun y => by
    simp only [List.mem_append, List.mem_cons]; exact ⟨by rintro (h | h | h) <;> simp [h], by rintro (h | h | h) <;> simp [h]⟩
  have hnames : ∀ m : Str, m ∈ (a ++ x :: b).map Sect.name ↔ m = x.name ∨ m ∈ (a ++ b).map Sect.name := fun m => by
    simp only [List.map_append, List.map_cons, List.mem_append, List.mem_cons]
    exact ⟨by rintro (h | h | h) <;> simp [h], by rintro (h | h | h) <;> simp [h]⟩
  have hne : ∀ {m : SName}, m.text ∈ (a ++ b).map Sect.name → m ≠ n := by
    rintro m hm rfl
    exact hx (hn ▸ hm)
  constructor
  · rintro ⟨g1, g2, g3, g4, g5⟩
    obtain ⟨k1, k, k2, k3⟩ := g4 x ((hmem x).2 (.inl rfl))
    obtain rfl := SName.text_inj (k2.trans hn.symm)
    refine ⟨⟨g1.trans h1.symm, fun m hm => ?_⟩, g2, k1, k3⟩
    by_cases hm' : m.text ∈ (a ++ b).map Sect.name
    · obtain ⟨y, hy, e⟩ := List.mem_map.1 hm'
      obtain ⟨-, i, hi, hr⟩ := h4 y hy
      obtain ⟨-, j, hj, hr'⟩ := g4 y ((hmem y).2 (.inr hy))
      obtain rfl := SName.text_inj (hi.trans e)
      obtain rfl := SName.text_inj (hj.trans e)
      exact reads_same hr hr'
    · refine absent_same (h5 m hm') (g5 m ?_)
      rw [hnames]
      rintro (h | h)
      · exact hm (SName.text_inj (h.trans hn.symm))
      · exact hm' h
  · rintro ⟨⟨g1, g2⟩, g3, g4, g5⟩
    refine ⟨g1.trans h1, g3, ?_, fun y hy => ?_, fun m hm => ?_⟩
    · have hp : ((a ++ x :: b).map Sect.name).Perm (x.name :: (a ++ b).map Sect.name) := by
        rw [List.map_append, List.map_append, List.map_cons]; exact List.perm_middle
      rw [hp.nodup_iff, List.nodup_cons]
      exact ⟨hx, h3⟩
    · rcases (hmem y).1 hy with rfl | hy
      · exact ⟨g4, n, hn, g5⟩
      · obtain ⟨k1, k, hk, hr⟩ := h4 y hy
        exact ⟨k1, k, hk, (g2 k (hne (hk ▸ List.mem_map_of_mem hy))).reads.1 hr⟩
    · rw [hnames] at hm
      have hmn : m ≠ n := by rintro rfl; exact hm (.inl hn)
      exact (g2 m hmn).absent.1 (h5 m fun h => hm (.inr h))

/-- Sections with one of them left out. -/
theorem fileReads_remove {v : Nat} {a b : List Sect} {x : Sect} {n : SName} (hn : n.text = x.name) {f : OsuFile D} (hf : FileReads v (a ++ x :: b) f)
    (g : OsuFile D) : FileReads v (a ++ b) g ↔ SameBut n f g ∧ g.osb = none ∧ SectAbsent g n := by
  obtain ⟨h1, h2, h3, h4, h5⟩ := hf
  have hp : ((a ++ x :: b).map Sect.name).Perm (x.name :: (a ++ b).map Sect.name) := by
    rw [List.map_append, List.map_append, List.map_cons]; exact List.perm_middle
  have h3' := h3
  rw [hp.nodup_iff, List.nodup_cons] at h3'
  have hmem : ∀ {y}, y ∈ a ++ b → y ∈ a ++ x :: b := fun {y} hy => by
    rcases List.mem_append.1 hy with h | h <;> simp [h]
  have hne : ∀ {m : SName}, m.text ∈ (a ++ b).map Sect.name → m ≠ n := by
    rintro m hm rfl
    exact h3'.1 (hn ▸ hm)
  constructor
  · rintro ⟨g1, g2, g3, g4, g5⟩
    refine ⟨⟨g1.trans h1.symm, fun m hm => ?_⟩, g2, g5 n (by rw [hn]; exact h3'.1)⟩
    by_cases hm' : m.text ∈ (a ++ b).map Sect.name
    · obtain ⟨y, hy, e⟩ := List.mem_map.1 hm'
      obtain ⟨-, i, hi, hr⟩ := h4 y (hmem hy)
      obtain ⟨-, j, hj, hr'⟩ := g4 y hy
      obtain rfl := SName.text_inj (hi.trans e)
      obtain rfl := SName.text_inj (hj.trans e)
      exact reads_same hr hr'
    · refine absent_same (h5 m ?_) (g5 m hm')
      rw [hp.mem_iff, List.mem_cons]
      rintro (h | h)
      · exact hm (SName.text_inj (h.trans hn.symm))
      · exact hm' h
  · rintro ⟨⟨g1, g2⟩, g3, g4⟩
    refine ⟨g1.trans h1, g3, h3'.2, fun y hy => ?_, fun m hm => ?_⟩
    · obtain ⟨k1, k, hk, hr⟩ := h4 y (hmem hy)
      exact ⟨k1, k, hk, (g2 k (hne (hk ▸ List.mem_map_of_mem hy))).reads.1 hr⟩
    · by_cases hmn : m = n
      · subst hmn; exact g4
      · refine (g2 m hmn).absent.1 (h5 m ?_)
        rw [hp.mem_iff, List.mem_cons]
        rintro (h | h)
        · exact hmn (SName.text_inj (h.trans hn.symm))
        · exact hm h

/-- C71: if a section is left out of a text that is read, the text is read, to the same file without that section. -/
theorem C71_remove_section {s ws num r rest s' ws' num' r' rest' : Str} {pre pre' : List Str} {a b : List Sect} {x : Sect}
    (hv : Versioned s ws num r) (hl : Layout r pre (a ++ x :: b) rest)
    (hv' : Versioned s' ws' num' r') (hl' : Layout r' pre' (a ++ b) rest') (hp' : ∀ l ∈ pre', Ignorable l)
    {f : OsuFile D} (h : OsuFile.parse s = .ok f) (hk' : KnownVersion num' f.version) {n : SName} (hn : n.text = x.name) (g : OsuFile D) :
    OsuFile.parse s' = .ok g ↔ SameBut n f g ∧ g.osb = none ∧ SectAbsent g n := by
  obtain ⟨-, -, hf⟩ := parse_layout' hv hl h
  rw [parse_layout hv' hk' hl' hp', fileReads_remove hn hf]

/-- C71: if a section that is not there is put into a text that is read, the text is read exactly if the section is and is not empty, to the
same file with that section. -/
theorem C71_add_section {s ws num r rest s' ws' num' r' rest' : Str} {pre pre' : List Str} {a b : List Sect} {x : Sect}
    (hv : Versioned s ws num r) (hl : Layout r pre (a ++ b) rest) (hx : x.name ∉ (a ++ b).map Sect.name)
    (hv' : Versioned s' ws' num' r') (hl' : Layout r' pre' (a ++ x :: b) rest') (hp' : ∀ l ∈ pre', Ignorable l)
    {f : OsuFile D} (h : OsuFile.parse s = .ok f) (hk' : KnownVersion num' f.version) {n : SName} (hn : n.text = x.name) (g : OsuFile D) :
    OsuFile.parse s' = .ok g ↔ SameBut n f g ∧ g.osb = none ∧ x.body ≠ [] ∧ SectReads f.version g x.body n := by
  obtain ⟨-, -, hf⟩ := parse_layout' hv hl h
  rw [parse_layout hv' hk' hl' hp', fileReads_insert hn hf hx]

/-- C71: the same for texts that are laid out as they are written: whichever section is left out, wherever it stands. -/
theorem C71_remove_written {num : Str} {v : Nat} (hk : KnownVersion num v) {a b : List (Str × Str)} {t : Str} {n : SName}
    (hn : ∀ y ∈ a ++ b, ']' ∉ y.1 ∧ '\n' ∉ y.1) (hw : ∀ y ∈ a ++ b, WellText y.2) (ht : WellText t) {f : OsuFile D}
    (h : OsuFile.parse (fileText num (a ++ (n.text, t) :: b)) = .ok f) (g : OsuFile D) :
    OsuFile.parse (fileText num (a ++ b)) = .ok g ↔ SameBut n f g ∧ g.osb = none ∧ SectAbsent g n := by
  have hmem : ∀ y, y ∈ a ++ (n.text, t) :: b → y = (n.text, t) ∨ y ∈ a ++ b := fun y hy => by
    simp only [List.mem_append, List.mem_cons] at hy ⊢
    rcases hy with h | h | h <;> simp [h]
  have hname : ']' ∉ n.text ∧ '\n' ∉ n.text := by cases n <;> decide
  rw [blocks_read (fun y hy => (hmem y hy).elim (fun e => e ▸ ht) (hw y)) (fun y hy => (hmem y hy).elim (fun e => e ▸ hname) (hn y)) hk] at h
  rw [blocks_read hw hn hk]
  obtain ⟨h1, h2, h3, h4, h5⟩ := h
  have hp : ((a ++ (n.text, t) :: b).map Prod.fst).Perm (n.text :: (a ++ b).map Prod.fst) := by
    rw [List.map_append, List.map_append, List.map_cons]; exact List.perm_middle
  have h3' := h3
  rw [hp.nodup_iff, List.nodup_cons] at h3'
  have hmem' : ∀ {y}, y ∈ a ++ b → y ∈ a ++ (n.text, t) :: b := fun {y} hy => by
    rcases List.mem_append.1 hy with h | h <;> simp [h]
  have hne : ∀ {m : SName}, m.text ∈ (a ++ b).map Prod.fst → m ≠ n := by
    rintro m hm rfl
    exact h3'.1 hm
  constructor
  · rintro ⟨g1, g2, g3, g4, g5⟩
    refine ⟨⟨g1.trans h1.symm, fun m hm => ?_⟩, g2, g5 n h3'.1⟩
    by_cases hm' : m.text ∈ (a ++ b).map Prod.fst
    · obtain ⟨y, hy, e⟩ := List.mem_map.1 hm'
      obtain ⟨i, hi, hr⟩ := h4 y (hmem' hy)
      obtain ⟨j, hj, hr'⟩ := g4 y hy
      obtain rfl := SName.text_inj (hi.trans e)
      obtain rfl := SName.text_inj (hj.trans e)
      exact reads_same hr hr'
    · refine absent_same (h5 m ?_) (g5 m hm')
      rw [hp.mem_iff, List.mem_cons]
      rintro (h | h)
      · exact hm (SName.text_inj h)
      · exact hm' h
  · rintro ⟨⟨g1, g2⟩, g3, g4⟩
    refine ⟨g1.trans h1, g3, h3'.2, fun y hy => ?_, fun m hm => ?_⟩
    · obtain ⟨k, hk, hr⟩ := h4 y (hmem' hy)
      exact ⟨k, hk, (g2 k (hne (hk ▸ List.mem_map_of_mem hy))).reads.1 hr⟩
    · by_cases hmn : m = n
      · subst hmn; exact g4
      · refine (g2 m hmn).absent.1 (h5 m ?_)
        rw [hp.mem_iff, List.mem_cons]
        rintro (h | h)
        · exact hmn (SName.text_inj h)
        · exact hm h

/-- C71: and whichever section is put in, wherever. -/
theorem C71_add_written {num : Str} {v : Nat} (hk : KnownVersion num v) {a b : List (Str × Str)} {t : Str} {n : SName}
    (hn : ∀ y ∈ a ++ b, ']' ∉ y.1 ∧ '\n' ∉ y.1) (hw : ∀ y ∈ a ++ b, WellText y.2) (ht : WellText t) {f : OsuFile D}
    (h : OsuFile.parse (fileText num (a ++ b)) = .ok f) (hnew : n.text ∉ (a ++ b).map Prod.fst) (g : OsuFile D) :
    OsuFile.parse (fileText num (a ++ (n.text, t) :: b)) = .ok g ↔ SameBut n f g ∧ g.osb = none ∧ SectReads v g t n := by
  have hmem : ∀ y, y ∈ a ++ (n.text, t) :: b ↔ y = (n.text, t) ∨ y ∈ a ++ b := fun y => by
    simp only [List.mem_append, List.mem_cons]; exact ⟨by rintro (h | h | h) <;> simp [h], by rintro (h | h | h) <;> simp [h]⟩
  have hname : ']' ∉ n.text ∧ '\n' ∉ n.text := by cases n <;> decide
  rw [blocks_read hw hn hk] at h
  rw [blocks_read (fun y hy => ((hmem y).1 hy).elim (fun e => e ▸ ht) (hw y)) (fun y hy => ((hmem y).1 hy).elim (fun e => e ▸ hname) (hn y)) hk]
  obtain ⟨h1, h2, h3, h4, h5⟩ := h
  have hp : ((a ++ (n.text, t) :: b).map Prod.fst).Perm (n.text :: (a ++ b).map Prod.fst) := by
    rw [List.map_append, List.map_append, List.map_cons]; exact List.perm_middle
  have hne : ∀ {m : SName}, m.text ∈ (a ++ b).map Prod.fst → m ≠ n := by
    rintro m hm rfl
    exact hnew hm
  constructor
  · rintro ⟨g1, g2, g3, g4, g5⟩
    obtain ⟨k, k2, k3⟩ := g4 (n.text, t) ((hmem _).2 (.inl rfl))
    obtain rfl := SName.text_inj k2
    refine ⟨⟨g1.trans h1.symm, fun m hm => ?_⟩, g2, k3⟩
    by_cases hm' : m.text ∈ (a ++ b).map Prod.fst
    · obtain ⟨y, hy, e⟩ := List.mem_map.1 hm'
      obtain ⟨i, hi, hr⟩ := h4 y hy
      obtain ⟨j, hj, hr'⟩ := g4 y ((hmem y).2 (.inr hy))
      obtain rfl := SName.text_inj (hi.trans e)
      obtain rfl := SName.text_inj (hj.trans e)
      exact reads_same hr hr'
    · refine absent_same (h5 m hm') (g5 m ?_)
      rw [hp.mem_iff, List.mem_cons]
      rintro (h | h)
      · exact hm (SName.text_inj h)
      · exact hm' h
  · rintro ⟨⟨g1, g2⟩, g3, g5⟩
    refine ⟨g1.trans h1, g3, ?_, fun y hy => ?_, fun m hm => ?_⟩
    · rw [hp.nodup_iff, List.nodup_cons]; exact ⟨hnew, h3⟩
    · rcases (hmem y).1 hy with rfl | hy
      · exact ⟨n, rfl, g5⟩
      · obtain ⟨k, hk, hr⟩ := h4 y hy
        exact ⟨k, hk, (g2 k (hne (hk ▸ List.mem_map_of_mem hy))).reads.1 hr⟩
    · rw [hp.mem_iff, List.mem_cons] at hm
      have hmn : m ≠ n := by rintro rfl; exact hm (.inl rfl)
      exact (g2 m hmn).absent.1 (h5 m fun h => hm (.inr h))

end

/-! ## Cases -/

section
attribute [local instance] asciiUni

private def secS : Str := c!"osu file format v14\n\n[General]\nMode: 1\n\n[Colours]\nCombo1 : 1,2,3\n\n[HitObjects]\n1,2,3,1,0"
private def secT : Str := c!"osu file format v14\n\n[General]\nMode: 1\n\n[HitObjects]\n1,2,3,1,0"

private theorem secS_text : secS = fileText c!"14" ([(c!"General", c!"Mode: 1")] ++ (SName.colours.text, c!"Combo1 : 1,2,3") :: [(c!"HitObjects", c!"1,2,3,1,0")]) := by
  decide
private theorem secT_text : secT = fileText c!"14" ([(c!"General", c!"Mode: 1")] ++ [(c!"HitObjects", c!"1,2,3,1,0")]) := by decide

private theorem well_line {l : Str} (h : LineOK l) (h' : HeadNot isMultispace l) : WellText l :=
  ⟨[l], by simp [join], by simp, by simpa using h, by simpa using h', by simp⟩

example : ∃ f g : OsuFile Dec96, OsuFile.parse secS = .ok f ∧ OsuFile.parse secT = .ok g ∧ SameBut .colours f g ∧ g.colours = none := by
  obtain ⟨f, hf⟩ := Res.of_isOk (r := (OsuFile.parse secS : Res _ (OsuFile Dec96))) (by decide)
  obtain ⟨g, hg⟩ := Res.of_isOk (r := (OsuFile.parse secT : Res _ (OsuFile Dec96))) (by decide)
  refine ⟨f, g, hf, hg, ?_⟩
  rw [secS_text] at hf
  rw [secT_text] at hg
  have hw : ∀ y ∈ ([(c!"General", c!"Mode: 1")] ++ [(c!"HitObjects", c!"1,2,3,1,0")] : List (Str × Str)), WellText y.2 := by
    intro y hy
    simp only [List.cons_append, List.nil_append, List.mem_cons, List.not_mem_nil, or_false] at hy
    rcases hy with rfl | rfl
    · exact well_line ⟨by decide, by decide, by decide⟩ (.cons (by decide))
    · exact well_line ⟨by decide, by decide, by decide⟩ (.cons (by decide))
  have := (C71_remove_written known_14 (by decide) hw (well_line ⟨by decide, by decide, by decide⟩ (.cons (by decide))) hf g).1 hg
  exact ⟨this.1, this.2.2⟩

example : ∃ f g : OsuFile Dec96, OsuFile.parse secT = .ok f ∧ OsuFile.parse secS = .ok g ∧ SameBut .colours f g ∧
    g.colours = some [.combo 1 ⟨1, 2, 3⟩] := by
  obtain ⟨f, hf⟩ := Res.of_isOk (r := (OsuFile.parse secT : Res _ (OsuFile Dec96))) (by decide)
  obtain ⟨g, hg⟩ := Res.of_isOk (r := (OsuFile.parse secS : Res _ (OsuFile Dec96))) (by decide)
  refine ⟨f, g, hf, hg, ?_⟩
  rw [secT_text] at hf
  rw [secS_text] at hg
  have hw : ∀ y ∈ ([(c!"General", c!"Mode: 1")] ++ [(c!"HitObjects", c!"1,2,3,1,0")] : List (Str × Str)), WellText y.2 := by
    intro y hy
    simp only [List.cons_append, List.nil_append, List.mem_cons, List.not_mem_nil, or_false] at hy
    rcases hy with rfl | rfl
    · exact well_line ⟨by decide, by decide, by decide⟩ (.cons (by decide))
    · exact well_line ⟨by decide, by decide, by decide⟩ (.cons (by decide))
  have := (C71_add_written known_14 (by decide) hw (well_line ⟨by decide, by decide, by decide⟩ (.cons (by decide))) hf (by decide) g).1 hg
  obtain ⟨h1, -, x, hx, hx'⟩ := this
  refine ⟨h1, hx'.trans ?_⟩
  have e : Colours.parse 14 c!"Combo1 : 1,2,3" = .ok (some [.combo 1 ⟨1, 2, 3⟩]) := by decide
  rw [e] at hx
  cases hx
  rfl

private theorem secS_layout : Layout c!"\n\n[General]\nMode: 1\n\n[Colours]\nCombo1 : 1,2,3\n\n[HitObjects]\n1,2,3,1,0" [[], []]
    ([⟨[], c!"General", ['\n'], c!"Mode: 1\n"⟩] ++ ⟨['\n'], c!"Colours", ['\n'], c!"Combo1 : 1,2,3\n"⟩ :: [⟨['\n'], c!"HitObjects", ['\n'], c!"1,2,3,1,0"⟩]) [] :=
  layout_iff.2 ⟨by decide, sections_iff.1 (by decide)⟩
private theorem secT_layout : Layout c!"\n\n[General]\nMode: 1\n\n[HitObjects]\n1,2,3,1,0" [[], []]
    ([⟨[], c!"General", ['\n'], c!"Mode: 1\n"⟩] ++ [⟨['\n'], c!"HitObjects", ['\n'], c!"1,2,3,1,0"⟩]) [] :=
  layout_iff.2 ⟨by decide, sections_iff.1 (by decide)⟩
private theorem secS_versioned : Versioned secS [] c!"14" c!"\n\n[General]\nMode: 1\n\n[Colours]\nCombo1 : 1,2,3\n\n[HitObjects]\n1,2,3,1,0" :=
  ⟨⟨[], .inl rfl, rfl⟩, nofun, by decide, by decide, .inr ⟨_, .inr rfl⟩⟩
private theorem secT_versioned : Versioned secT [] c!"14" c!"\n\n[General]\nMode: 1\n\n[HitObjects]\n1,2,3,1,0" :=
  ⟨⟨[], .inl rfl, rfl⟩, nofun, by decide, by decide, .inr ⟨_, .inr rfl⟩⟩
private theorem sec_pre : ∀ l ∈ ([[], []] : List Str), Ignorable l := by
  intro l hl
  have : l = [] := by simpa using hl
  exact .inl (by rw [this]; rfl)
private theorem sec_version {s : Str} {f : OsuFile Dec96} (h : OsuFile.parse s = .ok f)
    (hs : (OsuFile.parse s >>= fun f : OsuFile Dec96 => Res.ok f.version : Res _ Nat) = .ok 14) : f.version = 14 := by
  rw [h] at hs
  exact Res.ok.inj hs

example (f g : OsuFile Dec96) (h : OsuFile.parse secS = .ok f) : OsuFile.parse secT = .ok g ↔ SameBut .colours f g ∧ g.osb = none ∧ g.colours = none :=
  C71_remove_section secS_versioned secS_layout secT_versioned secT_layout sec_pre h (by rw [sec_version h (by decide)]; exact known_14)
    (n := .colours) rfl g

example (f g : OsuFile Dec96) (h : OsuFile.parse secT = .ok f) : OsuFile.parse secS = .ok g ↔ SameBut .colours f g ∧ g.osb = none ∧
    c!"Combo1 : 1,2,3\n" ≠ [] ∧ SectReads f.version g c!"Combo1 : 1,2,3\n" .colours :=
  C71_add_section secT_versioned secT_layout (by decide) secS_versioned secS_layout sec_pre h (by rw [sec_version h (by decide)]; exact known_14)
    (n := .colours) rfl g

end
end Osu
