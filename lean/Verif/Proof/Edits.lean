/-
Lemmas for edits of one section of a file.
-/
import Verif.Spec.Edits
import Verif.Props.Concat
import Verif.Props.FileText

namespace Osu
open Parser Ev

section
variable {D : Type} [DecLib D] [UniLib]

/-! ### Values -/

theorem SectSame.refl (f : OsuFile D) (n : SName) : SectSame f f n := by cases n <;> rfl

theorem SectSame.symm {f g : OsuFile D} {n : SName} (h : SectSame f g n) : SectSame g f n := by
  cases n <;> exact Eq.symm h

theorem sectSame_all {f g : OsuFile D} (hv : g.version = f.version) (ho : g.osb = f.osb) (h : ∀ n, SectSame f g n) : g = f := by
  have h1 := h .general; have h2 := h .editor; have h3 := h .metadata; have h4 := h .difficulty
  have h5 := h .events; have h6 := h .timingPoints; have h7 := h .colours; have h8 := h .hitobjects
  cases f; cases g
  simp only [SectSame] at *
  subst hv ho h1 h2 h3 h4 h5 h6 h7 h8
  rfl

theorem SectSame.absent {f g : OsuFile D} {n : SName} (h : SectSame f g n) : SectAbsent f n ↔ SectAbsent g n := by
  cases n <;> (simp only [SectSame] at h; simp only [SectAbsent, h])

theorem absent_same {f g : OsuFile D} {n : SName} (h : SectAbsent f n) (h' : SectAbsent g n) : SectSame f g n := by
  cases n <;> exact Eq.trans h (Eq.symm h')

theorem SectSame.reads {f g : OsuFile D} {n : SName} (h : SectSame f g n) {v : Nat} {b : Str} : SectReads v f b n ↔ SectReads v g b n := by
  cases n <;> (simp only [SectSame] at h; simp only [SectReads, h])

theorem reads_same {f g : OsuFile D} {n : SName} {v : Nat} {b : Str} (h : SectReads v f b n) (h' : SectReads v g b n) : SectSame f g n := by
  cases n <;>
  · obtain ⟨x, h1, h2⟩ := h
    obtain ⟨y, g1, g2⟩ := h'
    rw [h1] at g1
    cases g1
    exact h2.trans g2.symm

theorem SectSame.prints {f g : OsuFile D} {n : SName} (h : SectSame f g n) (hv : g.version = f.version) {t : Option Str} :
    SectPrints f t n ↔ SectPrints g t n := by
  cases n <;> (simp only [SectSame] at h; simp only [SectPrints, h, hv])

theorem sectPrints_fun {f : OsuFile D} {n : SName} {t u : Option Str} (h : SectPrints f t n) (h' : SectPrints f u n) : t = u := by
  cases n <;> simp only [SectPrints] at h h'
  case general => rw [h, h']
  case editor => rw [h, h']
  case metadata => rw [h, h']
  case difficulty => rw [h, h']
  case colours => rw [h, h']
  all_goals
    rcases h with ⟨h1, h2⟩ | ⟨x, s, h1, h2, h3⟩
    · rcases h' with ⟨-, g⟩ | ⟨y, u, g1, -, -⟩
      · rw [h2, g]
      · rw [h1] at g1; cases g1
    · rcases h' with ⟨g, -⟩ | ⟨y, u, g1, g2, g3⟩
      · rw [h1] at g; cases g
      · rw [h1] at g1; cases g1
        rw [h2] at g2; cases g2
        rw [h3, g3]

/-- A text as a layout of sections is accepted exactly as what they stand for. -/
theorem parse_layout {s ws num r rest : Str} {v : Nat} {pre : List Str} {xs : List Sect} (hv : Versioned s ws num r)
    (hk : KnownVersion num v) (hl : Layout r pre xs rest) (hp : ∀ l ∈ pre, Ignorable l) (f : OsuFile D) :
    OsuFile.parse s = .ok f ↔ FileReads v xs f := by
  rw [parse_versioned hv hk, parseRest_eq hl hp, fileLoop_ok]
  constructor
  · rintro ⟨h1, h2, h3, -, h5, h6⟩
    exact ⟨h1, h2, h3, h5, fun n hn => sectAbsent_new.2 (h6 n hn)⟩
  · rintro ⟨h1, h2, h3, h5, h6⟩
    exact ⟨h1, h2, h3, by simp, h5, fun n hn => sectAbsent_new.1 (h6 n hn)⟩

/-- What is known of a text that is accepted. -/
theorem parse_layout' {s ws num r rest : Str} {pre : List Str} {xs : List Sect} (hv : Versioned s ws num r)
    (hl : Layout r pre xs rest) {f : OsuFile D} (h : OsuFile.parse s = .ok f) :
    KnownVersion num f.version ∧ (∀ l ∈ pre, Ignorable l) ∧ FileReads f.version xs f := by
  obtain ⟨ws', num', r', pre', xs', rest', hv', hk', hl', hp', hf'⟩ := (C53_exact s f).1 h
  obtain ⟨rfl, rfl, rfl⟩ := versioned_unique hv hv'
  obtain ⟨rfl, rfl, rfl⟩ := layout_unique hl hl'
  exact ⟨hk', hp', hf'⟩

theorem fileReads_replace {v : Nat} {a b : List Sect} {x x' : Sect} {n : SName} (hn : n.text = x.name) (hx : x'.name = x.name)
    {f : OsuFile D} (hf : FileReads v (a ++ x :: b) f) (g : OsuFile D) :
    FileReads v (a ++ x' :: b) g ↔ SameBut n f g ∧ g.osb = none ∧ x'.body ≠ [] ∧ SectReads v g x'.body n := by
  obtain ⟨h1, h2, h3, h4, h5⟩ := hf
  have hnames : (a ++ x' :: b).map Sect.name = (a ++ x :: b).map Sect.name := by simp [hx]
  constructor
  · rintro ⟨g1, g2, g3, g4, g5⟩
    refine ⟨⟨g1.trans h1.symm, fun m hm => ?_⟩, g2, (g4 x' (by simp)).1, ?_⟩
    · by_cases hmem : m.text ∈ (a ++ x :: b).map Sect.name
      · obtain ⟨y, hy, e⟩ := List.mem_map.1 hmem
        have hy' : y ∈ a ++ b := by
          rcases List.mem_append.1 hy with hy | hy
          · exact List.mem_append_left _ hy
          · rcases List.mem_cons.1 hy with rfl | hy
            · exact absurd (SName.text_inj (e.symm.trans hn.symm)) hm
            · exact List.mem_append_right _ hy
        obtain ⟨-, k, hk, hr⟩ := h4 y hy
        obtain ⟨-, k', hk', hr'⟩ := g4 y (by
          rcases List.mem_append.1 hy' with hy | hy
          · exact List.mem_append_left _ hy
          · exact List.mem_append_right _ (List.mem_cons_of_mem _ hy))
        have := SName.text_inj (hk.trans e); subst this
        have := SName.text_inj (hk'.trans e); subst this
        exact reads_same hr hr'
      · exact absent_same (h5 m hmem) (g5 m (by rwa [hnames]))
    · obtain ⟨-, k, hk, hr⟩ := g4 x' (by simp)
      have := SName.text_inj (hk.trans (hx.trans hn.symm)); subst this
      exact hr
  · rintro ⟨⟨g1, g2⟩, g3, g4, g5⟩
    have hnd : n.text ∉ (a ++ b).map Sect.name := by
      rw [List.map_append, List.map_cons] at h3
      have := (List.perm_middle.nodup_iff.1 h3)
      rw [List.nodup_cons] at this
      rw [List.map_append, hn]
      exact this.1
    refine ⟨g1.trans h1, g3, by rw [hnames]; exact h3, fun y hy => ?_, fun m hm => ?_⟩
    · rcases List.mem_append.1 hy with hy | hy
      · obtain ⟨k1, k, hk, hr⟩ := h4 y (List.mem_append_left _ hy)
        refine ⟨k1, k, hk, (g2 k ?_).reads.1 hr⟩
        rintro rfl
        exact hnd (List.mem_map.2 ⟨y, List.mem_append_left _ hy, hk.symm⟩)
      · rcases List.mem_cons.1 hy with rfl | hy
        · exact ⟨g4, n, hn.trans hx.symm, g5⟩
        · obtain ⟨k1, k, hk, hr⟩ := h4 y (List.mem_append_right _ (List.mem_cons_of_mem _ hy))
          refine ⟨k1, k, hk, (g2 k ?_).reads.1 hr⟩
          rintro rfl
          exact hnd (List.mem_map.2 ⟨y, List.mem_append_right _ hy, hk.symm⟩)
    · rw [hnames] at hm
      refine (g2 m ?_).absent.1 (h5 m hm)
      rintro rfl
      exact hm (by rw [hn]; simp)

end

/-! ### Texts -/

/-- More lines after the last section belong to it. -/
theorem sections_extend {S u : Str} {a : List Sect} {x : Sect} (h : Sections S (a ++ [x]) []) (hx : x.body ≠ [])
    (hu : ∀ p q, x.body ++ u ≠ p ++ '\n' :: '[' :: q) : Sections (S ++ u) (a ++ [{ x with body := x.body ++ u }]) [] := by
  induction a generalizing S with
  | nil =>
    generalize he : [] ++ [x] = xs at h
    cases h with
    | nil => cases he
    | cons hw hn hw2 hb he' h =>
      cases he
      rename_i s
      cases h
      rw [List.append_nil] at hb ⊢
      have := Sections.cons (x := { x with body := x.body ++ u }) (s := []) (r := []) (xs := []) hw hn hw2
        (by rw [List.append_nil]
            intro c t e
            obtain ⟨d, w, hd⟩ := List.exists_cons_of_ne_nil hx
            rw [hd] at e hb
            cases e
            exact hb _ _ rfl)
        ⟨.inl rfl, hu⟩ (.nil (by
          rintro ⟨ws, name, r, e, -⟩
          cases ws <;> simp at e))
      rw [List.append_nil] at this
      simpa using this
  | cons y a ih =>
    generalize he : (y :: a) ++ [x] = xs at h
    cases h with
    | nil => cases he
    | cons hw hn hw2 hb he' h =>
      cases he
      rename_i s
      have hne : s ≠ [] := by
        intro hs
        have h' : Sections s (a ++ [x]) [] := h
        generalize hz : a ++ [x] = zs at h'
        cases h' with
        | nil => simp at hz
        | cons => simp at hs
      have := Sections.cons (x := y) (s := s ++ u) hw hn hw2 (by
          intro c t e
          rw [← List.append_assoc] at e
          obtain ⟨d, w, hd⟩ := List.exists_cons_of_ne_nil (l := y.body ++ s) (by simp [hne])
          rw [hd] at e hb
          cases e
          exact hb _ _ rfl)
        ⟨by
          rcases he'.1 with e | ⟨r', rfl⟩
          · exact absurd e hne
          · exact .inr ⟨r' ++ u, by simp⟩, he'.2⟩ (ih h)
      simpa using this

theorem mem_join_of {sep : Str} {ls : List Str} {l : Str} {c : Char} (h : l ∈ ls) (hc : c ∈ l) : c ∈ join sep ls := by
  induction ls with
  | nil => cases h
  | cons x ls ih =>
    cases ls with
    | nil =>
      rcases List.mem_cons.1 h with rfl | h
      · exact hc
      · cases h
    | cons y ls =>
      rw [join_cons_cons]
      rcases List.mem_cons.1 h with rfl | h
      · simp [hc]
      · exact List.mem_append_right _ (ih h)

theorem noBracket_app {b t : Str} (hb : ∀ p q, b ≠ p ++ '\n' :: '[' :: q) (ht : ∀ l ∈ lines t, l.head? ≠ some '[')
    (hj : join ['\n'] (lines t) = t) (hn : t ≠ []) : ∀ p q, b ++ '\n' :: t ≠ p ++ '\n' :: '[' :: q := by
  have hu : ∀ p q, '\n' :: t ≠ p ++ '\n' :: '[' :: q := by
    have hl : lines t ≠ [] := by intro e; rw [e] at hj; exact hn hj.symm
    have := noBracket_join (ls := [] :: lines t) (by simp) (by
      intro l hl
      rcases List.mem_cons.1 hl with rfl | hl
      · exact .nil
      · exact lines_noLF t l hl) ht
    obtain ⟨x, xs, e⟩ := List.exists_cons_of_ne_nil hl
    rw [e, join_cons_cons, ← e, hj] at this
    exact this
  intro p q e
  rcases List.append_eq_append_iff.1 e with ⟨c, h1, h2⟩ | ⟨c, h1, h2⟩
  · exact hu _ _ h2
  · cases c with
    | nil => exact hu [] q h2.symm
    | cons d c =>
      cases c with
      | nil => simp at h2
      | cons d' c =>
        simp only [List.cons_append, List.cons.injEq] at h2
        exact hb p c (by rw [h1, ← h2.1, ← h2.2.1])

theorem sections_last_body {S : Str} {a : List Sect} {x : Sect} {r : Str} (h : Sections S (a ++ [x]) r) :
    ∀ p q, x.body ≠ p ++ '\n' :: '[' :: q := by
  induction a generalizing S with
  | nil =>
    generalize he : [] ++ [x] = xs at h
    cases h with
    | nil => cases he
    | cons hw hn hw2 hb he' h => cases he; exact he'.2
  | cons y a ih =>
    generalize he : (y :: a) ++ [x] = xs at h
    cases h with
    | nil => cases he
    | cons hw hn hw2 hb he' h => cases he; exact ih h

theorem layout_extend {r t : Str} {pre : List Str} {a : List Sect} {x : Sect} (h : Layout r pre (a ++ [x]) []) (hx : x.body ≠ [])
    (hr : lines (r ++ '\n' :: t) = lines r ++ lines t) (ht : ∀ l ∈ lines t, l.head? ≠ some '[')
    (hj : join ['\n'] (lines t) = t) (hn : t ≠ []) :
    Layout (r ++ '\n' :: t) pre (a ++ [{ x with body := x.body ++ '\n' :: t }]) [] := by
  obtain ⟨ls, h1, h2, h3, h4⟩ := h
  have hls : ls ≠ [] := by
    rintro rfl
    have := sections_text h4
    simp [Sect.text, join] at this
  have hl : lines t ≠ [] := by intro e; rw [e] at hj; exact hn hj.symm
  refine ⟨ls ++ lines t, by rw [hr, h1, List.append_assoc], h2, ?_, ?_⟩
  · intro l hl
    rw [List.head?_append] at hl
    obtain ⟨y, ys, rfl⟩ := List.exists_cons_of_ne_nil hls
    exact h3 l (by simpa using hl)
  · rw [join_app hls hl, hj]
    exact sections_extend h4 hx (noBracket_app (sections_last_body h4) ht hj hn)

section
variable {D : Type} [DecLib D] [UniLib]

theorem append_last {s t : Str} {n : SName} {f : OsuFile D} (h : OsuFile.parse s = .ok f) (hl : LastSection s n.text) (hs : '\r' ∉ s)
    (hs2 : s.getLast? ≠ some '\n') (ht : '\r' ∉ t) (ht2 : t.getLast? ≠ some '\n') (hne : t ≠ [])
    (hb : ∀ l ∈ lines t, l.head? ≠ some '[') :
    ∃ body, '\r' ∉ body ∧ SectReads f.version f body n ∧ ∀ g : OsuFile D, OsuFile.parse (s ++ '\n' :: t) = .ok g ↔
      SameBut n f g ∧ g.osb = none ∧ SectReads f.version g (body ++ '\n' :: t) n := by
  obtain ⟨ws, num, r, pre, a, x, hv, hl, hx⟩ := hl
  obtain ⟨hk, hp, hf⟩ := parse_layout' hv hl h
  have hbody := (hf.2.2.2.1 x (by simp)).1
  have hread : SectReads f.version f x.body n := by
    obtain ⟨-, m, hm, hr⟩ := hf.2.2.2.1 x (by simp)
    have := SName.text_inj (hm.trans hx)
    subst this; exact hr
  have hj : join ['\n'] (lines t) = t := by
    rcases lines_text ht with e | e
    · exact e.symm
    · exact absurd (by rw [e]; simp) ht2
  have hr0 : r ≠ [] := by
    rintro rfl
    obtain ⟨ls, h1, -, -, h4⟩ := hl
    have := sections_text h4
    cases pre <;> cases ls <;> simp [Sect.text, join, lines, linesOf, splitNL] at this h1
  have hsr : s.getLast? = r.getLast? ∧ '\r' ∉ r := by
    obtain ⟨⟨bom, -, rfl⟩, -⟩ := hv
    constructor
    · rw [List.getLast?_append]
      obtain ⟨y, ys, rfl⟩ := List.exists_cons_of_ne_nil hr0
      rw [List.getLast?_cons]; rfl
    · intro hm; exact hs (List.mem_append_right _ hm)
  have hlines : lines (r ++ '\n' :: t) = lines r ++ lines t := by
    rw [lines_append, lines_final hr0 (by rw [← hsr.1]; exact hs2) (fun e => hsr.2 (List.mem_of_getLast? e))]
  have hcr : '\r' ∉ x.body := by
    obtain ⟨ls, h1, -, -, h4⟩ := hl
    have hj : '\r' ∉ join ['\n'] ls := join_noCR fun l hl hm => by
      have hml : l ∈ lines r := by rw [h1]; exact List.mem_append_right _ hl
      have : '\r' ∈ join ['\n'] (lines r) := mem_join_of hml hm
      rcases lines_text hsr.2 with e | e <;> exact hsr.2 (by rw [e]; simp [this])
    intro hm
    apply hj
    rw [sections_text h4]
    simp [Sect.text, hm]
  have hv' : Versioned (s ++ '\n' :: t) ws num (r ++ '\n' :: t) := by
    obtain ⟨⟨bom, hb, rfl⟩, hw, hn1, hn2, hr⟩ := hv
    refine ⟨⟨bom, hb, by simp⟩, hw, hn1, hn2, .inr ?_⟩
    rcases hr with rfl | ⟨r', rfl | rfl⟩
    · exact ⟨t, .inr rfl⟩
    · exact ⟨_, .inl rfl⟩
    · exact ⟨_, .inr rfl⟩
  refine ⟨x.body, hcr, hread, fun g => ?_⟩
  rw [parse_layout hv' hk (layout_extend hl hbody hlines hb hj hne) hp,
    fileReads_replace (x' := { x with body := x.body ++ '\n' :: t }) (n := n) hx.symm rfl hf]
  simp

end

end Osu
