/-
Texts made of blocks, one per section, and their layout.
-/
import Verif.Proof.FileLines
import Verif.Spec.FileText
import Verif.Props.File
import Verif.Proof.KVGrammar
import Verif.Props.Lines
import Verif.Props.Events

namespace Osu
open Parser Ev

/-! ### Blank text after a section -/

theorem Tail.no_colon {w : Str} (h : Tail w) : ':' ∉ w := by
  obtain ⟨-, -, h⟩ := h
  intro hc
  exact absurd (h _ hc) (by decide)

theorem KVEntries.tail {w : Str} (hw : Tail w) {s : Str} {es : List (KVLine × Str)} {r : Str} (h : KVEntries s es r) :
    KVEntries (s ++ w) es (r ++ w) ∨
      (r = [] ∧ ∃ p l gap, es = p ++ [(l, gap)] ∧ KVEntries (s ++ w) (p ++ [(l, gap ++ w)]) []) := by
  obtain ⟨w', rfl, hwm⟩ := hw
  induction h with
  | nil r => exact .inl (.nil _)
  | @cons l gap s es r hk hw hv hh hg hb hs he h ih =>
    cases h with
    | nil _ =>
      by_cases hr : s = []
      · subst hr
        right
        refine ⟨rfl, [], l, gap, rfl, ?_⟩
        have : l.text ++ (gap ++ []) ++ '\n' :: w' = l.text ++ ((gap ++ '\n' :: w') ++ []) := by simp
        rw [this]
        refine .cons hk hw hv hh (hg.append hwm) ?_ .nil (fun _ => rfl) (.nil _)
        cases gap with
        | nil => exact .cons (by decide)
        | cons c gap => exact .cons hb.of_cons
      · left
        have : l.text ++ (gap ++ s) ++ '\n' :: w' = l.text ++ (gap ++ (s ++ '\n' :: w')) := by simp
        rw [this]
        refine .cons hk hw hv hh hg hb ?_ (fun e => absurd (he e) hr) (.nil _)
        cases s with
        | nil => exact absurd rfl hr
        | cons c s => exact .cons hs.of_cons
    | @cons l2 gap2 s2 es2 _ hk2 hw2 hv2 hh2 hg2 hb2 hs2 he2 h2 =>
      have hne : l2.text ++ (gap2 ++ s2) ≠ [] := by
        intro e
        have := congrArg List.length e
        have h0 := l2.text_length
        simp only [List.length_append, List.length_nil] at this
        omega
      have hgap : gap ≠ [] := fun e => hne (he e)
      have hs' : HeadNot isMultispace (l2.text ++ (gap2 ++ s2) ++ '\n' :: w') := by
        generalize l2.text ++ (gap2 ++ s2) = z at hne hs
        cases z with
        | nil => exact absurd rfl hne
        | cons c z => exact .cons hs.of_cons
      have e1 : l.text ++ (gap ++ (l2.text ++ (gap2 ++ s2))) ++ '\n' :: w' = l.text ++ (gap ++ (l2.text ++ (gap2 ++ s2) ++ '\n' :: w')) := by simp
      rcases ih with ih | ⟨hr, p, l', gap', e, ih⟩
      · left
        rw [e1]
        exact .cons hk hw hv hh hg hb hs' (fun e => absurd e hgap) ih
      · right
        refine ⟨hr, (l, gap) :: p, l', gap', by rw [e]; rfl, ?_⟩
        rw [e1]
        exact .cons hk hw hv hh hg hb hs' (fun e => absurd e hgap) ih

theorem NoEntry.tail {w : Str} (hw : ':' ∉ w) {r : Str} (h : NoEntry r) : NoEntry (r ++ w) := by
  intro a b e
  rcases List.append_eq_append_iff.1 e with ⟨as, h1, h2⟩ | ⟨bs, h1, h2⟩
  · exact absurd (by rw [h2]; simp) hw
  · cases bs with
    | nil => exact absurd (by rw [List.nil_append] at h2; rw [← h2]; simp) hw
    | cons c bs =>
      simp only [List.cons_append, List.cons.injEq] at h2
      obtain ⟨rfl, -⟩ := h2
      exact h a bs h1

namespace Schema
variable {S : Schema}

theorem run_last (v : Nat) (fs : List FieldLine) {f f' : FieldLine} (h1 : f.name = f'.name) (h2 : f.value = f'.value) :
    ∀ n seen sec, S.run v (fs ++ [f]) n seen sec = S.run v (fs ++ [f']) n seen sec := by
  induction fs with
  | nil =>
    intro n seen sec
    simp only [List.nil_append, run, h1, h2]
  | cons g fs ih =>
    intro n seen sec
    simp only [List.cons_append, run]
    split
    · rfl
    · split
      · rfl
      · split
        · rfl
        · rfl
        · exact ih _ _ _

/-- Blank lines after a key/value section make no difference. -/
theorem fromStr_tail {w : Str} (hw : Tail w) (v : Nat) (s : Str) : S.fromStr v (s ++ w) = S.fromStr v s := by
  obtain ⟨es, r, h, hn⟩ := kvSplits_exists s
  have hms : AllC isWs w := by
    obtain ⟨-, -, h⟩ := hw
    refine h.mono ?_
    intro c hc
    simp only [isMultispace, Bool.or_eq_true, beq_iff_eq] at hc
    rcases hc with ((rfl | rfl) | rfl) | rfl <;> decide
  rcases h.tail hw with h' | ⟨rfl, p, l, gap, rfl, h'⟩
  · rw [fromStr_split ⟨h', hn.tail hw.no_colon⟩, fromStr_split ⟨h, hn⟩]
    have : trim (r ++ w) ≠ [] ↔ trim r ≠ [] := by
      rw [ne_eq, ne_eq, trim_eq_nil, trim_eq_nil]
      exact not_congr ⟨fun h c hc => h c (by simp [hc]), fun h => h.append hms⟩
    simp only [this]
  · rw [fromStr_split ⟨h', hn⟩, fromStr_split ⟨h, hn⟩]
    simp only [List.map_append, List.map_cons, List.map_nil]
    rw [run_last v (p.map toFieldLine) (f := toFieldLine (l, gap ++ w)) (f' := toFieldLine (l, gap)) rfl rfl]
    rfl

end Schema

/-! ### Blocks -/

theorem mapErr_ok {ε ε' α : Type} {g g' : ε → ε'} {r r' : Res ε α} (h : r.mapErr g = r'.mapErr g') (a : α) : r = .ok a ↔ r' = .ok a := by
  cases r <;> cases r' <;> simp_all [Res.mapErr]

section
variable {D : Type} [DecLib D] [UniLib]

/-- Blank lines after a section make no difference. -/
theorem sectReads_tail {w body : Str} (hw : Tail w) (hb : body.getLast? ≠ some '\r') {v : Nat} {f : OsuFile D} {n : SName} :
    SectReads v f (body ++ w) n ↔ SectReads v f body n := by
  have hbe : BlankEq body (body ++ w) := by
    obtain ⟨w', rfl, hm⟩ := hw
    refine .ins (.refl _) (.last body w' hb ?_)
    intro c hc
    have hc := hm c (by simp [hc])
    simp only [isMultispace, Bool.or_eq_true, beq_iff_eq] at hc
    rcases hc with ((rfl | rfl) | rfl) | rfl <;> decide
  cases n
  case general => simp only [SectReads, Schema.fromStr_tail hw]
  case editor => simp only [SectReads, Schema.fromStr_tail hw]
  case metadata => simp only [SectReads, Schema.fromStr_tail hw]
  case difficulty => simp only [SectReads, Schema.fromStr_tail hw]
  case events => simp only [SectReads, mapErr_ok (C14_events hbe)]
  case timingPoints => simp only [SectReads, mapErr_ok (C14_timing_points hbe)]
  case colours => simp only [SectReads, mapErr_ok (C14_colours hbe)]
  case hitobjects => simp only [SectReads, mapErr_ok (C14_hit_objects hbe)]

end


/-! ### The layout of a text made of blocks -/

theorem noBracket_join {ls : List Str} (hne : ls ≠ []) (hl : ∀ l ∈ ls, NoLF l) (ht : ∀ l ∈ ls.tail, l.head? ≠ some '[') :
    ∀ a b, join ['\n'] ls ≠ a ++ '\n' :: '[' :: b := by
  intro a b e
  have h1 := splitNL_join hne hl
  have h2 : join ['\n'] ls = (a ++ ['\n']) ++ '[' :: b := by rw [e]; simp
  obtain ⟨A, x, y, B, ha, hb, hc, -, hx⟩ := splitNL_app (a := a ++ ['\n']) (b := '[' :: b)
  rw [← h2, h1] at hc
  have hx' : x = [] := hx (.inr (by simp))
  subst hx'
  rw [splitNL_snoc] at ha
  have hA : A ≠ [] := by
    rintro rfl
    have := congrArg List.length ha
    simp at this
    exact splitNL_ne_nil a this
  obtain ⟨z, A', rfl⟩ := List.exists_cons_of_ne_nil hA
  have hy : y.head? = some '[' := by
    rw [splitNL, if_neg (by decide)] at hb
    cases hs : splitNL b with
    | nil => exact absurd hs (splitNL_ne_nil b)
    | cons q r => rw [hs] at hb; simp only [List.cons.injEq] at hb; rw [← hb.1]; rfl
  exact ht y (by rw [hc]; simp) hy

theorem WellText.ne_nil {t : Str} (h : WellText t) : t ≠ [] := by
  obtain ⟨ls, rfl, hne, hl, -⟩ := h
  cases ls with
  | nil => exact absurd rfl hne
  | cons l ls =>
    have := (hl l (by simp)).ne_nil
    cases ls with
    | nil => exact this
    | cons l' ls => rw [join_cons_cons]; simp

theorem WellText.head {t : Str} (h : WellText t) : HeadNot isMultispace t := by
  obtain ⟨ls, rfl, hne, hl, hh, -⟩ := h
  cases ls with
  | nil => exact absurd rfl hne
  | cons l ls =>
    have h1 := (hl l (by simp)).ne_nil
    have h2 := hh l rfl
    obtain ⟨c, l, rfl⟩ := List.exists_cons_of_ne_nil h1
    cases ls with
    | nil => exact h2
    | cons l' ls => rw [join_cons_cons]; exact .cons h2.of_cons

theorem WellText.noBracket {t : Str} (h : WellText t) : ∀ a b, t ≠ a ++ '\n' :: '[' :: b := by
  obtain ⟨ls, rfl, hne, hl, -, ht⟩ := h
  exact noBracket_join hne (fun l hm => (hl l hm).lf) ht

theorem join_getLast {ls : List Str} {l : Str} (h : ls.getLast? = some l) (hl : l ≠ []) : (join ['\n'] ls).getLast? = l.getLast? := by
  induction ls with
  | nil => cases h
  | cons x ls ih =>
    cases ls with
    | nil => cases h; rfl
    | cons y ls =>
      have h' : (y :: ls).getLast? = some l := by rw [← h]; simp [List.getLast?_cons]
      rw [join_cons_cons, List.getLast?_append, ih h']
      cases hg : l.getLast? with
      | none => rw [List.getLast?_eq_none_iff] at hg; exact absurd hg hl
      | some c => rfl

theorem WellText.last {t : Str} (h : WellText t) : t.getLast? ≠ some '\r' := by
  obtain ⟨ls, rfl, hne, hl, -, -⟩ := h
  cases hg : ls.getLast? with
  | none => rw [List.getLast?_eq_none_iff] at hg; exact absurd hg hne
  | some l =>
    have := hl l (List.mem_of_getLast? hg)
    rw [join_getLast hg this.ne_nil]
    exact this.cr

/-- The sections of a text made of blocks. -/
def blockSects : Str → List (Str × Str) → List Sect
  | _, [] => []
  | w, [b] => [⟨w, b.1, ['\n'], b.2⟩]
  | w, b :: b' :: bs => ⟨w, b.1, ['\n'], b.2 ++ ['\n']⟩ :: blockSects ['\n'] (b' :: bs)

/-- A name that can stand in brackets. -/
def NameOK (n : Str) : Prop := ']' ∉ n ∧ '\n' ∉ n

theorem blocks_sections {bs : List (Str × Str)} (h : ∀ b ∈ bs, NameOK b.1 ∧ WellText b.2) (hne : bs ≠ []) :
    ∀ w, AllC isMultispace w → Sections (w ++ join ['\n', '\n'] (bs.map blockText)) (blockSects w bs) [] := by
  induction bs with
  | nil => exact absurd rfl hne
  | cons b bs ih =>
    intro w hw
    obtain ⟨hn, ht⟩ := h b (by simp)
    have hnil : Sections [] [] [] := .nil (by
      rintro ⟨ws, nm, r, e, -⟩
      have := congrArg List.length e
      simp at this)
    cases bs with
    | nil =>
      have : w ++ join ['\n', '\n'] (List.map blockText [b]) = w ++ '[' :: (b.1 ++ ']' :: (['\n'] ++ (b.2 ++ []))) := by
        simp [join, blockText]
      rw [this]
      exact .cons (x := ⟨w, b.1, ['\n'], b.2⟩) hw hn (.cons (by decide) .nil) (by rw [List.append_nil]; exact ht.head)
        ⟨.inl rfl, ht.noBracket⟩ hnil
    | cons b' bs =>
      have ih := ih (fun x hx => h x (by simp [hx])) (by simp) ['\n'] (.cons (by decide) .nil)
      have : w ++ join ['\n', '\n'] (List.map blockText (b :: b' :: bs)) =
          w ++ '[' :: (b.1 ++ ']' :: (['\n'] ++ ((b.2 ++ ['\n']) ++ (['\n'] ++ join ['\n', '\n'] (List.map blockText (b' :: bs)))))) := by
        rw [List.map_cons, List.map_cons, join_cons_cons]
        simp [blockText]
      rw [this]
      refine .cons (x := ⟨w, b.1, ['\n'], b.2 ++ ['\n']⟩) hw hn (.cons (by decide) .nil) ?_ ⟨.inr ?_, ?_⟩ ih
      · have h1 := ht.head
        obtain ⟨c, t, e⟩ := List.exists_cons_of_ne_nil ht.ne_nil
        show HeadNot isMultispace (b.2 ++ ['\n'] ++ _)
        rw [e] at h1 ⊢
        exact .cons h1.of_cons
      · cases bs with
        | nil => exact ⟨_, by simp [join, blockText]; rfl⟩
        | cons b2 bs => exact ⟨_, by rw [List.map_cons, List.map_cons, join_cons_cons]; simp [blockText]; rfl⟩
      · intro a q e
        rcases List.eq_nil_or_concat q with rfl | ⟨q', z, rfl⟩
        · have := congrArg List.getLast? (show b.2 ++ ['\n'] = (a ++ ['\n']) ++ ['['] by rw [show b.2 ++ ['\n'] = _ from e]; simp)
          simp at this
        · have e : b.2 ++ ['\n'] = (a ++ '\n' :: '[' :: q') ++ [z] := by
            rw [show b.2 ++ ['\n'] = _ from e]; simp
          exact ht.noBracket a q' (List.append_inj_left' e rfl)

/-- The lines of a text made of blocks. -/
def blockLines : List (Str × List Str) → List Str
  | [] => []
  | [b] => (['['] ++ b.1 ++ [']']) :: b.2
  | b :: b' :: bs => (['['] ++ b.1 ++ [']']) :: (b.2 ++ [] :: blockLines (b' :: bs))

theorem join_app {ls ms : List Str} (h : ls ≠ []) (h' : ms ≠ []) : join ['\n'] (ls ++ ms) = join ['\n'] ls ++ '\n' :: join ['\n'] ms := by
  induction ls with
  | nil => exact absurd rfl h
  | cons a ls ih =>
    obtain ⟨m, ms, rfl⟩ := List.exists_cons_of_ne_nil h'
    cases ls with
    | nil => simp [join_cons_cons]; rfl
    | cons b ls => rw [List.cons_append, List.cons_append, join_cons_cons, ← List.cons_append, ih (by simp), join_cons_cons]; simp

theorem blockLines_ne {b : Str × List Str} {bs : List (Str × List Str)} : blockLines (b :: bs) ≠ [] := by
  cases bs <;> simp [blockLines]

theorem blockLines_join {bs : List (Str × List Str)} (h : ∀ b ∈ bs, b.2 ≠ []) :
    join ['\n', '\n'] ((bs.map fun b => (b.1, join ['\n'] b.2)).map blockText) = join ['\n'] (blockLines bs) := by
  induction bs with
  | nil => rfl
  | cons b bs ih =>
    have hb := h b (by simp)
    have h1 : join ['\n'] ((['['] ++ b.1 ++ [']']) :: b.2) = blockText (b.1, join ['\n'] b.2) := by
      obtain ⟨l, ls, e⟩ := List.exists_cons_of_ne_nil hb
      rw [e, join_cons_cons]
      simp [blockText]
    cases bs with
    | nil => exact h1.symm
    | cons b' bs =>
      have ih := ih fun x hx => h x (by simp [hx])
      have e0 : join ['\n', '\n'] (List.map blockText (List.map (fun b => (b.1, join ['\n'] b.2)) (b :: b' :: bs))) =
          blockText (b.1, join ['\n'] b.2) ++ ['\n', '\n'] ++
            join ['\n', '\n'] (List.map blockText (List.map (fun b => (b.1, join ['\n'] b.2)) (b' :: bs))) := rfl
      rw [e0, ih, blockLines, ← List.cons_append, join_app (by simp) (by simp), h1]
      obtain ⟨l, ls, e⟩ := List.exists_cons_of_ne_nil (blockLines_ne (b := b') (bs := bs))
      rw [e, join_cons_cons]
      simp

theorem blockLines_mem {bs : List (Str × List Str)} {l : Str} (h : l ∈ blockLines bs) :
    l = [] ∨ ∃ b ∈ bs, l = ['['] ++ b.1 ++ [']'] ∨ l ∈ b.2 := by
  induction bs with
  | nil => cases h
  | cons b bs ih =>
    cases bs with
    | nil =>
      rcases List.mem_cons.1 h with h | h
      · exact .inr ⟨b, by simp, .inl h⟩
      · exact .inr ⟨b, by simp, .inr h⟩
    | cons b' bs =>
      rcases List.mem_cons.1 h with h | h
      · exact .inr ⟨b, by simp, .inl h⟩
      · rcases List.mem_append.1 h with h | h
        · exact .inr ⟨b, by simp, .inr h⟩
        · rcases List.mem_cons.1 h with h | h
          · exact .inl h
          · rcases ih h with h | ⟨x, hx, h⟩
            · exact .inl h
            · exact .inr ⟨x, List.mem_cons_of_mem _ hx, h⟩

theorem blockLines_last {bs : List (Str × List Str)} (h : ∀ b ∈ bs, b.2 ≠ []) {l : Str} (hl : (blockLines bs).getLast? = some l) :
    ∃ b ∈ bs, l ∈ b.2 := by
  induction bs with
  | nil => cases hl
  | cons b bs ih =>
    cases bs with
    | nil =>
      refine ⟨b, by simp, ?_⟩
      obtain ⟨x, xs, e⟩ := List.exists_cons_of_ne_nil (h b (by simp))
      rw [blockLines, e, List.getLast?_cons_cons] at hl
      rw [e]; exact List.mem_of_getLast? hl
    | cons b' bs =>
      obtain ⟨x, xs, e⟩ := List.exists_cons_of_ne_nil (blockLines_ne (b := b') (bs := bs))
      have : (blockLines (b :: b' :: bs)).getLast? = (blockLines (b' :: bs)).getLast? := by
        rw [blockLines, e, ← List.cons_append, List.getLast?_append, List.getLast?_cons_cons]
        simp [List.getLast?_cons]
      rw [this] at hl
      obtain ⟨y, hy, hm⟩ := ih (fun x hx => h x (by simp [hx])) hl
      exact ⟨y, List.mem_cons_of_mem _ hy, hm⟩

theorem wellTexts {bs : List (Str × Str)} (h : ∀ b ∈ bs, WellText b.2) : ∃ cs : List (Str × List Str),
    bs = cs.map (fun b => (b.1, join ['\n'] b.2)) ∧ ∀ b ∈ cs, b.2 ≠ [] ∧ ∀ l ∈ b.2, LineOK l := by
  induction bs with
  | nil => exact ⟨[], rfl, by simp⟩
  | cons b bs ih =>
    obtain ⟨cs, e, h'⟩ := ih fun x hx => h x (by simp [hx])
    obtain ⟨ls, e2, h1, h2, -⟩ := h b (by simp)
    refine ⟨(b.1, ls) :: cs, by simp [e, ← e2], ?_⟩
    intro x hx
    rcases List.mem_cons.1 hx with rfl | hx
    · exact ⟨h1, h2⟩
    · exact h' x hx

theorem bracket_trim (n : Str) : trim (['['] ++ n ++ [']']) = ['['] ++ n ++ [']'] := by
  have h : isWs '[' = false := by decide
  have h' : isWs ']' = false := by decide
  refine trim_id (.cons h) ?_
  rw [List.reverse_append]
  exact .cons h'

theorem not_bracketed_nil : ¬Bracketed [] := by
  rintro (⟨r, h⟩ | ⟨r, h⟩)
  · cases h
  · have := congrArg List.length h
    rw [show trim [] = [] from rfl] at this
    simp at this

/-- The layout of what follows the version number. -/
theorem blocks_layout {bs : List (Str × Str)} (h : ∀ b ∈ bs, NameOK b.1 ∧ WellText b.2) :
    Layout (c!"\n\n" ++ join ['\n', '\n'] (bs.map blockText)) [[], []] (blockSects [] bs) [] := by
  cases bs with
  | nil =>
    refine ⟨[], by decide, ?_, nofun, ?_⟩
    · intro l hl hb
      have : l = [] := by simpa using hl
      subst this
      exact not_bracketed_nil hb
    · exact .nil (by
        rintro ⟨ws, nm, r, e, -⟩
        have := congrArg List.length e
        simp [join] at this)
  | cons b bs =>
    obtain ⟨cs, e, hc⟩ := wellTexts fun x hx => (h x hx).2
    obtain ⟨c, cs, rfl⟩ : ∃ c cs', cs = c :: cs' := by
      cases cs with
      | nil => cases e
      | cons c cs => exact ⟨c, cs, rfl⟩
    have hnm : ∀ x ∈ c :: cs, NameOK x.1 := by
      intro x hx
      exact (h (x.1, join ['\n'] x.2) (by rw [e]; exact List.mem_map.2 ⟨x, hx, rfl⟩)).1
    have hjoin : join ['\n', '\n'] ((b :: bs).map blockText) = join ['\n'] (blockLines (c :: cs)) := by
      rw [e]; exact blockLines_join fun x hx => (hc x hx).1
    have hsec := blocks_sections h (by simp) [] .nil
    rw [List.nil_append] at hsec
    obtain ⟨z, zs, ez⟩ := List.exists_cons_of_ne_nil (blockLines_ne (b := c) (bs := cs))
    refine ⟨blockLines (c :: cs), ?_, ?_, ?_, ?_⟩
    · rw [hjoin]
      have : c!"\n\n" ++ join ['\n'] (blockLines (c :: cs)) = join ['\n'] ([[], []] ++ blockLines (c :: cs)) := by
        rw [ez]; rfl
      rw [this]
      have hm : ∀ l ∈ [[], []] ++ blockLines (c :: cs), l = [] ∨ ∃ b ∈ c :: cs, l = ['['] ++ b.1 ++ [']'] ∨ l ∈ b.2 := by
        intro l hl
        rcases List.mem_append.1 hl with hl | hl
        · left; simpa using hl
        · exact blockLines_mem hl
      refine lines_join ?_ ?_ ?_
      · intro l hl
        rcases hm l hl with rfl | ⟨x, hx, rfl | hl⟩
        · exact .nil
        · intro d hd
          have : d ≠ '\n' := by
            rintro rfl
            have := (hnm x hx).2
            simp [this] at hd
          simpa using this
        · exact ((hc x hx).2 l hl).lf
      · intro l hl
        rcases hm l hl with rfl | ⟨x, hx, rfl | hl⟩
        · simp [NoEndCR]
        · unfold NoEndCR
          rw [List.getLast?_append]
          simp
        · exact ((hc x hx).2 l hl).cr
      · intro l hl
        have : (blockLines (c :: cs)).getLast? = some l := by
          rw [List.getLast?_append, ez] at hl
          rw [ez, ← hl]
          cases h : (z :: zs).getLast? with
          | none => rw [List.getLast?_eq_none_iff] at h; cases h
          | some q => rfl
        obtain ⟨x, hx, hm⟩ := blockLines_last (fun x hx => (hc x hx).1) this
        exact ((hc x hx).2 l hm).ne_nil
    · intro l hl hb
      have : l = [] := by simpa using hl
      subst this
      exact not_bracketed_nil hb
    · intro l hl
      have : l = ['['] ++ c.1 ++ [']'] := by
        cases cs <;> (simp only [blockLines, List.head?_cons, Option.some.injEq] at hl; exact hl.symm)
      subst this
      exact .inl ⟨c.1 ++ [']'], bracket_trim c.1⟩
    · rw [← hjoin]; exact hsec

/-! ### Reading a text made of blocks -/

theorem blockSects_names (bs : List (Str × Str)) : ∀ w, (blockSects w bs).map Sect.name = bs.map Prod.fst := by
  induction bs with
  | nil => intro w; rfl
  | cons b bs ih =>
    intro w
    cases bs with
    | nil => rfl
    | cons b' bs => rw [blockSects, List.map_cons, ih, List.map_cons (l := b' :: bs)]

theorem blockSects_mem {bs : List (Str × Str)} : ∀ {w : Str} {x : Sect}, x ∈ blockSects w bs →
    ∃ b ∈ bs, x.name = b.1 ∧ (x.body = b.2 ∨ x.body = b.2 ++ ['\n']) := by
  induction bs with
  | nil => intro w x hx; cases hx
  | cons b bs ih =>
    intro w x hx
    cases bs with
    | nil =>
      rw [blockSects, List.mem_singleton] at hx
      subst hx
      exact ⟨b, by simp, rfl, .inl rfl⟩
    | cons b' bs =>
      rw [blockSects] at hx
      rcases List.mem_cons.1 hx with rfl | hx
      · exact ⟨b, by simp, rfl, .inr rfl⟩
      · obtain ⟨y, hy, h⟩ := ih hx
        exact ⟨y, List.mem_cons_of_mem _ hy, h⟩

theorem blockSects_mem' {bs : List (Str × Str)} : ∀ {w : Str} {b : Str × Str}, b ∈ bs →
    ∃ x ∈ blockSects w bs, x.name = b.1 ∧ (x.body = b.2 ∨ x.body = b.2 ++ ['\n']) := by
  induction bs with
  | nil => intro w b hb; cases hb
  | cons c bs ih =>
    intro w b hb
    cases bs with
    | nil =>
      have := List.mem_singleton.1 hb
      subst this
      exact ⟨⟨w, b.1, ['\n'], b.2⟩, by rw [blockSects]; simp, rfl, .inl rfl⟩
    | cons b' bs =>
      rw [blockSects]
      rcases List.mem_cons.1 hb with rfl | hb
      · exact ⟨⟨w, b.1, ['\n'], b.2 ++ ['\n']⟩, by simp, rfl, .inr rfl⟩
      · obtain ⟨y, hy, h⟩ := ih (w := ['\n']) hb
        exact ⟨y, List.mem_cons_of_mem _ hy, h⟩

theorem tail_nl : Tail ['\n'] := ⟨[], rfl, .cons (by decide) .nil⟩

section
variable {D : Type} [DecLib D] [UniLib]

/-- What is read from a text made of blocks. -/
theorem blocks_read {num : Str} {bs : List (Str × Str)} (h : ∀ b ∈ bs, WellText b.2) (hn : ∀ b ∈ bs, NameOK b.1) {v : Nat}
    (hv : KnownVersion num v) (f : OsuFile D) :
    OsuFile.parse (fileText num bs) = .ok f ↔ f.version = v ∧ f.osb = none ∧ (bs.map Prod.fst).Nodup ∧
      (∀ b ∈ bs, ∃ n : SName, n.text = b.1 ∧ SectReads v f b.2 n) ∧ ∀ n : SName, n.text ∉ bs.map Prod.fst → SectAbsent f n := by
  have hnum : '\r' ∉ num ∧ '\n' ∉ num := by
    obtain ⟨u, hu, -⟩ := knownVersion_iff.1 hv
    have := (parseU8_chars hu).2
    constructor <;> (intro hm; exact absurd (this _ hm) (by decide))
  have hver : Versioned (fileText num bs) [] num (c!"\n\n" ++ join ['\n', '\n'] (bs.map blockText)) :=
    ⟨⟨[], .inl rfl, by simp [fileText]⟩, .nil, hnum.1, hnum.2, .inr ⟨_, .inr rfl⟩⟩
  have hl := blocks_layout fun b hb => ⟨hn b hb, h b hb⟩
  have hp : ∀ l ∈ [([] : Str), []], Ignorable l := by
    intro l hl
    have : l = [] := by simpa using hl
    subst this
    exact .inl rfl
  rw [parse_versioned hver hv, parseRest_eq hl hp, fileLoop_ok, blockSects_names]
  have key : ∀ {x : Sect} {b : Str × Str}, b ∈ bs → x.name = b.1 → (x.body = b.2 ∨ x.body = b.2 ++ ['\n']) →
      ((x.body ≠ [] ∧ ∃ n : SName, n.text = x.name ∧ SectReads v f x.body n) ↔ ∃ n : SName, n.text = b.1 ∧ SectReads v f b.2 n) := by
    intro x b hb e1 e2
    have hne := (h b hb).ne_nil
    rw [e1]
    rcases e2 with e2 | e2
    · rw [e2]; exact ⟨fun h => h.2, fun h => ⟨hne, h⟩⟩
    · rw [e2]
      simp only [sectReads_tail tail_nl (h b hb).last]
      exact ⟨fun h => h.2, fun h => ⟨by simp, h⟩⟩
  constructor
  · rintro ⟨h1, h2, h3, -, h5, h6⟩
    refine ⟨h1, h2, h3, ?_, fun n hn => sectAbsent_new.2 (h6 n hn)⟩
    intro b hb
    obtain ⟨x, hx, e1, e2⟩ := blockSects_mem' (w := []) hb
    exact (key hb e1 e2).1 (h5 x hx)
  · rintro ⟨h1, h2, h3, h5, h6⟩
    refine ⟨h1, h2, h3, by simp, ?_, fun n hn => sectAbsent_new.1 (h6 n hn)⟩
    intro x hx
    obtain ⟨b, hb, e1, e2⟩ := blockSects_mem hx
    exact (key hb e1 e2).2 (h5 b hb)

end

end Osu
