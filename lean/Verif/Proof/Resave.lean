/-
Comparing a text with what is written after reading it.
-/
import Verif.Spec.Resave
import Verif.Proof.FilePrint
import Verif.Proof.Trimmer
import Verif.Proof.FileLoop
import Verif.Proof.FaultsColours

namespace Osu
open Parser Ev Trimmer

theorem multi_ws {w : Str} (h : AllC isMultispace w) : AllC isWs w :=
  h.mono fun c hc => by
    simp only [isMultispace, Bool.or_eq_true, beq_iff_eq] at hc
    rcases hc with ((rfl | rfl) | rfl) | rfl <;> decide

/-- The header of a section. -/
def headerOf (n : Str) : Str := '[' :: (n ++ [']'])

theorem headerOf_looks (n : Str) : LooksHeader (headerOf n) := by
  refine ⟨rfl, ?_⟩
  unfold headerOf
  rw [← List.cons_append, List.getLast?_concat]

theorem headerOf_clean {n : Str} (h : '﻿' ∉ n) : cleanLine (headerOf n) = headerOf n := by
  refine cleanLine_id (bracket_trim n) ?_
  simp [headerOf, h]

theorem headerOf_lines {n a : Str} (h : '﻿' ∉ n) (hn : '\n' ∉ n) (ha : AllC isWs a) (ha' : '\n' ∉ a) :
    cleanLines (headerOf n ++ a) = [headerOf n] := by
  have h1 : NoLF (headerOf n ++ a) := by
    intro c hc
    simp only [headerOf, List.cons_append, List.append_assoc, List.mem_cons, List.mem_append, List.mem_nil_iff, or_false] at hc
    simp only [Bool.not_eq_true', beq_eq_false_iff_ne]
    rintro rfl
    rcases hc with hc | hc | hc | hc
    · cases hc
    · exact hn hc
    · cases hc
    · simp only [List.not_mem_nil, false_or] at hc; exact ha' hc
  rw [cleanLines_noLF h1, cleaned_single_congr (cleanLine_append_ws ha)]
  simp [cleaned, headerOf_clean h]
  simp [headerOf]

theorem break_at {w : Str} (h : '\n' ∈ w) : ∃ a b, w = a ++ '\n' :: b ∧ '\n' ∉ a := by
  obtain ⟨l, b, hl, ⟨rfl, -⟩ | rfl⟩ := firstLine w
  · have := hl _ h; simp at this
  · exact ⟨l, b, rfl, fun hm => by have := hl _ hm; simp at this⟩

/-- The cleaned lines of sections. -/
theorem cleanLines_sections {t : Str} {xs : List Sect} {r : Str} (h : Sections t xs r) (hr : r = []) (ha : ∀ x ∈ xs, '\n' ∈ x.ws2)
    (hn : ∀ x ∈ xs, '﻿' ∉ x.name) : cleanLines t = xs.flatMap fun x => headerOf x.name :: cleanLines x.body := by
  induction h with
  | nil h => subst hr; rfl
  | @cons x s xs r hw hn' hw2 hb he h ih =>
    have i := ih hr (fun y hy => ha y (List.mem_cons_of_mem _ hy)) (fun y hy => hn y (List.mem_cons_of_mem _ hy))
    obtain ⟨a, b, e, ha'⟩ := break_at (ha x (by simp))
    have hw2 := multi_ws hw2
    rw [e] at hw2
    have ew : x.ws ++ '[' :: (x.name ++ ']' :: (x.ws2 ++ (x.body ++ s))) =
        x.ws ++ ((headerOf x.name ++ a) ++ '\n' :: (b ++ (x.body ++ s))) := by
      rw [e]; simp [headerOf]
    rw [ew, cleanLines_ws_append (multi_ws hw), cleanLines_append,
      headerOf_lines (hn x (by simp)) hn'.2 (fun c hc => hw2 c (by simp [hc])) ha',
      cleanLines_ws_append (fun c hc => hw2 c (by simp [hc])), List.flatMap_cons, ← i]
    have : cleanLines (x.body ++ s) = cleanLines x.body ++ cleanLines s := by
      rcases he.1 with rfl | ⟨r', rfl⟩
      · rw [List.append_nil]; exact (List.append_nil _).symm
      · rw [cleanLines_append, ← cleanLines_ws_append (w := ['\n']) (s := '[' :: r') (by intro c hc; simp at hc; subst hc; decide)]
        rfl
    rw [this]; rfl

theorem cleanLines_layout {r : Str} {pre : List Str} {xs : List Sect} (h : Layout r pre xs []) (ha : ∀ x ∈ xs, '\n' ∈ x.ws2)
    (hn : ∀ x ∈ xs, '﻿' ∉ x.name) :
    cleanLines r = cleaned pre ++ xs.flatMap fun x => headerOf x.name :: cleanLines x.body := by
  obtain ⟨ls, h1, -, -, h4⟩ := h
  rw [← cleanLines_sections h4 rfl ha hn]
  show cleaned (lines r) = _
  rw [h1, cleaned_append]
  congr 1
  by_cases hls : ls = []
  · subst hls; rfl
  · rw [cleanLines_split, splitNL_join hls fun l hl => lines_noLF r l (by rw [h1]; simp [hl])]

/-- The format line. -/
def formatLine (num : Str) : Str := c!"osu file format v" ++ num

theorem uNumeral_chars {num : Str} {v : Nat} (h : IsUNumeral num v) : ∀ c ∈ num, isWs c = false ∧ c ≠ '﻿' ∧ c ≠ '\n' ∧ c ≠ ']' := by
  have dig : ∀ c, isDig c = true → isWs c = false ∧ c ≠ '﻿' ∧ c ≠ '\n' ∧ c ≠ ']' := by
    intro c hc
    have : 48 ≤ c.toNat ∧ c.toNat ≤ 57 := by
      unfold isDig digitVal at hc
      split at hc
      · assumption
      · cases hc
    refine ⟨?_, ?_, ?_, ?_⟩
    · simp [isWs]; omega
    all_goals (rintro rfl; revert this; decide)
  obtain ⟨ds, -, h2, ⟨rfl, -⟩ | ⟨rfl, -⟩⟩ := h
  · exact fun c hc => dig c (h2 c hc)
  · intro c hc
    rcases List.mem_cons.1 hc with rfl | hc
    · decide
    · exact dig c (h2 c hc)

theorem formatLine_chars {num : Str} {v : Nat} (h : IsUNumeral num v) : NoLF (formatLine num) ∧ '﻿' ∉ formatLine num ∧
    trim (formatLine num) = formatLine num ∧ ¬LooksHeader (formatLine num) := by
  have hc := uNumeral_chars h
  refine ⟨?_, ?_, ?_, ?_⟩
  · refine AllC.append (by intro c hc; revert c; decide) fun c hm => ?_
    have := (hc c hm).2.2.1
    simp [this]
  · intro hm
    rcases List.mem_append.1 hm with hm | hm
    · revert hm; decide
    · exact (hc _ hm).2.1 rfl
  · refine trim_id ?_ ?_
    · intro c r hc'; cases hc'; decide
    · obtain ⟨ds, h1, -, h3⟩ := h
      have hne : num ≠ [] := by rcases h3 with ⟨rfl, -⟩ | ⟨rfl, -⟩ <;> simp [h1]
      rw [formatLine, List.reverse_append]
      intro c r hm
      obtain ⟨a, b, e⟩ := List.exists_cons_of_ne_nil (List.reverse_ne_nil_iff.2 hne)
      rw [e] at hm
      cases hm
      exact (hc c (List.mem_reverse.1 (by rw [e]; simp))).1
  · rintro ⟨h1, -⟩
    revert h1; simp [formatLine]

theorem cleanLines_versioned {s ws num r : Str} {v : Nat} (h : Versioned s ws num r) (hn : IsUNumeral num v) (hb : BreaksLine r) :
    cleanLines s = formatLine num :: cleanLines r := by
  obtain ⟨h1, h2, h3, -⟩ := formatLine_chars hn
  obtain ⟨⟨bom, hbom, rfl⟩, hw, -⟩ := h
  have e : ws ++ bom ++ c!"osu file format v" ++ num ++ r = ws ++ ((bom ++ formatLine num) ++ r) := by simp [formatLine]
  rw [e, cleanLines_ws_append (multi_ws hw)]
  have hl : NoLF (bom ++ formatLine num) := by
    refine NoLF.append ?_ h1
    rcases hbom with rfl | rfl
    · exact .nil
    · intro c hc; simp at hc; subst hc; decide
  have hc : cleanLine (bom ++ formatLine num) = formatLine num := by
    rcases hbom with rfl | rfl
    · exact cleanLine_id h3 h2
    · have ht : trim (['﻿'] ++ formatLine num) = ['﻿'] ++ formatLine num := by
        have hh := headNot_trim h3
        refine trim_id (by intro c r hc; cases hc; decide) ?_
        rw [List.reverse_append]
        have hne : (formatLine num).reverse ≠ [] := by simp [formatLine]
        obtain ⟨a, b, e⟩ := List.exists_cons_of_ne_nil hne
        rw [e] at hh ⊢
        intro c r hc
        cases hc
        exact hh.2 _ _ rfl
      unfold cleanLine
      rw [ht, List.filter_append]
      have := cleanLine_id h3 h2
      unfold cleanLine at this
      rw [h3] at this
      rw [this]; rfl
  have one : ∀ w, AllC isWs w → NoLF w → cleanLines ((bom ++ formatLine num) ++ w) = [formatLine num] := by
    intro w hw hw'
    rw [cleanLines_noLF (hl.append hw'), cleaned_single_congr (cleanLine_append_ws hw)]
    simp [cleaned, hc]
    simp [formatLine]
  rcases hb with rfl | ⟨r', rfl | rfl⟩
  · rw [one [] .nil .nil]; rfl
  · have := one [] .nil .nil
    rw [List.append_nil] at this
    rw [cleanLines_append, this, show cleanLines ('\n' :: r') = cleanLines r' from cleanLines_append [] r']
    rfl
  · rw [show (bom ++ formatLine num) ++ '\r' :: '\n' :: r' = ((bom ++ formatLine num) ++ ['\r']) ++ '\n' :: r' by simp,
      cleanLines_append, one ['\r'] (by intro c hc; simp at hc; subst hc; decide) (by intro c hc; simp at hc; subst hc; decide),
      show cleanLines ('\r' :: '\n' :: r') = cleanLines r' from
        cleanLines_ws_append (w := ['\r', '\n']) (by intro c hc; simp at hc; rcases hc with rfl | rfl <;> decide)]
    rfl

/-- The cleaned lines of a written file. -/
theorem cleanLines_fileText {num : Str} {v : Nat} (hn : IsUNumeral num v) {bs : List (Str × Str)}
    (hb : ∀ b ∈ bs, '﻿' ∉ b.1 ∧ '\n' ∉ b.1) :
    cleanLines (fileText num bs) = formatLine num :: bs.flatMap fun b => headerOf b.1 :: cleanLines b.2 := by
  obtain ⟨h1, h2, h3, -⟩ := formatLine_chars hn
  have e : fileText num bs = formatLine num ++ '\n' :: ('\n' :: join ['\n', '\n'] (bs.map blockText)) := by
    simp [fileText, formatLine]
  have hf : cleanLines (formatLine num) = [formatLine num] := by
    rw [cleanLines_noLF h1]
    simp [cleaned, cleanLine_id h3 h2]
    simp [formatLine]
  rw [e, cleanLines_append, hf, show ∀ x, cleanLines ('\n' :: x) = cleanLines x from fun x => cleanLines_append [] x]
  show formatLine num :: cleanLines _ = _
  congr 1
  clear e hf
  have blk : ∀ b : Str × Str, '﻿' ∉ b.1 ∧ '\n' ∉ b.1 → cleanLines (blockText b) = headerOf b.1 :: cleanLines b.2 := by
    intro b hb
    have : blockText b = headerOf b.1 ++ '\n' :: b.2 := by simp [blockText, headerOf]
    have h0 := headerOf_lines (a := []) hb.1 hb.2 .nil (by simp)
    rw [List.append_nil] at h0
    rw [this, cleanLines_append, h0]; rfl
  induction bs with
  | nil => rfl
  | cons b bs ih =>
    have i := ih fun c hc => hb c (List.mem_cons_of_mem _ hc)
    rw [List.flatMap_cons, ← i, ← blk b (hb b (by simp))]
    cases bs with
    | nil => exact (List.append_nil _).symm
    | cons c cs =>
      have : join ['\n', '\n'] ((b :: c :: cs).map blockText) =
          blockText b ++ '\n' :: ('\n' :: join ['\n', '\n'] ((c :: cs).map blockText)) := by simp [join]
      rw [this, cleanLines_append, show ∀ x, cleanLines ('\n' :: x) = cleanLines x from fun x => cleanLines_append [] x]

theorem ignorable_clean {l : Str} (h : Ignorable l) : cleanLine l = [] ∨ (cleanLine l).head? = some '/' := by
  unfold cleanLine
  rcases h with h | ⟨r, h⟩
  · rw [h]; exact .inl rfl
  · rw [h]; exact .inr rfl

theorem sublist_same {α : Type} [DecidableEq α] {l a b : List α} (hl : l.Nodup) (ha : a.Sublist l) (hb : b.Sublist l)
    (h : ∀ x, x ∈ a ↔ x ∈ b) : a = b := by
  induction l generalizing a b with
  | nil => rw [List.sublist_nil.1 ha, List.sublist_nil.1 hb]
  | cons x l ih =>
    obtain ⟨hx, hl⟩ := List.nodup_cons.1 hl
    cases ha with
    | cons _ ha =>
      have hxa : x ∉ a := fun h' => hx (ha.subset h')
      cases hb with
      | cons _ hb => exact ih hl ha hb h
      | cons_cons _ hb => exact absurd ((h x).2 (by simp)) hxa
    | cons_cons _ ha =>
      cases hb with
      | cons _ hb => exact absurd (hb.subset ((h x).1 (by simp))) hx
      | @cons_cons _ b _ hb =>
        rename_i a
        congr 1
        refine ih hl ha hb fun y => ?_
        have := h y
        simp only [List.mem_cons] at this
        constructor
        · intro hy
          rcases this.1 (.inr hy) with rfl | h'
          · exact absurd (ha.subset hy) hx
          · exact h'
        · intro hy
          rcases this.2 (.inr hy) with rfl | h'
          · exact absurd (hb.subset hy) hx
          · exact h'

theorem SName.noBom (n : SName) : '﻿' ∉ n.text ∧ '\n' ∉ n.text := by cases n <;> decide

theorem headerOf_inj {a b : Str} (h : headerOf a = headerOf b) : a = b := by
  simp only [headerOf, List.cons.injEq, true_and] at h
  exact List.append_cancel_right h

section
variable {D : Type} [DecLib D] [UniLib]

theorem ownLines_reads {s num : Str} {xs : List Sect} {f : OsuFile D} (h : OwnLines s num xs) (hf : OsuFile.parse s = .ok f) :
    ∃ v, KnownVersion num v ∧ FileReads v xs f ∧ ∃ pre, (∀ l ∈ pre, ¬LooksHeader l) ∧
      TrimLayout (cleanLines s) (formatLine num :: pre) (xs.map fun x => (headerOf x.name, cleanLines x.body)) := by
  obtain ⟨ws, r, pre, hv, hb, hl⟩ := h.layout
  by_cases hk : ∃ v, KnownVersion num v
  case neg => rw [parse_badVersion hv hk] at hf; cases hf
  obtain ⟨v, hk⟩ := hk
  by_cases hp : ∀ l ∈ pre, Ignorable l
  case neg =>
    cases hb : preBad 0 pre with
    | none => exact absurd (preBad_none.1 hb) hp
    | some k =>
      obtain ⟨a, l, b, rfl, -, ha, hl'⟩ := preBad_some.1 hb
      rw [parse_versioned hv hk, parseRest_bad hl ha hl'] at hf
      cases hf
  rw [parse_versioned hv hk, parseRest_eq hl hp, fileLoop_ok] at hf
  obtain ⟨h1, h2, h3, -, h5, h6⟩ := hf
  have hn : ∀ x ∈ xs, '﻿' ∉ x.name := by
    intro x hx
    obtain ⟨-, n, e, -⟩ := h5 x hx
    rw [← e]; exact n.noBom.1
  have hpre : ∀ l ∈ cleaned pre, ¬LooksHeader l := by
    rintro l hm ⟨hh, -⟩
    obtain ⟨hm, hne⟩ := List.mem_filter.1 hm
    obtain ⟨l', hl', rfl⟩ := List.mem_map.1 hm
    rcases ignorable_clean (hp l' hl') with e | e
    · rw [e] at hne; cases hne
    · rw [e] at hh; cases hh
  refine ⟨v, hk, ⟨h1, h2, h3, h5, fun n hn => sectAbsent_new.2 (h6 n hn)⟩, cleaned pre, hpre, ?_⟩
  refine ⟨?_, ?_, ?_, ?_⟩
  · rw [cleanLines_versioned hv hk.1 hb, cleanLines_layout hl h.alone hn, List.flatMap_map]; rfl
  · intro l hl
    rcases List.mem_cons.1 hl with rfl | hl
    · exact (formatLine_chars hk.1).2.2.2
    · exact hpre l hl
  · intro b hb
    obtain ⟨x, -, rfl⟩ := List.mem_map.1 hb
    exact headerOf_looks _
  · intro b hb
    obtain ⟨x, hx, rfl⟩ := List.mem_map.1 hb
    exact h.body x hx

end

/-! ### Key/value sections -/

theorem filter_trim (l : Str) : (trim l).filter (fun c => !isWs c) = l.filter fun c => !isWs c := by
  have hd : ∀ l : Str, (l.dropWhile isWs).filter (fun c => !isWs c) = l.filter fun c => !isWs c := by
    intro l
    induction l with
    | nil => rfl
    | cons c l ih =>
      by_cases hc : isWs c = true
      · rw [List.dropWhile_cons_of_pos hc, ih, List.filter_cons_of_neg (by simp [hc])]
      · rw [List.dropWhile_cons_of_neg hc]
  unfold trim trimEnd
  rw [List.filter_reverse, hd, ← List.filter_reverse, List.reverse_reverse]
  exact hd l

theorem bareText_append (a b : Str) : bareText (a ++ b) = bareText a ++ bareText b := List.filter_append ..

theorem bareText_ws {w : Str} (h : AllC isWs w) : bareText w = [] := by
  unfold bareText
  rw [List.filter_eq_nil_iff]
  intro c hc
  simp [h c hc]

theorem bareText_colon (s : Str) : bareText (':' :: s) = ':' :: bareText s := rfl

theorem colon_clean {l : Str} (h : ':' ∈ l) : ':' ∈ cleanLine l := by
  have h1 : ':' ∈ l.filter fun c => !isWs c := List.mem_filter.2 ⟨h, by decide⟩
  rw [← filter_trim] at h1
  exact List.mem_filter.2 ⟨(List.mem_filter.1 h1).1, by decide⟩

theorem squeeze_clean {l : Str} (h : ':' ∈ l) : squeeze (cleanLine l) = bareText l := by
  unfold squeeze
  rw [if_pos (colon_clean h)]
  unfold cleanLine bareText
  rw [List.filter_filter]
  have : (fun c => !isWs c && !(c == '﻿')) = fun c : Char => !(c == '﻿') && !isWs c := by funext c; exact Bool.and_comm ..
  rw [this, ← List.filter_filter, filter_trim, List.filter_filter]
  apply List.filter_congr
  intro c _
  cases isWs c <;> simp

theorem cleaned_colon {ls : List Str} (h : ∀ l ∈ ls, ':' ∈ l) : cleaned ls = ls.map cleanLine := by
  unfold cleaned
  rw [List.filter_eq_self]
  intro l hl
  obtain ⟨l', hl', rfl⟩ := List.mem_map.1 hl
  have := colon_clean (h l' hl')
  cases hc : cleanLine l' with
  | nil => rw [hc] at this; cases this
  | cons => rfl

theorem KVLine.colon (l : KVLine) : ':' ∈ l.text := by simp [KVLine.text]

theorem space_ws {w : Str} (h : AllC isSpace w) : AllC isWs w :=
  h.mono fun c hc => by
    simp only [isSpace, Bool.or_eq_true, beq_iff_eq] at hc
    rcases hc with rfl | rfl <;> decide

theorem KVLine.bare {l : KVLine} (hw : AllC isSpace l.ws) : bareText l.text = bareText l.key ++ ':' :: bareText l.value := by
  unfold KVLine.text
  rw [bareText_append, bareText_colon, bareText_append, bareText_ws (space_ws hw)]; rfl

theorem KVLine.noLF {l : KVLine} (hk : AllC (fun c => !(c == ':' || c == '\n')) l.key) (hw : AllC isSpace l.ws)
    (hv : AllC (fun c => !(c == '\r' || c == '\n')) l.value) : NoLF l.text := by
  refine AllC.append (hk.mono fun c hc => ?_) (.cons (by decide) (AllC.append (hw.mono fun c hc => ?_) (hv.mono fun c hc => ?_)))
  · simp at hc ⊢; exact hc.2
  · simp only [isSpace, Bool.or_eq_true, beq_iff_eq] at hc
    rcases hc with rfl | rfl <;> decide
  · simp at hc ⊢; exact hc.2

/-- Each carriage return of a text is followed by a line feed. -/
def crlfB : Str → Bool
  | [] => true
  | c :: s => (c != '\r' || s.head? == some '\n') && crlfB s

theorem crlfB_iff {s : Str} (h : crlfB s = true) : CrLf s := by
  induction s with
  | nil => intro a b e; cases a <;> cases e
  | cons c s ih =>
    simp only [crlfB, Bool.and_eq_true, Bool.or_eq_true, bne_iff_ne, beq_iff_eq] at h
    intro a b e
    cases a with
    | nil =>
      cases e
      rcases h.1 with h | h
      · exact absurd rfl h
      · exact h
    | cons d a =>
      cases e
      exact ih h.2 a b rfl

/-- The cleaned lines of a key/value section. -/
theorem kv_cleanLines {s : Str} {es : List (KVLine × Str)} {r : Str} (h : KVEntries s es r) (hs : CrLf s) (hr : trim r = []) :
    cleanLines s = es.map fun e => cleanLine e.1.text := by
  induction h with
  | nil r =>
    have := cleanLines_ws_append (s := []) (trim_eq_nil.1 hr)
    rw [List.append_nil] at this
    rw [this]; rfl
  | @cons l gap s es r hk hw hv hh hg hb hs' he h ih =>
    have i := ih (fun a b hab => hs (l.text ++ (gap ++ a)) b (by rw [hab]; simp)) hr
    have h1 : ∀ w, AllC isWs w → NoLF w → cleanLines (l.text ++ w) = [cleanLine l.text] := by
      intro w hw1 hw2
      rw [cleanLines_noLF ((KVLine.noLF hk hw hv).append hw2), cleaned_colon (by simp [KVLine.colon]), List.map_singleton,
        cleanLine_append_ws hw1]
    rw [List.map_cons, ← i]
    cases gap with
    | nil =>
      have := h1 [] .nil .nil
      rw [he rfl, List.nil_append, this]; rfl
    | cons c g =>
      have hc := hb c g rfl
      simp only [Bool.not_eq_eq_eq_not, Bool.not_false, Bool.or_eq_true, beq_iff_eq] at hc
      rcases hc with rfl | rfl
      · have := hs l.text (g ++ s) (by simp)
        obtain ⟨g', hg'⟩ : ∃ g', g ++ s = '\n' :: g' := by
          cases hgs : g ++ s with
          | nil => rw [hgs] at this; cases this
          | cons d t => rw [hgs] at this; cases this; exact ⟨t, rfl⟩
        cases g with
        | nil =>
          exfalso
          rw [List.nil_append] at hg'
          have := hs' '\n' g' hg'
          revert this; decide
        | cons d g =>
          cases hg'
          have e : l.text ++ ('\r' :: '\n' :: g ++ s) = (l.text ++ ['\r']) ++ '\n' :: (g ++ s) := by simp
          rw [e, cleanLines_append, h1 ['\r'] (.cons (by decide) .nil) (.cons (by decide) .nil),
            cleanLines_ws_append (multi_ws hg.of_cons.2.of_cons.2)]
          rfl
      · have h1 := h1 [] .nil .nil
        rw [List.append_nil] at h1
        rw [List.cons_append, cleanLines_append, h1, cleanLines_ws_append (multi_ws hg.of_cons.2)]; rfl

theorem kvText_cleanLines {ls : List KVLine} (h : ∀ l ∈ ls, l.OK) : cleanLines (kvText ['\n'] ls) = ls.map fun l => cleanLine l.text := by
  unfold kvText
  by_cases hn : ls = []
  · subst hn; rfl
  · rw [cleanLines_split, splitNL_join (by simpa using hn), cleaned_colon, List.map_map]
    · rfl
    · intro l hl
      obtain ⟨x, -, rfl⟩ := List.mem_map.1 hl
      exact x.colon
    · intro l hl
      obtain ⟨x, hx, rfl⟩ := List.mem_map.1 hl
      exact KVLine.noLF (h x hx).key (h x hx).ws (h x hx).value

theorem sameLines_colon {b b' : List Str} (h : ∀ l ∈ b, ':' ∈ l) : SameLines b b' ↔ (b.map squeeze).Perm (b'.map squeeze) := by
  constructor
  · rintro (e | ⟨-, e⟩)
    · rw [e]
    · exact e
  · intro e; exact .inr ⟨h, e⟩

theorem nodup_of_map {α β : Type} (f : α → β) {l : List α} (h : (l.map f).Nodup) : l.Nodup :=
  List.Pairwise.of_map f (fun _ _ hab e => hab (congrArg f e)) h

theorem sep_split {x : Char} {k k' a b : Str} (hk : x ∉ k) (hk' : x ∉ k') (h : k ++ x :: a = k' ++ x :: b) : k = k' ∧ a = b := by
  induction k generalizing k' with
  | nil =>
    cases k' with
    | nil => exact ⟨rfl, by simpa using h⟩
    | cons c k' => simp only [List.nil_append, List.cons_append, List.cons.injEq] at h; exact absurd (by rw [h.1]; simp) hk'
  | cons c k ih =>
    cases k' with
    | nil => simp only [List.nil_append, List.cons_append, List.cons.injEq] at h; exact absurd (by simp [h.1]) hk
    | cons d k' =>
      simp only [List.cons_append, List.cons.injEq] at h
      obtain ⟨rfl, h⟩ := h
      obtain ⟨rfl, rfl⟩ := ih (fun hm => hk (by simp [hm])) (fun hm => hk' (by simp [hm])) h
      exact ⟨rfl, rfl⟩

namespace Schema
variable {S : Schema}

theorem printed_iff {v : Nat} {sec : S.Section} {k : S.Key} {l : KVLine} : S.printed v sec k = some l ↔
    ∃ x t, sec k = some x ∧ S.shw k v x = some t ∧ l = ⟨S.name k, S.spacing v t, t⟩ := by
  unfold printed
  cases sec k with
  | none => simp
  | some x =>
    cases h : S.shw k v x with
    | none => simp [h]
    | some t => simp [h, eq_comm]

theorem printed_nodup (hS : S.Lawful) (v : Nat) (sec : S.Section) : ((S.keys.filterMap (S.printed v sec)).map KVLine.key).Nodup := by
  have : ∀ ks : List S.Key, ks.Nodup → ((ks.filterMap (S.printed v sec)).map KVLine.key).Nodup := by
    intro ks
    induction ks with
    | nil => intro _; simp
    | cons k ks ih =>
      intro hnd
      obtain ⟨h1, h2⟩ := List.nodup_cons.1 hnd
      cases hk : S.printed v sec k with
      | none => rw [List.filterMap_cons_none hk]; exact ih h2
      | some l =>
        rw [List.filterMap_cons_some hk, List.map_cons, List.nodup_cons]
        refine ⟨?_, ih h2⟩
        intro hm
        obtain ⟨l', hl', e⟩ := List.mem_map.1 hm
        obtain ⟨k', hk', e'⟩ := List.mem_filterMap.1 hl'
        obtain ⟨x, t, -, -, rfl⟩ := printed_iff.1 hk
        obtain ⟨x', t', -, -, rfl⟩ := printed_iff.1 e'
        have := hS.inj k' k e
        subst this
        exact h1 hk'
  exact this S.keys hS.nodup

/-- A key/value section compared with what is written for it. -/
theorem sameLines_iff (hS : S.Lawful) (hst : S.Stable) (hn : ∀ k, bareText (S.name k) = S.name k) {v : Nat} {s : Str} {sec : S.Section}
    (h : S.fromStr v s = .ok sec) (hr : CrLf s) {es : List (KVLine × Str)} {r : Str} (hes : KVSplits s es r) :
    SameLines (cleanLines s) (cleanLines (S.toStr v sec)) ↔
      ∀ e ∈ es, ∃ k x t, S.name k = e.1.key ∧ sec k = some x ∧ S.shw k v x = some t ∧ bareText t = bareText e.1.value := by
  obtain ⟨es', r', hes', hr', hnd, hsec, hno⟩ := (fromStr_ok_iff hS v s sec).1 h
  obtain ⟨rfl, rfl⟩ := kvSplits_unique hes hes'
  have hck : ∀ k, ':' ∉ S.name k := fun k hm => by have := (hS.nameOK k) _ hm; simp at this
  have hent : ∀ {s es r}, KVEntries s es r → ∀ e ∈ es, AllC isSpace e.1.ws := by
    intro s es r h
    induction h with
    | nil => intro e he; cases he
    | cons hk hw hv hh hg hb hs he h ih =>
      intro e he
      rcases List.mem_cons.1 he with rfl | he
      · exact hw
      · exact ih e he
  have hOK : ∀ l ∈ S.keys.filterMap (S.printed v sec), l.OK := by
    intro l hl
    obtain ⟨k, -, hk⟩ := List.mem_filterMap.1 hl
    obtain ⟨x, t, hx, ht, rfl⟩ := printed_iff.1 hk
    obtain ⟨u, hu, hp⟩ := fromStr_post hS h k x hx
    have hg := (hst k v u x t hu hp ht).1
    exact ⟨hS.nameOK k, hS.nameHead k, hS.spacing v t, hg.chars, hg.head⟩
  rw [toStr_eq, kv_cleanLines hes.1 hr hr', kvText_cleanLines hOK, sameLines_colon, List.map_map, List.map_map]
  rotate_left
  · intro l hl
    obtain ⟨e, -, rfl⟩ := List.mem_map.1 hl
    exact colon_clean e.1.colon
  have e1 : es.map (squeeze ∘ fun e => cleanLine e.1.text) = es.map fun e => e.1.key ++ ':' :: bareText e.1.value := by
    refine List.map_congr_left fun e he => ?_
    obtain ⟨k, hk, -⟩ := hsec e he
    show squeeze (cleanLine e.1.text) = _
    rw [squeeze_clean e.1.colon, KVLine.bare (hent hes.1 e he), ← hk, hn]
  have e2 : (S.keys.filterMap (S.printed v sec)).map (squeeze ∘ fun l => cleanLine l.text) =
      (S.keys.filterMap (S.printed v sec)).map fun l => l.key ++ ':' :: bareText l.value := by
    refine List.map_congr_left fun l hl => ?_
    obtain ⟨k, -, hk⟩ := List.mem_filterMap.1 hl
    obtain ⟨x, t, hx, ht, rfl⟩ := printed_iff.1 hk
    show squeeze (cleanLine _) = _
    rw [squeeze_clean (KVLine.colon _), KVLine.bare (hOK _ hl).ws, hn]
  rw [e1, e2]
  have nd1 : (es.map fun e => e.1.key ++ ':' :: bareText e.1.value).Nodup := by
    have hk : ∀ e ∈ es, ':' ∉ e.1.key := fun e he => by obtain ⟨k, hk, -⟩ := hsec e he; rw [← hk]; exact hck k
    refine nodup_of_map (fun l => l.takeWhile (· != ':')) ?_
    rw [List.map_map]
    have : es.map ((fun l : Str => l.takeWhile (· != ':')) ∘ fun e => e.1.key ++ ':' :: bareText e.1.value) = es.map fun e => e.1.key := by
      refine List.map_congr_left fun e he => ?_
      show List.takeWhile _ (_ ++ _) = _
      rw [List.takeWhile_append_of_pos]
      · simp
      · intro c hc
        simp only [bne_iff_ne, ne_eq]
        rintro rfl; exact hk e he hc
    rw [this]; exact hnd
  have nd2 : ((S.keys.filterMap (S.printed v sec)).map fun l => l.key ++ ':' :: bareText l.value).Nodup := by
    refine nodup_of_map (fun l => l.takeWhile (· != ':')) ?_
    rw [List.map_map]
    have : (S.keys.filterMap (S.printed v sec)).map ((fun l : Str => l.takeWhile (· != ':')) ∘ fun l => l.key ++ ':' :: bareText l.value) =
        (S.keys.filterMap (S.printed v sec)).map KVLine.key := by
      refine List.map_congr_left fun l hl => ?_
      obtain ⟨k, -, hk⟩ := List.mem_filterMap.1 hl
      obtain ⟨x, t, hx, ht, rfl⟩ := printed_iff.1 hk
      show List.takeWhile _ (_ ++ _) = _
      rw [List.takeWhile_append_of_pos]
      · simp
      · intro c hc
        simp only [bne_iff_ne, ne_eq]
        rintro rfl; exact hck k hc
    rw [this]; exact printed_nodup hS v sec
  rw [List.perm_ext_iff_of_nodup nd1 nd2]
  constructor
  · intro hall e he
    obtain ⟨k, hk, -⟩ := hsec e he
    obtain ⟨l, hl, el⟩ := List.mem_map.1 ((hall _).1 (List.mem_map_of_mem he))
    obtain ⟨k', -, hk'⟩ := List.mem_filterMap.1 hl
    obtain ⟨x, t, hx, ht, rfl⟩ := printed_iff.1 hk'
    obtain ⟨g1, g2⟩ := sep_split (hck k') (by rw [← hk]; exact hck k) el
    exact ⟨k', x, t, g1, hx, ht, g2⟩
  · intro hall a
    constructor
    · intro ha
      obtain ⟨e, he, rfl⟩ := List.mem_map.1 ha
      obtain ⟨k, x, t, g1, g2, g3, g4⟩ := hall e he
      exact List.mem_map.2 ⟨⟨S.name k, S.spacing v t, t⟩, List.mem_filterMap.2 ⟨k, hS.all k, printed_iff.2 ⟨x, t, g2, g3, rfl⟩⟩,
        by simp [g1, g4]⟩
    · intro ha
      obtain ⟨l, hl, rfl⟩ := List.mem_map.1 ha
      obtain ⟨k, -, hk⟩ := List.mem_filterMap.1 hl
      obtain ⟨x, t, hx, ht, rfl⟩ := printed_iff.1 hk
      have : ∃ e ∈ es, e.1.key = S.name k := Classical.byContradiction fun hno' => by
        have := hno k fun e he hke => hno' ⟨e, he, hke⟩
        rw [hx] at this; cases this
      obtain ⟨e, he, hke⟩ := this
      obtain ⟨k', x', t', g1, g2, g3, g4⟩ := hall e he
      have := hS.inj k' k (g1.trans hke)
      subst this
      rw [hx] at g2; cases g2
      rw [ht] at g3; cases g3
      exact List.mem_map.2 ⟨e, he, by simp [hke, g4]⟩

end Schema

/-! ### Colours -/

theorem bareText_trim (l : Str) : bareText (trim l) = bareText l := by
  have e : ∀ l : Str, bareText l = (l.filter fun c => !isWs c).filter fun c => !(c == '﻿') := by
    intro l
    unfold bareText
    rw [List.filter_filter]
    apply List.filter_congr
    intro c _
    cases isWs c <;> simp
  rw [e, e, filter_trim]

theorem bareText_num {s : Str} (h : AllC isNumChar s) : bareText s = s := by
  unfold bareText
  rw [List.filter_eq_self]
  intro c hc
  have := h c hc
  unfold isNumChar at this
  simp only [Bool.or_eq_true, beq_iff_eq] at this
  have dig : isDig c = true → (!(isWs c || c == '﻿')) = true := by
    intro hd
    obtain ⟨h1, h2, -⟩ := uNumeral_chars (num := [c]) (v := decVal [c]) ⟨[c], by simp, .cons hd .nil, .inl ⟨rfl, rfl⟩⟩ c (by simp)
    simp [h1, h2]
  rcases this with (h | rfl) | rfl
  · exact dig h
  · decide
  · decide

theorem blanks_bare {b : Str} (h : blanks b = true) : bareText b = [] :=
  bareText_ws (space_ws fun c hc => List.all_eq_true.1 h c hc)

theorem colour_bare {t : Str} {c : Colour} (h : ColourReads t c) : ∃ name f r g b, ∃ k : Rgb, ColourName name f ∧ c = f k ∧
    parseU8 r = .ok k.red ∧ parseU8 g = .ok k.green ∧ parseU8 b = .ok k.blue ∧
    bareText t = name ++ ':' :: (r ++ ',' :: (g ++ ',' :: b)) := by
  obtain ⟨hn, hb, ht⟩ := h
  rename_i name b t f k
  obtain ⟨h0, h1, h2, h3, h4, hr, hg, er, eg, eb⟩ := ht
  rename_i b0 b1 b2 b3 b4 r g bl
  refine ⟨name, f, r, g, bl, k, hn, rfl, er, eg, eb, ?_⟩
  have hname : bareText name = name := by
    cases hn with
    | combo h e => rw [bareText_append, bareText_num (parseI32_chars e).2]; rfl
    | track => rfl
    | border => rfl
    | borderLower => rfl
  have hc : ∀ s, bareText (',' :: s) = ',' :: bareText s := fun _ => rfl
  simp only [bareText_append, bareText_colon, hc, blanks_bare hb, blanks_bare h0, blanks_bare h1, blanks_bare h2, blanks_bare h3,
    blanks_bare h4, hname, bareText_num (parseU8_chars er).2, bareText_num (parseU8_chars eg).2, bareText_num (parseU8_chars eb).2,
    List.nil_append, List.append_nil]

theorem num_lacks {s : Str} (h : AllC isNumChar s) : ':' ∉ s ∧ ',' ∉ s :=
  ⟨fun hm => absurd (h _ hm) (by decide), fun hm => absurd (h _ hm) (by decide)⟩

theorem colourName_lacks {name : Str} {f : Rgb → Colour} (h : ColourName name f) : ':' ∉ name := by
  cases h with
  | combo h e =>
    intro hm
    rcases List.mem_append.1 hm with hm | hm
    · revert hm; decide
    · exact (num_lacks (parseI32_chars e).2).1 hm
  | track => decide
  | border => decide
  | borderLower => decide

theorem colourName_inj {name : Str} {f g : Rgb → Colour} (h : ColourName name f) (h' : ColourName name g) : f = g := by
  generalize hn : name = name' at h'
  cases h with
  | combo h e =>
    cases h' with
    | combo h' e' =>
      have := List.append_cancel_left hn
      subst this
      rw [e] at e'; cases e'; rfl
    | track => cases hn
    | border => cases hn
    | borderLower => cases hn
  | track =>
    cases h' with
    | combo h' e' => cases hn
    | track => rfl
    | border => cases hn
    | borderLower => cases hn
  | border =>
    cases h' with
    | combo h' e' => cases hn
    | track => cases hn
    | border => rfl
    | borderLower => rfl
  | borderLower =>
    cases h' with
    | combo h' e' => cases hn
    | track => cases hn
    | border => rfl
    | borderLower => rfl

/-- Lines that differ only in blanks stand for the same colour. -/
theorem colour_same {t t' : Str} {c c' : Colour} (h : ColourReads t c) (h' : ColourReads t' c') (e : bareText t = bareText t') : c = c' := by
  obtain ⟨name, f, r, g, b, k, hn, rfl, er, eg, eb, ht⟩ := colour_bare h
  obtain ⟨name', f', r', g', b', k', hn', rfl, er', eg', eb', ht'⟩ := colour_bare h'
  rw [ht, ht'] at e
  obtain ⟨rfl, e1⟩ := sep_split (colourName_lacks hn) (colourName_lacks hn') e
  obtain ⟨rfl, e2⟩ := sep_split (num_lacks (parseU8_chars er).2).2 (num_lacks (parseU8_chars er').2).2 e1
  obtain ⟨rfl, rfl⟩ := sep_split (num_lacks (parseU8_chars eg).2).2 (num_lacks (parseU8_chars eg').2).2 e2
  have := colourName_inj hn hn'
  subst this
  rw [er] at er'; rw [eg] at eg'; rw [eb] at eb'
  cases k; cases k'
  cases er'; cases eg'; cases eb'
  rfl

theorem colour_colon {t : Str} {c : Colour} (h : ColourReads t c) : ':' ∈ t := by
  obtain ⟨hn, hb, ht⟩ := h
  simp

theorem blank_clean {l : Str} (h : nonBlank l = false) : cleanLine l = [] := by
  unfold cleanLine
  rw [nonBlank_false.1 h]; rfl

theorem cleanLines_filter (s : Str) : cleanLines s = cleaned ((lines s).filter nonBlank) := by
  show cleaned (lines s) = _
  generalize lines s = ls
  induction ls with
  | nil => rfl
  | cons l ls ih =>
    rw [show l :: ls = [l] ++ ls from rfl, cleaned_append, ih, List.filter_append, cleaned_append]
    congr 1
    cases h : nonBlank l with
    | true => rw [List.filter_cons_of_pos h]; rfl
    | false => rw [List.filter_cons_of_neg (by simp [h])]; simp [cleaned, blank_clean h]

/-- Two lists with the same members up to order, where an entry of the first that occurs in the second is the one at its
place: the lists are equal. -/
theorem perm_pointwise {α : Type} {a b : List α} (h : a.Perm b)
    (hk : ∀ i (hi : i < a.length) (hi' : i < b.length), a[i] ∈ b → b[i] = a[i]) : a = b := by
  refine List.ext_getElem h.length_eq fun i hi hi' => ?_
  exact (hk i hi hi' (h.mem_iff.1 (List.getElem_mem hi))).symm

end Osu
