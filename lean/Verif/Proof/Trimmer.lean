/-
The trimmed form of a text.
-/
import Verif.Model.Trimmer
import Verif.Spec.Trimmer
import Verif.Proof.Lines

namespace Osu
open Trimmer

/-! ### Sorting -/

theorem insertStr_perm (x : Str) (l : List Str) : (insertStr x l).Perm (x :: l) := by
  induction l with
  | nil => exact .refl _
  | cons y ys ih =>
    rw [insertStr]
    split
    · exact .refl _
    · exact (ih.cons y).trans (.swap _ _ _)

theorem sortStrs_perm (l : List Str) : (sortStrs l).Perm l := by
  induction l with
  | nil => exact .refl _
  | cons x xs ih => exact (insertStr_perm _ _).trans (ih.cons x)

theorem insertStr_sorted (x : Str) {l : List Str} (h : l.Pairwise (· ≤ ·)) : (insertStr x l).Pairwise (· ≤ ·) := by
  induction l with
  | nil => simp [insertStr]
  | cons y ys ih =>
    rw [List.pairwise_cons] at h
    rw [insertStr]
    split
    · rename_i hxy
      refine List.pairwise_cons.2 ⟨?_, List.pairwise_cons.2 h⟩
      intro z hz
      rcases List.mem_cons.1 hz with rfl | hz
      · exact hxy
      · exact List.le_trans hxy (h.1 z hz)
    · rename_i hxy
      have hyx : y ≤ x := (List.le_total x y).resolve_left hxy
      refine List.pairwise_cons.2 ⟨?_, ih h.2⟩
      intro z hz
      rcases List.mem_cons.1 ((insertStr_perm x ys).subset hz) with rfl | hz
      · exact hyx
      · exact h.1 z hz

theorem sortStrs_sorted (l : List Str) : (sortStrs l).Pairwise (· ≤ ·) := by
  induction l with
  | nil => exact .nil
  | cons x xs ih => exact insertStr_sorted x ih

theorem sorted_unique {l l' : List Str} (h : l.Pairwise (· ≤ ·)) (h' : l'.Pairwise (· ≤ ·)) (hp : l.Perm l') : l = l' :=
  hp.eq_of_pairwise (fun _ _ _ _ => List.le_antisymm) h h'

theorem sortStrs_congr {l l' : List Str} (h : l.Perm l') : sortStrs l = sortStrs l' :=
  sorted_unique (sortStrs_sorted _) (sortStrs_sorted _) ((sortStrs_perm l).trans (h.trans (sortStrs_perm l').symm))

/-! ### Lines -/

theorem replace_bom (s : Str) : replace ['\uFEFF'] [] s = s.filter fun c => !(c == '\uFEFF') := by
  have : ∀ s : Str, replaceAux ['\uFEFF'] [] 0 s = s.filter fun c => !(c == '\uFEFF') := by
    intro s
    induction s with
    | nil => rfl
    | cons c s ih =>
      rw [replaceAux, List.filter_cons]
      by_cases hc : c = '\uFEFF'
      · subst hc; simpa [List.isPrefixOf] using ih
      · have hc' : ¬'\uFEFF' = c := fun h => hc h.symm
        simp [List.isPrefixOf, hc, hc', ih]
  simp [replace, this]

theorem trim_ws_append {w s : Str} (h : AllC isWs w) : trim (w ++ s) = trim s := by
  unfold trim trimStart
  rw [List.dropWhile_append_of_pos h]

theorem trimEnd_append_ws {w s : Str} (h : AllC isWs w) : trimEnd (s ++ w) = trimEnd s := by
  unfold trimEnd
  rw [List.reverse_append, List.dropWhile_append_of_pos]
  intro c hc; exact h c (by simpa using hc)

theorem trimStart_append {s t : Str} (h : ¬AllC isWs s) : trimStart (s ++ t) = trimStart s ++ t := by
  unfold trimStart
  rw [List.dropWhile_append, if_neg]
  intro he
  exact h (dropWhile_eq_nil.1 (by simpa using he))

theorem trim_append_ws {w s : Str} (h : AllC isWs w) : trim (s ++ w) = trim s := by
  by_cases hs : AllC isWs s
  · rw [trim_eq_nil.2 hs, trim_eq_nil]; exact hs.append h
  · unfold trim
    rw [trimStart_append hs, trimEnd_append_ws h]

theorem cleanLine_ws_append {w s : Str} (h : AllC isWs w) : cleanLine (w ++ s) = cleanLine s := by
  unfold cleanLine; rw [trim_ws_append h]

theorem cleanLine_append_ws {w s : Str} (h : AllC isWs w) : cleanLine (s ++ w) = cleanLine s := by
  unfold cleanLine; rw [trim_append_ws h]

theorem cleanLine_stripCR (l : Str) : cleanLine (stripCR l) = cleanLine l := by
  unfold stripCR
  split
  · rename_i h
    have hne : l ≠ [] := by rintro rfl; cases h
    rw [List.getLast?_eq_some_getLast hne, Option.some.injEq] at h
    conv => rhs; rw [← List.dropLast_concat_getLast hne, h]
    exact (cleanLine_append_ws (by intro c hc; simp at hc; subst hc; decide)).symm
  · rfl

theorem cleanLine_nil : cleanLine [] = [] := rfl

/-- The cleaned pieces that are not empty. -/
def cleaned (ls : List Str) : List Str := (ls.map cleanLine).filter fun l => !l.isEmpty

theorem cleaned_append (a b : List Str) : cleaned (a ++ b) = cleaned a ++ cleaned b := by simp [cleaned]

theorem cleaned_nil : cleaned [] = [] := rfl

theorem cleaned_blank : cleaned [[]] = [] := rfl

theorem cleanLines_split (s : Str) : cleanLines s = cleaned (splitNL s) := by
  unfold cleanLines lines
  generalize splitNL s = ls
  have : ∀ ls : List Str, cleaned (linesOf ls) = cleaned ls := by
    intro ls
    induction ls with
    | nil => rfl
    | cons l ls ih =>
      cases ls with
      | nil =>
        rw [linesOf]
        split
        · rename_i h; rw [h]; rfl
        · rfl
      | cons l' ls =>
        rw [linesOf]
        have e : ∀ (x : Str) (xs : List Str), cleaned (x :: xs) = cleaned [x] ++ cleaned xs := fun x xs => cleaned_append [x] xs
        rw [e, ih, e l]
        have : cleaned [stripCR l] = cleaned [l] := by simp [cleaned, cleanLine_stripCR]
        rw [this]
  exact this ls

theorem splitNL_append (a b : Str) : splitNL (a ++ '\n' :: b) = splitNL a ++ splitNL b := by
  induction a with
  | nil => simp [splitNL]
  | cons c a ih =>
    rw [List.cons_append, splitNL, splitNL]
    split
    · rw [ih]; rfl
    · rw [ih]
      obtain ⟨l, ls, hl⟩ := List.exists_cons_of_ne_nil (splitNL_ne_nil a)
      rw [hl]; rfl

theorem cleanLines_append (a b : Str) : cleanLines (a ++ '\n' :: b) = cleanLines a ++ cleanLines b := by
  rw [cleanLines_split, splitNL_append, cleaned_append, ← cleanLines_split, ← cleanLines_split]

theorem cleanLines_noLF {l : Str} (h : NoLF l) : cleanLines l = cleaned [l] := by
  rw [cleanLines_split, splitNL_noLF h]

/-- The last line of a text. -/
theorem lastLine (s : Str) : ∃ a l, NoLF l ∧ (s = l ∧ a = [] ∨ s = a ++ '\n' :: l) := by
  induction s with
  | nil => exact ⟨[], [], .nil, .inl ⟨rfl, rfl⟩⟩
  | cons c s ih =>
    obtain ⟨a, l, hl, ⟨rfl, rfl⟩ | rfl⟩ := ih
    · by_cases hc : c = '\n'
      · subst hc; exact ⟨[], _, hl, .inr rfl⟩
      · exact ⟨[], _, .cons (by simp [hc]) hl, .inl ⟨rfl, rfl⟩⟩
    · exact ⟨c :: a, l, hl, .inr rfl⟩

/-- The first line of a text. -/
theorem firstLine (s : Str) : ∃ l b, NoLF l ∧ (s = l ∧ b = [] ∨ s = l ++ '\n' :: b) := by
  induction s with
  | nil => exact ⟨[], [], .nil, .inl ⟨rfl, rfl⟩⟩
  | cons c s ih =>
    by_cases hc : c = '\n'
    · subst hc; exact ⟨[], s, .nil, .inr rfl⟩
    · obtain ⟨l, b, hl, h⟩ := ih
      refine ⟨c :: l, b, ?_, ?_⟩
      · exact .cons (by simp [hc]) hl
      · rcases h with ⟨rfl, rfl⟩ | rfl
        · exact .inl ⟨rfl, rfl⟩
        · exact .inr rfl

theorem NoLF.append {a b : Str} (ha : NoLF a) (hb : NoLF b) : NoLF (a ++ b) := AllC.append ha hb

theorem cleaned_single_congr {l l' : Str} (h : cleanLine l = cleanLine l') : cleaned [l] = cleaned [l'] := by
  simp [cleaned, h]

theorem cleanLines_ws_append {w s : Str} (h : AllC isWs w) : cleanLines (w ++ s) = cleanLines s := by
  induction w with
  | nil => rfl
  | cons c w ih =>
    obtain ⟨hc, hw⟩ := h.of_cons
    rw [← ih hw, List.cons_append]
    generalize w ++ s = x
    by_cases hn : c = '\n'
    · subst hn
      exact cleanLines_append [] x
    · rw [cleanLines_split, cleanLines_split, splitNL, if_neg hn]
      obtain ⟨l, ls, hl⟩ := List.exists_cons_of_ne_nil (splitNL_ne_nil x)
      rw [hl]
      simp only
      rw [show (c :: l) :: ls = [c :: l] ++ ls from rfl, show l :: ls = [l] ++ ls from rfl, cleaned_append, cleaned_append]
      rw [cleaned_single_congr (l := c :: l) (l' := l) (cleanLine_ws_append (w := [c]) (by intro d hd; simp at hd; subst hd; exact hc))]

theorem cleanLines_append_ws {w s : Str} (h : AllC isWs w) : cleanLines (s ++ w) = cleanLines s := by
  have hnl : ∀ {w : Str}, NoLF w → AllC isWs w → cleanLines (s ++ w) = cleanLines s := by
    intro w hn hw
    obtain ⟨a, l, hl, ⟨rfl, -⟩ | rfl⟩ := lastLine s
    · rw [cleanLines_noLF (hl.append hn), cleanLines_noLF hl]
      exact cleaned_single_congr (cleanLine_append_ws hw)
    · rw [List.append_assoc, List.cons_append, cleanLines_append, cleanLines_append, cleanLines_noLF (hl.append hn), cleanLines_noLF hl]
      rw [cleaned_single_congr (cleanLine_append_ws hw)]
  obtain ⟨l, b, hl, ⟨rfl, -⟩ | rfl⟩ := firstLine w
  · exact hnl hl h
  · rw [← List.append_assoc, cleanLines_append, hnl hl (fun c hc => h c (by simp [hc]))]
    have hb : AllC isWs b := fun c hc => h c (by simp [hc])
    have := cleanLines_ws_append (s := []) hb
    rw [List.append_nil] at this
    rw [this]
    exact List.append_nil _

/-! ### One line of the loop -/

theorem filterLine_true (s : Str) : filterLine true false s = s.filter fun c => !isWs c := by
  induction s with
  | nil => rfl
  | cons c s ih =>
    rw [filterLine, List.filter_cons]
    by_cases hc : isWs c = true <;> simp [hc, ih]

theorem isHeader_iff {l : Str} : isHeader l = true ↔ LooksHeader l := by
  unfold isHeader LooksHeader startsWith endsWith
  rw [Bool.and_eq_true, List.isPrefixOf_iff_prefix, List.isSuffixOf_iff_suffix]
  refine and_congr ?_ ?_
  · constructor
    · rintro ⟨t, rfl⟩; rfl
    · intro h
      cases l with
      | nil => cases h
      | cons c l => cases h; exact ⟨l, rfl⟩
  · constructor
    · rintro ⟨t, rfl⟩; simp
    · intro h
      have hne : l ≠ [] := by rintro rfl; cases h
      rw [List.getLast?_eq_some_getLast hne, Option.some.injEq] at h
      exact ⟨l.dropLast, by rw [← h]; exact List.dropLast_concat_getLast hne⟩

theorem contains_colon {l : Str} : contains c!":" l = true ↔ ':' ∈ l := by
  induction l with
  | nil => simp [contains]
  | cons c l ih => rw [contains, Bool.or_eq_true, ih]; simp [List.isPrefixOf]

/-- One round of the loop on a cleaned line. -/
def stepC (st : State) (line : Str) : State :=
  if st.inSections = false then
    if LooksHeader line then { st with inSections := true, builder := st.builder ++ [line] }
    else
      { st with
        builder := if st.firstLine = true ∧ c!"osu file format v" <+: line then st.builder ++ [line] else st.builder
        firstLine := false }
  else if LooksHeader line then
    { st with builder := sortAndPush st.inner st.builder ++ [line], inner := [], coloned := true }
  else if ':' ∈ line then
    if st.coloned then { st with inner := st.inner ++ [squeeze line] } else { st with builder := st.builder ++ [squeeze line] }
  else { st with coloned := false, builder := st.builder ++ st.inner ++ [squeeze line], inner := [] }

theorem step_eq (st : State) (l : Str) : step st l = if cleanLine l = [] then st else stepC st (cleanLine l) := by
  unfold step
  simp only [replace_bom]
  change (if (cleanLine l).isEmpty = true then _ else _) = _
  by_cases he : cleanLine l = []
  · rw [if_pos he, if_pos (by simp [he])]
  · rw [if_neg he, if_neg (by simp [he])]
    change (if _ then (if isHeader (cleanLine l) = true then _ else _) else (if isHeader (cleanLine l) = true then _ else if contains c!":" (cleanLine l) = true then _ else _)) = _
    unfold stepC squeeze
    by_cases h1 : st.inSections = false
    · rw [if_pos (by simp [h1]), if_pos h1]
      by_cases h2 : LooksHeader (cleanLine l)
      · rw [if_pos (isHeader_iff.2 h2), if_pos h2]; rfl
      · rw [if_neg (fun h => h2 (isHeader_iff.1 h)), if_neg h2]
        change State.mk (if (st.firstLine && startsWith (cleanLine l) c!"osu file format v") = true then _ else _) _ _ _ _ = _
        simp only [startsWith, Bool.and_eq_true, List.isPrefixOf_iff_prefix]
        rfl
    · rw [if_neg (by simpa using h1), if_neg h1]
      by_cases h2 : LooksHeader (cleanLine l)
      · rw [if_pos (isHeader_iff.2 h2), if_pos h2]; rfl
      · rw [if_neg (fun h => h2 (isHeader_iff.1 h)), if_neg h2]
        by_cases h3 : ':' ∈ cleanLine l
        · simp only [contains_colon.2 h3, h3, if_true, filterLine_true]
          rfl
        · have h3' : contains c!":" (cleanLine l) = false := by
            cases hc : contains c!":" (cleanLine l) with
            | false => rfl
            | true => exact absurd (contains_colon.1 hc) h3
          simp only [h3', h3, if_false, Bool.false_eq_true]
          rfl

theorem foldl_step (st : State) (ls : List Str) : ls.foldl step st = (cleaned ls).foldl stepC st := by
  induction ls generalizing st with
  | nil => rfl
  | cons l ls ih =>
    rw [List.foldl_cons, ih, step_eq, show l :: ls = [l] ++ ls from rfl, cleaned_append, List.foldl_append]
    congr 1
    by_cases h : cleanLine l = [] <;> simp [cleaned, h]

theorem trimmer_eq (s : Str) : osuStrTrimmer s =
    join ['\n'] (sortAndPush ((cleanLines s).foldl stepC ⟨[], [], false, true, true⟩).inner
      ((cleanLines s).foldl stepC ⟨[], [], false, true, true⟩).builder) := by
  unfold osuStrTrimmer
  rw [foldl_step]
  rfl

/-! ### The whole loop -/

/-- The lines of a section as they are shown. -/
def showBody (b : List Str) : List Str := if ∀ l ∈ b, ':' ∈ l then sortStrs (b.map squeeze) else b.map squeeze

theorem bodyShown_iff {b r : List Str} : BodyShown b r ↔ r = showBody b := by
  unfold showBody
  constructor
  · rintro ⟨h1, h2⟩
    split
    · rename_i h
      obtain ⟨h3, h4⟩ := h1 h
      exact sorted_unique h4 (sortStrs_sorted _) (h3.trans (sortStrs_perm _).symm)
    · rename_i h
      exact h2 (by simpa using h)
  · rintro rfl
    constructor
    · intro h
      rw [if_pos h]
      exact ⟨sortStrs_perm _, sortStrs_sorted _⟩
    · intro h
      rw [if_neg (by simpa using h)]

theorem sectionsShown_iff {bs : List (Str × List Str)} {rs : List Str} :
    SectionsShown bs rs ↔ rs = bs.flatMap fun b => b.1 :: showBody b.2 := by
  induction bs generalizing rs with
  | nil =>
    constructor
    · intro h; cases h; rfl
    · rintro rfl; exact .nil
  | cons b bs ih =>
    obtain ⟨h, b⟩ := b
    constructor
    · intro hh
      cases hh with
      | cons hb hs => rw [bodyShown_iff.1 hb, ih.1 hs]; simp
    · rintro rfl
      have := SectionsShown.cons (h := h) (bodyShown_iff.2 (rfl : showBody b = _)) (ih.2 rfl)
      simpa using this

theorem fold_pre {pre : List Str} (h : ∀ l ∈ pre, ¬LooksHeader l) (b : List Str) :
    pre.foldl stepC ⟨b, [], false, false, true⟩ = ⟨b, [], false, false, true⟩ := by
  induction pre with
  | nil => rfl
  | cons l ls ih =>
    rw [List.foldl_cons, show stepC ⟨b, [], false, false, true⟩ l = ⟨b, [], false, false, true⟩ by
      simp [stepC, h l (by simp)]]
    exact ih fun x hx => h x (by simp [hx])

theorem fold_pre_first {pre : List Str} (h : ∀ l ∈ pre, ¬LooksHeader l) :
    pre.foldl stepC ⟨[], [], false, true, true⟩ = ⟨keptPre pre, [], false, pre.isEmpty, true⟩ := by
  cases pre with
  | nil => rfl
  | cons l ls =>
    rw [List.foldl_cons, show stepC ⟨[], [], false, true, true⟩ l = ⟨keptPre (l :: ls), [], false, false, true⟩ by
      simp [stepC, keptPre, h l (by simp)]]
    exact fold_pre (fun x hx => h x (by simp [hx])) _

theorem fold_body_after {b : List Str} (h : ∀ l ∈ b, ¬LooksHeader l) (B : List Str) (f : Bool) :
    b.foldl stepC ⟨B, [], true, f, false⟩ = ⟨B ++ b.map squeeze, [], true, f, false⟩ := by
  induction b generalizing B with
  | nil => simp
  | cons l ls ih =>
    rw [List.foldl_cons, show stepC ⟨B, [], true, f, false⟩ l = ⟨B ++ [squeeze l], [], true, f, false⟩ by
      by_cases hc : ':' ∈ l <;> simp [stepC, h l (by simp), hc], ih fun x hx => h x (by simp [hx])]
    simp

theorem fold_body {b : List Str} (h : ∀ l ∈ b, ¬LooksHeader l) (B inner : List Str) (f : Bool) :
    b.foldl stepC ⟨B, inner, true, f, true⟩ =
      if ∀ l ∈ b, ':' ∈ l then ⟨B, inner ++ b.map squeeze, true, f, true⟩ else ⟨B ++ (inner ++ b.map squeeze), [], true, f, false⟩ := by
  induction b generalizing inner with
  | nil => simp
  | cons l ls ih =>
    rw [List.foldl_cons]
    by_cases hc : ':' ∈ l
    · rw [show stepC ⟨B, inner, true, f, true⟩ l = ⟨B, inner ++ [squeeze l], true, f, true⟩ by
        simp [stepC, h l (by simp), hc], ih fun x hx => h x (by simp [hx])]
      simp [hc]
    · rw [show stepC ⟨B, inner, true, f, true⟩ l = ⟨B ++ inner ++ [squeeze l], [], true, f, false⟩ by
        simp [stepC, h l (by simp), hc], fold_body_after fun x hx => h x (by simp [hx])]
      simp [hc]

theorem push_body {b : List Str} (h : ∀ l ∈ b, ¬LooksHeader l) (B : List Str) (f : Bool) :
    sortAndPush (b.foldl stepC ⟨B, [], true, f, true⟩).inner (b.foldl stepC ⟨B, [], true, f, true⟩).builder = B ++ showBody b ∧
      (b.foldl stepC ⟨B, [], true, f, true⟩).inSections = true ∧ (b.foldl stepC ⟨B, [], true, f, true⟩).firstLine = f := by
  rw [fold_body h]
  unfold showBody sortAndPush
  split <;> simp [sortStrs]

theorem step_header {st : State} {h : Str} (hh : LooksHeader h) (hi : st.inSections = false → st.inner = [] ∧ st.coloned = true) :
    stepC st h = ⟨sortAndPush st.inner st.builder ++ [h], [], true, st.firstLine, true⟩ := by
  unfold stepC
  by_cases hs : st.inSections = false
  · obtain ⟨h1, h2⟩ := hi hs
    simp [hs, hh, h1, h2, sortAndPush, sortStrs]
  · have : st.inSections = true := by simpa using hs
    simp [this, hh]

theorem fold_sections {bs : List (Str × List Str)} (hh : ∀ b ∈ bs, LooksHeader b.1) (hb : ∀ b ∈ bs, ∀ l ∈ b.2, ¬LooksHeader l)
    (st : State) (hi : st.inSections = false → st.inner = [] ∧ st.coloned = true) :
    sortAndPush ((bs.flatMap fun b => b.1 :: b.2).foldl stepC st).inner ((bs.flatMap fun b => b.1 :: b.2).foldl stepC st).builder =
      sortAndPush st.inner st.builder ++ bs.flatMap fun b => b.1 :: showBody b.2 := by
  induction bs generalizing st with
  | nil => simp
  | cons b bs ih =>
    rw [List.flatMap_cons, List.cons_append, List.foldl_cons, List.foldl_append, step_header (hh b (by simp)) hi]
    obtain ⟨h1, h2, -⟩ := push_body (hb b (by simp)) (sortAndPush st.inner st.builder ++ [b.1]) st.firstLine
    rw [ih (fun x hx => hh x (by simp [hx])) (fun x hx => hb x (by simp [hx])) _ (fun h => by rw [h2] at h; cases h), h1]
    simp

theorem trimmer_layout {s : Str} {pre : List Str} {bs : List (Str × List Str)} (h : TrimLayout (cleanLines s) pre bs) :
    osuStrTrimmer s = join ['\n'] (keptPre pre ++ bs.flatMap fun b => b.1 :: showBody b.2) := by
  rw [trimmer_eq, h.eq, List.foldl_append, fold_pre_first h.pre, fold_sections h.head h.body _ (fun _ => ⟨rfl, rfl⟩)]
  simp [sortAndPush, sortStrs]

theorem trimLayout_ex (ls : List Str) : ∃ pre bs, TrimLayout ls pre bs := by
  induction ls with
  | nil => exact ⟨[], [], rfl, by simp, by simp, by simp⟩
  | cons l ls ih =>
    obtain ⟨pre, bs, e, h1, h2, h3⟩ := ih
    by_cases hl : LooksHeader l
    · exact ⟨[], (l, pre) :: bs, by simp [e], by simp, by simpa [hl] using h2, by simpa using ⟨h1, by simpa using h3⟩⟩
    · exact ⟨l :: pre, bs, by simp [e], by simpa [hl] using h1, h2, h3⟩

theorem trimLayout_unique {ls pre pre' : List Str} {bs bs' : List (Str × List Str)} (h : TrimLayout ls pre bs)
    (h' : TrimLayout ls pre' bs') : pre = pre' ∧ bs = bs' := by
  induction ls generalizing pre pre' bs bs' with
  | nil =>
    have aux : ∀ {pre : List Str} {bs : List (Str × List Str)}, TrimLayout [] pre bs → pre = [] ∧ bs = [] := by
      rintro pre bs ⟨e, -, -, -⟩
      obtain ⟨e1, e2⟩ := List.append_eq_nil_iff.1 e.symm
      refine ⟨e1, ?_⟩
      cases bs with
      | nil => rfl
      | cons b bs => simp at e2
    obtain ⟨rfl, rfl⟩ := aux h
    obtain ⟨rfl, rfl⟩ := aux h'
    exact ⟨rfl, rfl⟩
  | cons l ls ih =>
    have aux : ∀ {pre : List Str} {bs : List (Str × List Str)}, TrimLayout (l :: ls) pre bs →
        (¬LooksHeader l ∧ ∃ pre0, pre = l :: pre0 ∧ TrimLayout ls pre0 bs) ∨
        (LooksHeader l ∧ pre = [] ∧ ∃ b bs0, bs = (l, b) :: bs0 ∧ TrimLayout ls b bs0) := by
      rintro pre bs ⟨e, h1, h2, h3⟩
      cases pre with
      | cons x pre0 =>
        simp only [List.cons_append, List.cons.injEq] at e
        obtain ⟨rfl, e⟩ := e
        exact .inl ⟨h1 _ (by simp), pre0, rfl, e, fun y hy => h1 y (by simp [hy]), h2, h3⟩
      | nil =>
        cases bs with
        | nil => simp at e
        | cons b bs0 =>
          obtain ⟨x, b⟩ := b
          simp only [List.nil_append, List.flatMap_cons, List.cons_append, List.cons.injEq] at e
          obtain ⟨rfl, e⟩ := e
          exact .inr ⟨h2 (l, b) (by simp), rfl, b, bs0, rfl, e, h3 (l, b) (by simp), fun y hy => h2 y (by simp [hy]),
            fun y hy => h3 y (by simp [hy])⟩
    rcases aux h with ⟨hl, pre0, rfl, k⟩ | ⟨hl, rfl, b, bs0, rfl, k⟩
    · rcases aux h' with ⟨-, pre0', rfl, k'⟩ | ⟨hl', -⟩
      · obtain ⟨rfl, rfl⟩ := ih k k'; exact ⟨rfl, rfl⟩
      · exact absurd hl' hl
    · rcases aux h' with ⟨hl', -⟩ | ⟨-, rfl, b', bs0', rfl, k'⟩
      · exact absurd hl hl'
      · obtain ⟨rfl, rfl⟩ := ih k k'; exact ⟨rfl, rfl⟩

/-- The exact outcome. -/
theorem trimmed_iff {s t : Str} : osuStrTrimmer s = t ↔ Trimmed s t := by
  constructor
  · rintro rfl
    obtain ⟨pre, bs, h⟩ := trimLayout_ex (cleanLines s)
    exact ⟨pre, bs, _, h, sectionsShown_iff.2 rfl, trimmer_layout h⟩
  · rintro ⟨pre, bs, rs, h, hs, rfl⟩
    rw [sectionsShown_iff.1 hs, trimmer_layout h]


/-! ### Which texts have the same trimmed form -/

theorem lines_noLF' {s : Str} : ∀ l ∈ cleanLines s, NoLF l ∧ l ≠ [] ∧ '\uFEFF' ∉ l := by
  intro l hl
  unfold cleanLines at hl
  obtain ⟨hl, he⟩ := List.mem_filter.1 hl
  obtain ⟨x, hx, rfl⟩ := List.mem_map.1 hl
  refine ⟨?_, by simpa using he, ?_⟩
  · have hx := lines_noLF s x hx
    intro c hc
    refine hx c ?_
    have : c ∈ trim x := (List.mem_filter.1 hc).1
    unfold trim trimEnd trimStart at this
    have := (List.dropWhile_sublist _).mem (List.mem_reverse.1 this)
    exact (List.dropWhile_sublist _).mem (List.mem_reverse.1 this)
  · intro hc
    have := (List.mem_filter.1 hc).2
    simp at this

theorem squeeze_colon {l : Str} : ':' ∈ squeeze l ↔ ':' ∈ l := by
  unfold squeeze
  split
  · rename_i h
    simp only [h, iff_true]
    exact List.mem_filter.2 ⟨h, by decide⟩
  · exact Iff.rfl

theorem squeeze_sub {l : Str} : ∀ c ∈ squeeze l, c ∈ l := by
  intro c hc
  unfold squeeze at hc
  split at hc
  · exact (List.mem_filter.1 hc).1
  · exact hc

theorem headNot_trim {l : Str} (h : trim l = l) : HeadNot isWs l ∧ HeadNot isWs l.reverse := by
  constructor
  · rw [← h]; exact trim_headNot l
  · have := trim_reverse_headNot l; rwa [h] at this

theorem filter_head {l : Str} (h : HeadNot isWs l) : (l.filter fun c => !isWs c).head? = l.head? := by
  cases l with
  | nil => rfl
  | cons c l => rw [List.filter_cons, if_pos (by simp [h.of_cons])]; rfl

theorem squeeze_ends {l : Str} (h : trim l = l) : (squeeze l).head? = l.head? ∧ (squeeze l).getLast? = l.getLast? := by
  obtain ⟨h1, h2⟩ := headNot_trim h
  unfold squeeze
  split
  · refine ⟨filter_head h1, ?_⟩
    rw [List.getLast?_eq_head?_reverse, List.getLast?_eq_head?_reverse, ← List.filter_reverse]
    exact filter_head h2
  · exact ⟨rfl, rfl⟩

theorem squeeze_header {l : Str} (h : trim l = l) : LooksHeader (squeeze l) ↔ LooksHeader l := by
  unfold LooksHeader
  rw [(squeeze_ends h).1, (squeeze_ends h).2]

theorem squeeze_trim {l : Str} (h : trim l = l) : trim (squeeze l) = squeeze l := by
  obtain ⟨h1, h2⟩ := headNot_trim h
  have e := squeeze_ends h
  have aux : ∀ {a b : Str}, a.head? = b.head? → HeadNot isWs b → HeadNot isWs a := by
    intro a b hab hb c r hr
    subst hr
    cases b with
    | nil => cases hab
    | cons d b => cases hab; exact hb.of_cons
  refine trim_id (aux e.1 h1) (aux ?_ h2)
  rw [← List.getLast?_eq_head?_reverse, ← List.getLast?_eq_head?_reverse, e.2]

theorem squeeze_squeeze (l : Str) : squeeze (squeeze l) = squeeze l := by
  by_cases h : ':' ∈ l
  · have e : ∀ {x : Str}, ':' ∈ x → squeeze x = x.filter fun c => !isWs c := fun hx => by unfold squeeze; rw [if_pos hx]
    rw [e (squeeze_colon.2 h), e h]; simp
  · have e : squeeze l = l := by unfold squeeze; rw [if_neg h]
    rw [e, e]

theorem squeeze_ne {l : Str} (h : l ≠ []) : squeeze l ≠ [] := by
  by_cases hc : ':' ∈ l
  · intro he
    have := squeeze_colon.2 hc
    rw [he] at this; cases this
  · unfold squeeze; rwa [if_neg hc]

theorem mem_showBody {b : List Str} {x : Str} : x ∈ showBody b ↔ ∃ l ∈ b, x = squeeze l := by
  have : x ∈ showBody b ↔ x ∈ b.map squeeze := by
    unfold showBody
    split
    · exact (sortStrs_perm _).mem_iff
    · exact Iff.rfl
  rw [this, List.mem_map]
  exact ⟨fun ⟨l, h, e⟩ => ⟨l, h, e.symm⟩, fun ⟨l, h, e⟩ => ⟨l, h, e.symm⟩⟩

theorem showBody_colon {b : List Str} : (∀ l ∈ showBody b, ':' ∈ l) ↔ ∀ l ∈ b, ':' ∈ l := by
  constructor
  · intro h l hl
    exact squeeze_colon.1 (h _ (mem_showBody.2 ⟨l, hl, rfl⟩))
  · intro h l hl
    obtain ⟨x, hx, rfl⟩ := mem_showBody.1 hl
    exact squeeze_colon.2 (h x hx)

theorem showBody_eq {b b' : List Str} : showBody b = showBody b' ↔ SameLines b b' := by
  constructor
  · intro h
    have hc : (∀ l ∈ b, ':' ∈ l) ↔ ∀ l ∈ b', ':' ∈ l := by rw [← showBody_colon, h, showBody_colon]
    unfold showBody at h
    by_cases hb : ∀ l ∈ b, ':' ∈ l
    · rw [if_pos hb, if_pos (hc.1 hb)] at h
      refine .inr ⟨hb, (sortStrs_perm _).symm.trans ?_⟩
      rw [h]; exact sortStrs_perm _
    · rw [if_neg hb, if_neg (fun hh => hb (hc.2 hh))] at h
      exact .inl h
  · have aux : ∀ {b b' : List Str}, (∀ x ∈ b'.map squeeze, x ∈ b.map squeeze) → (∀ l ∈ b, ':' ∈ l) → ∀ l ∈ b', ':' ∈ l := by
      intro b b' h hb l hl
      obtain ⟨x, hx, e⟩ := List.mem_map.1 (h _ (List.mem_map_of_mem hl))
      rw [← squeeze_colon, ← e, squeeze_colon]; exact hb x hx
    rintro (h | ⟨hb, h⟩)
    · have hc : (∀ l ∈ b, ':' ∈ l) ↔ ∀ l ∈ b', ':' ∈ l := ⟨aux (by rw [h]; simp), aux (by rw [h]; simp)⟩
      unfold showBody
      by_cases hb : ∀ l ∈ b, ':' ∈ l
      · rw [if_pos hb, if_pos (hc.1 hb), h]
      · rw [if_neg hb, if_neg (fun hh => hb (hc.2 hh)), h]
    · unfold showBody
      rw [if_pos hb, if_pos (aux (fun x hx => h.mem_iff.2 hx) hb)]
      exact sortStrs_congr h

theorem keptPre_sub {pre : List Str} : ∀ l ∈ keptPre pre, l ∈ pre := by
  intro l hl
  cases pre with
  | nil => cases hl
  | cons x xs =>
    rw [keptPre] at hl
    split at hl
    · simp at hl; simp [hl]
    · cases hl

theorem keptPre_keptPre (pre : List Str) : keptPre (keptPre pre) = keptPre pre := by
  cases pre with
  | nil => rfl
  | cons x xs =>
    rw [keptPre]
    split
    · rename_i h; rw [keptPre, if_pos h]
    · rfl

/-- The lines of the trimmed form. -/
def outLines (pre : List Str) (bs : List (Str × List Str)) : List Str := keptPre pre ++ bs.flatMap fun b => b.1 :: showBody b.2

theorem outLines_mem {ls pre : List Str} {bs : List (Str × List Str)} (h : TrimLayout ls pre bs) {x : Str} (hx : x ∈ outLines pre bs) :
    ∃ l ∈ ls, x = l ∨ x = squeeze l := by
  rcases List.mem_append.1 hx with hx | hx
  · exact ⟨x, by rw [h.eq]; exact List.mem_append_left _ (keptPre_sub x hx), .inl rfl⟩
  · obtain ⟨b, hb, hx⟩ := List.mem_flatMap.1 hx
    rcases List.mem_cons.1 hx with rfl | hx
    · exact ⟨_, by rw [h.eq]; exact List.mem_append_right _ (List.mem_flatMap.2 ⟨b, hb, by simp⟩), .inl rfl⟩
    · obtain ⟨l, hl, rfl⟩ := mem_showBody.1 hx
      exact ⟨l, by rw [h.eq]; exact List.mem_append_right _ (List.mem_flatMap.2 ⟨b, hb, by simp [hl]⟩), .inr rfl⟩

theorem outLines_ok {s : Str} {pre : List Str} {bs : List (Str × List Str)} (h : TrimLayout (cleanLines s) pre bs) :
    ∀ x ∈ outLines pre bs, NoLF x ∧ x ≠ [] ∧ '\uFEFF' ∉ x := by
  intro x hx
  obtain ⟨l, hl, rfl | rfl⟩ := outLines_mem h hx
  · exact lines_noLF' _ hl
  · obtain ⟨h1, h2, h3⟩ := lines_noLF' _ hl
    exact ⟨fun c hc => h1 c (squeeze_sub c hc), squeeze_ne h2, fun hc => h3 (squeeze_sub _ hc)⟩

theorem outLines_layout {s : Str} {pre : List Str} {bs : List (Str × List Str)} (hs : BomOK s) (h : TrimLayout (cleanLines s) pre bs) :
    TrimLayout (outLines pre bs) (keptPre pre) (bs.map fun b => (b.1, showBody b.2)) := by
  have hm : ∀ b ∈ bs, ∀ l ∈ b.2, trim l = l := fun b hb l hl =>
    hs l (by rw [h.eq]; exact List.mem_append_right _ (List.mem_flatMap.2 ⟨b, hb, by simp [hl]⟩))
  refine ⟨by simp [outLines, List.flatMap_map], fun l hl => h.pre l (keptPre_sub l hl), ?_, ?_⟩
  · intro b hb
    obtain ⟨b0, hb0, rfl⟩ := List.mem_map.1 hb
    exact h.head b0 hb0
  · intro b hb l hl
    obtain ⟨b0, hb0, rfl⟩ := List.mem_map.1 hb
    obtain ⟨x, hx, rfl⟩ := mem_showBody.1 hl
    rw [squeeze_header (hm b0 hb0 x hx)]
    exact h.body b0 hb0 x hx

theorem join_inj {a b : List Str} (ha : ∀ x ∈ a, NoLF x ∧ x ≠ []) (hb : ∀ x ∈ b, NoLF x ∧ x ≠ []) (h : join ['\n'] a = join ['\n'] b) : a = b := by
  have key : ∀ {a : List Str}, (∀ x ∈ a, NoLF x ∧ x ≠ []) → a = (splitNL (join ['\n'] a)).filter fun l => !l.isEmpty := by
    intro a ha
    by_cases hn : a = []
    · subst hn; rfl
    · rw [splitNL_join hn (fun x hx => (ha x hx).1)]
      exact (List.filter_eq_self.2 fun x hx => by simpa using (ha x hx).2).symm
  rw [key ha, h, ← key hb]

theorem sameSections_iff {bs bs' : List (Str × List Str)} : SameSections bs bs' ↔
    (bs.map fun b => (b.1, showBody b.2)) = bs'.map fun b => (b.1, showBody b.2) := by
  induction bs generalizing bs' with
  | nil =>
    constructor
    · intro h; cases h; rfl
    · intro h; cases bs' with
      | nil => exact .nil
      | cons b bs => simp at h
  | cons b bs ih =>
    obtain ⟨h, b⟩ := b
    constructor
    · intro hh
      cases hh with
      | cons hb hs => simp [showBody_eq.2 hb, ih.1 hs]
    · intro hh
      cases bs' with
      | nil => simp at hh
      | cons b' bs' =>
        obtain ⟨h', b'⟩ := b'
        simp only [List.map_cons, List.cons.injEq, Prod.mk.injEq] at hh
        obtain ⟨⟨rfl, h1⟩, h2⟩ := hh
        exact .cons (showBody_eq.1 h1) (ih.2 h2)

theorem osuStrEq_iff {s t : Str} : osuStrEq s t = true ↔ osuStrTrimmer s = osuStrTrimmer t := by
  unfold osuStrEq; exact beq_iff_eq

theorem eq_layouts {s t : Str} {pre pre' : List Str} {bs bs' : List (Str × List Str)} (hs : BomOK s) (ht : BomOK t)
    (h : TrimLayout (cleanLines s) pre bs) (h' : TrimLayout (cleanLines t) pre' bs') :
    osuStrEq s t = true ↔ keptPre pre = keptPre pre' ∧ SameSections bs bs' := by
  rw [osuStrEq_iff, trimmer_layout h, trimmer_layout h', sameSections_iff]
  change join ['\n'] (outLines pre bs) = join ['\n'] (outLines pre' bs') ↔ _
  constructor
  · intro e
    have e := join_inj (fun x hx => ⟨(outLines_ok h x hx).1, (outLines_ok h x hx).2.1⟩)
      (fun x hx => ⟨(outLines_ok h' x hx).1, (outLines_ok h' x hx).2.1⟩) e
    have l1 := outLines_layout hs h
    rw [e] at l1
    exact trimLayout_unique l1 (outLines_layout ht h')
  · rintro ⟨e1, e2⟩
    have e3 := congrArg (List.flatMap fun b : Str × List Str => b.1 :: b.2) e2
    simp only [List.flatMap_map] at e3
    unfold outLines
    rw [e1, e3]

/-! ### Trimming twice -/

theorem cleanLine_id {l : Str} (h : trim l = l) (hb : '\uFEFF' ∉ l) : cleanLine l = l := by
  unfold cleanLine
  rw [h, List.filter_eq_self]
  intro c hc
  simp only [Bool.not_eq_true', beq_eq_false_iff_ne]
  rintro rfl; exact hb hc

theorem cleanLines_join {ls : List Str} (h : ∀ l ∈ ls, NoLF l ∧ l ≠ [] ∧ '\uFEFF' ∉ l) (ht : ∀ l ∈ ls, trim l = l) :
    cleanLines (join ['\n'] ls) = ls := by
  by_cases hn : ls = []
  · subst hn; rfl
  · rw [cleanLines_split, splitNL_join hn fun x hx => (h x hx).1]
    unfold cleaned
    rw [show ls.map cleanLine = ls by
      conv => rhs; rw [← List.map_id ls]
      exact List.map_congr_left fun x hx => cleanLine_id (ht x hx) (h x hx).2.2]
    exact List.filter_eq_self.2 fun x hx => by simpa using (h x hx).2.1

theorem showBody_showBody (b : List Str) : showBody (showBody b) = showBody b := by
  have hm : (showBody b).map squeeze = showBody b := by
    conv => rhs; rw [← List.map_id (showBody b)]
    refine List.map_congr_left fun x hx => ?_
    obtain ⟨l, -, rfl⟩ := mem_showBody.1 hx
    exact squeeze_squeeze l
  have e : showBody (showBody b) = if ∀ l ∈ showBody b, ':' ∈ l then sortStrs ((showBody b).map squeeze) else (showBody b).map squeeze := rfl
  rw [e, hm]
  split
  · rename_i h
    rw [showBody_colon] at h
    refine sorted_unique (sortStrs_sorted _) ?_ (sortStrs_perm _)
    unfold showBody
    rw [if_pos h]; exact sortStrs_sorted _
  · rfl

theorem trimmer_twice {s : Str} (hs : BomOK s) : osuStrTrimmer (osuStrTrimmer s) = osuStrTrimmer s := by
  obtain ⟨pre, bs, h⟩ := trimLayout_ex (cleanLines s)
  have l1 := outLines_layout hs h
  have e : cleanLines (osuStrTrimmer s) = outLines pre bs := by
    rw [trimmer_layout h]
    refine cleanLines_join (outLines_ok h) ?_
    intro x hx
    obtain ⟨l, hl, rfl | rfl⟩ := outLines_mem h hx
    · exact hs _ hl
    · exact squeeze_trim (hs _ hl)
  rw [← e] at l1
  rw [trimmer_layout l1, trimmer_layout h, keptPre_keptPre, List.flatMap_map]
  simp only [showBody_showBody]

theorem bomOK_none {s : Str} (h : '\uFEFF' ∉ s) : BomOK s := by
  intro l hl
  unfold cleanLines at hl
  obtain ⟨x, hx, rfl⟩ := List.mem_map.1 (List.mem_filter.1 hl).1
  have hx' : '\uFEFF' ∉ trim x := by
    intro hm
    have hm : '\uFEFF' ∈ x := by
      unfold trim trimEnd trimStart at hm
      have := (List.dropWhile_sublist _).mem (List.mem_reverse.1 hm)
      exact (List.dropWhile_sublist _).mem (List.mem_reverse.1 this)
    have := lines_allC (f := fun c => !(c == '\uFEFF')) (s := s)
      (fun c hc => by simp only [Bool.not_eq_true', beq_eq_false_iff_ne]; rintro rfl; exact h hc) x hx _ hm
    simp at this
  have : cleanLine x = trim x := by
    unfold cleanLine
    rw [List.filter_eq_self]
    intro c hc
    simp only [Bool.not_eq_true', beq_eq_false_iff_ne]
    rintro rfl; exact hx' hc
  rw [this, trim_trim]

theorem mem_join {sep : Str} {ls : List Str} {c : Char} (h : c ∈ join sep ls) : c ∈ sep ∨ ∃ l ∈ ls, c ∈ l := by
  induction ls with
  | nil => cases h
  | cons x xs ih =>
    cases xs with
    | nil => exact .inr ⟨x, by simp, h⟩
    | cons y ys =>
      rw [join_cons_cons] at h
      rcases List.mem_append.1 h with h | h
      · rcases List.mem_append.1 h with h | h
        · exact .inr ⟨x, by simp, h⟩
        · exact .inl h
      · rcases ih h with h | ⟨l, hl, hc⟩
        · exact .inl h
        · exact .inr ⟨l, by simp [hl], hc⟩

theorem trimmer_bom (s : Str) : '\uFEFF' ∉ osuStrTrimmer s := by
  obtain ⟨pre, bs, h⟩ := trimLayout_ex (cleanLines s)
  rw [trimmer_layout h]
  intro hm
  rcases mem_join hm with hm | ⟨l, hl, hm⟩
  · exact absurd hm (by decide)
  · exact (outLines_ok h l hl).2.2 hm

/-! ### Edits that make no difference -/

theorem trimmer_congr {s t : Str} (h : cleanLines s = cleanLines t) : osuStrTrimmer s = osuStrTrimmer t := by
  rw [trimmer_eq, trimmer_eq, h]

theorem cleanLines_insert_ws {a b w : Str} (hw : AllC isWs w)
    (h : (a = [] ∨ a.getLast? = some '\n') ∨ (b = [] ∨ b.head? = some '\n')) : cleanLines (a ++ w ++ b) = cleanLines (a ++ b) := by
  rcases h with (rfl | h) | (rfl | h)
  · exact cleanLines_ws_append hw
  · have hne : a ≠ [] := by rintro rfl; cases h
    rw [List.getLast?_eq_some_getLast hne, Option.some.injEq] at h
    rw [← List.dropLast_concat_getLast hne, h, List.append_assoc, List.append_assoc, List.append_assoc]
    simp only [List.singleton_append]
    rw [cleanLines_append, cleanLines_append, cleanLines_ws_append hw]
  · rw [List.append_nil, List.append_nil]; exact cleanLines_append_ws hw
  · cases b with
    | nil => cases h
    | cons c b =>
      cases h
      rw [cleanLines_append, cleanLines_append, cleanLines_append_ws hw]

/-- The text with carriage returns before all line feeds. -/
def crlf (s : Str) : Str := s.flatMap fun c => if c = '\n' then ['\r', '\n'] else [c]

theorem cleanLines_crlf (s : Str) : cleanLines (crlf s) = cleanLines s := by
  have key : ∀ (s p : Str), cleanLines (p ++ crlf s) = cleanLines (p ++ s) := by
    intro s
    induction s with
    | nil => intro p; rfl
    | cons c s ih =>
      intro p
      unfold crlf
      rw [List.flatMap_cons]
      by_cases hc : c = '\n'
      · subst hc
        rw [if_pos rfl]
        change cleanLines (p ++ ('\r' :: '\n' :: crlf s)) = _
        rw [show p ++ ('\r' :: '\n' :: crlf s) = (p ++ ['\r']) ++ '\n' :: crlf s by simp, cleanLines_append, cleanLines_append,
          cleanLines_append_ws (by intro c hc; simp at hc; subst hc; decide)]
        congr 1
        exact ih []
      · rw [if_neg hc]
        change cleanLines (p ++ ([c] ++ crlf s)) = _
        rw [← List.append_assoc, ih]
        simp
  exact key s []

theorem trimEnd_append {s t : Str} (h : ¬AllC isWs t) : trimEnd (s ++ t) = s ++ trimEnd t := by
  unfold trimEnd
  rw [List.reverse_append, List.dropWhile_append, if_neg]
  · simp
  · intro he
    refine h fun c hc => ?_
    exact dropWhile_eq_nil.1 (by simpa using he) c (by simpa using hc)

theorem cleanLine_bom {x y : Str} (hx : ∀ c, x.getLast? = some c → isWs c = false) (hy : ∀ c, y.head? = some c → isWs c = false) :
    cleanLine (x ++ '\uFEFF' :: y) = cleanLine (x ++ y) := by
  have hyn : y ≠ [] → ¬AllC isWs y := by
    intro hne h
    obtain ⟨c, r, rfl⟩ := List.exists_cons_of_ne_nil hne
    have := h c (by simp); rw [hy c rfl] at this; cases this
  have hbn : ¬AllC isWs ('\uFEFF' :: y) := fun h => absurd (h '\uFEFF' (by simp)) (by decide)
  have h1 : trimEnd ('\uFEFF' :: y) = '\uFEFF' :: trimEnd y := by
    by_cases he : y = []
    · subst he; decide
    · exact trimEnd_append (s := ['\uFEFF']) (hyn he)
  have hf : ∀ u v : Str, (u ++ '\uFEFF' :: v).filter (fun c => !(c == '\uFEFF')) = (u ++ v).filter fun c => !(c == '\uFEFF') := by
    intro u v; simp
  unfold cleanLine
  by_cases he : x = []
  · subst he
    unfold trim
    rw [List.nil_append, List.nil_append, show trimStart ('\uFEFF' :: y) = '\uFEFF' :: y by unfold trimStart; rw [List.dropWhile_cons_of_neg (by decide)], h1]
    have : trimStart y = y := by
      unfold trimStart
      cases y with
      | nil => rfl
      | cons c y => rw [List.dropWhile_cons_of_neg (by rw [hy c rfl]; decide)]
    rw [this]
    exact hf [] _
  · have hxn : ¬AllC isWs x := by
      intro h
      have := h _ (List.getLast_mem he)
      rw [hx _ (List.getLast?_eq_some_getLast he)] at this; cases this
    have hxe : trimEnd (trimStart x) = trimStart x := by
      unfold trimEnd
      have hne : (trimStart x) ≠ [] := fun h => hxn (dropWhile_eq_nil.1 h)
      have hl : (trimStart x).getLast hne = x.getLast he := by
        obtain ⟨p, hp⟩ := List.dropWhile_suffix (l := x) isWs
        have e1 : x.getLast? = (trimStart x).getLast? := by
          conv => lhs; rw [← hp]
          rw [List.getLast?_append, show List.dropWhile isWs x = trimStart x from rfl, List.getLast?_eq_some_getLast hne]; rfl
        rw [List.getLast?_eq_some_getLast he, List.getLast?_eq_some_getLast hne, Option.some.injEq] at e1
        exact e1.symm
      have : HeadNot isWs (trimStart x).reverse := by
        rw [← List.dropLast_concat_getLast hne, List.reverse_append]
        exact .cons (by rw [hl]; exact hx _ (List.getLast?_eq_some_getLast he))
      have hd : (trimStart x).reverse.dropWhile isWs = (trimStart x).reverse := by
        rcases headNot_iff.1 this with h | ⟨c, r, h, hc⟩
        · rw [h]; rfl
        · rw [h, List.dropWhile_cons_of_neg (by rw [hc]; decide)]
      rw [hd, List.reverse_reverse]
    unfold trim
    rw [trimStart_append hxn, trimStart_append hxn, trimEnd_append hbn, h1, hf]
    by_cases hye : y = []
    · subst hye
      rw [List.append_nil, hxe, show trimEnd [] = [] from rfl, List.append_nil]
    · rw [trimEnd_append (hyn hye)]

theorem cleanLines_bom {a b : Str} (ha : ∀ c, a.getLast? = some c → isWs c = false ∨ c = '\n')
    (hb : ∀ c, b.head? = some c → isWs c = false ∨ c = '\n') : cleanLines (a ++ '\uFEFF' :: b) = cleanLines (a ++ b) := by
  have hnb : NoLF ['\uFEFF'] := by decide
  -- the last line of `a`
  obtain ⟨a0, x, hx, hax⟩ := lastLine a
  obtain ⟨y, b0, hy, hby⟩ := firstLine b
  have hx' : ∀ c, x.getLast? = some c → isWs c = false := by
    intro c hc
    have : a.getLast? = some c := by
      rcases hax with ⟨rfl, -⟩ | rfl
      · exact hc
      · cases x with
        | nil => cases hc
        | cons d x => rw [List.getLast?_append, List.getLast?_cons_cons, hc]; rfl
    refine (ha c this).resolve_right ?_
    rintro rfl
    have hm : '\n' ∈ x := by
      have hne : x ≠ [] := by rintro rfl; cases hc
      rw [List.getLast?_eq_some_getLast hne, Option.some.injEq] at hc
      rw [← hc]; exact List.getLast_mem hne
    exact absurd (hx _ hm) (by decide)
  have hy' : ∀ c, y.head? = some c → isWs c = false := by
    intro c hc
    have : b.head? = some c := by
      rcases hby with ⟨rfl, -⟩ | rfl
      · exact hc
      · cases y with
        | nil => cases hc
        | cons d y => exact hc
    refine (hb c this).resolve_right ?_
    rintro rfl
    cases y with
    | nil => cases hc
    | cons d y => cases hc; exact absurd (hy '\n' (by simp)) (by decide)
  have hl : cleanLines (x ++ '\uFEFF' :: y) = cleanLines (x ++ y) := by
    rw [cleanLines_noLF (hx.append hy), cleanLines_noLF]
    · exact cleaned_single_congr (cleanLine_bom hx' hy')
    · exact hx.append (AllC.cons (by decide) hy)
  have hlb : cleanLines (x ++ '\uFEFF' :: b) = cleanLines (x ++ b) := by
    rcases hby with ⟨rfl, -⟩ | rfl
    · exact hl
    · rw [← List.cons_append, ← List.append_assoc, ← List.append_assoc, cleanLines_append, cleanLines_append, hl]
  rcases hax with ⟨rfl, -⟩ | rfl
  · exact hlb
  · rw [List.append_assoc, List.append_assoc, List.cons_append, List.cons_append, cleanLines_append, cleanLines_append, hlb]

theorem trimmer_order {s t : Str} {p b b' q : List Str} {h : Str} (hs : cleanLines s = p ++ h :: (b ++ q))
    (ht : cleanLines t = p ++ h :: (b' ++ q)) (hh : LooksHeader h) (hb : ∀ l ∈ b, ':' ∈ l ∧ ¬LooksHeader l) (hp : b.Perm b')
    (hq : ∀ x, q.head? = some x → LooksHeader x) : osuStrTrimmer s = osuStrTrimmer t := by
  obtain ⟨pre, bs, l1⟩ := trimLayout_ex p
  obtain ⟨pre2, bs2, l2⟩ := trimLayout_ex q
  have hpre2 : pre2 = [] := by
    cases pre2 with
    | nil => rfl
    | cons x xs => exact absurd (hq x (by rw [l2.eq]; rfl)) (l2.pre x (by simp))
  subst hpre2
  have hL : ∀ c : List Str, (∀ l ∈ c, ¬LooksHeader l) → TrimLayout (p ++ h :: (c ++ q)) pre (bs ++ (h, c) :: bs2) := by
    intro c hc
    refine ⟨by rw [l1.eq, l2.eq]; simp, l1.pre, ?_, ?_⟩
    · intro x hx
      rcases List.mem_append.1 hx with hx | hx
      · exact l1.head x hx
      · rcases List.mem_cons.1 hx with rfl | hx
        · exact hh
        · exact l2.head x hx
    · intro x hx
      rcases List.mem_append.1 hx with hx | hx
      · exact l1.body x hx
      · rcases List.mem_cons.1 hx with rfl | hx
        · exact hc
        · exact l2.body x hx
  rw [trimmer_layout (hs ▸ hL b fun l hl => (hb l hl).2), trimmer_layout (ht ▸ hL b' fun l hl => (hb l (hp.mem_iff.2 hl)).2)]
  have : showBody b = showBody b' := showBody_eq.2 (.inr ⟨fun l hl => (hb l hl).1, hp.map _⟩)
  simp [this]

end Osu
