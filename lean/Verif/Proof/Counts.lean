/-
Lemmas on rows and on the number of entries.
-/
import Verif.Spec.Counts
import Verif.Proof.Loaded
import Verif.Props.FieldTables
import Verif.Props.Osb

namespace Osu
open SB Ev Parser

theorem pieces_ne (s : Str) : pieces s ≠ [] := by
  cases s with
  | nil => simp [pieces]
  | cons c s =>
    unfold pieces
    split
    · simp
    · split <;> simp

theorem pieces_app (a b : Str) : ∃ ys y z zs, pieces a = ys ++ [y] ∧ pieces b = z :: zs ∧ pieces (a ++ b) = ys ++ (y ++ z) :: zs := by
  obtain ⟨z, zs, hz⟩ := List.exists_cons_of_ne_nil (pieces_ne b)
  induction a with
  | nil => exact ⟨[], [], z, zs, rfl, hz, hz⟩
  | cons c a ih =>
    obtain ⟨ys, y, z', zs', h1, h2, h3⟩ := ih
    rw [hz] at h2; cases h2
    by_cases hc : isBreak c = true
    · refine ⟨[] :: ys, y, z, zs, ?_, hz, ?_⟩
      · rw [pieces, if_pos hc, h1]; rfl
      · rw [List.cons_append, pieces, if_pos hc, h3]; rfl
    · cases ys with
      | nil =>
        refine ⟨[], c :: y, z, zs, ?_, hz, ?_⟩
        · rw [pieces, if_neg hc, h1]; rfl
        · rw [List.cons_append, pieces, if_neg hc, h3]; rfl
      | cons w ws =>
        refine ⟨(c :: w) :: ws, y, z, zs, ?_, hz, ?_⟩
        · rw [pieces, if_neg hc, h1]; rfl
        · rw [List.cons_append, pieces, if_neg hc, h3]; rfl

theorem contentLines_app (a b : List Str) : contentLines (a ++ b) = contentLines a ++ contentLines b := List.filter_append ..

theorem contentLines_one (p : Str) : (contentLines [p]).length = if Blank p then 0 else 1 := by
  unfold contentLines
  by_cases h : Blank p <;> simp [h]

theorem contentLines_cons_len (p : Str) (ps : List Str) :
    (contentLines (p :: ps)).length = (if Blank p then 0 else 1) + (contentLines ps).length := by
  rw [← List.singleton_append, contentLines_app, List.length_append, contentLines_one]

theorem blank_app {a b : Str} : Blank (a ++ b) ↔ Blank a ∧ Blank b := by
  unfold Blank
  constructor
  · intro h; exact ⟨fun c hc => h c (List.mem_append_left _ hc), fun c hc => h c (List.mem_append_right _ hc)⟩
  · rintro ⟨h1, h2⟩ c hc
    rcases List.mem_append.1 hc with h | h
    · exact h1 c h
    · exact h2 c h

theorem blank_nil : Blank [] := nofun

theorem rowCount_nil : rowCount [] = 0 := by
  simp [rowCount, pieces, contentLines, blank_nil]

theorem rowCount_left (a b : Str) : rowCount a ≤ rowCount (a ++ b) := by
  obtain ⟨ys, y, z, zs, h1, h2, h3⟩ := pieces_app a b
  unfold rowCount
  rw [h1, h3, contentLines_app, contentLines_app, List.length_append, List.length_append, contentLines_one, contentLines_cons_len]
  by_cases hy : Blank y
  · rw [if_pos hy]; omega
  · rw [if_neg hy, if_neg fun h => hy (blank_app.1 h).1]; omega

theorem rowCount_right (a b : Str) : rowCount b ≤ rowCount (a ++ b) := by
  obtain ⟨ys, y, z, zs, h1, h2, h3⟩ := pieces_app a b
  unfold rowCount
  rw [h2, h3, contentLines_app, List.length_append, contentLines_cons_len, contentLines_cons_len]
  by_cases hz : Blank z
  · rw [if_pos hz]; omega
  · rw [if_neg hz, if_neg fun h => hz (blank_app.1 h).2]; omega

theorem rowCount_break {c : Char} (hc : isBreak c = true) (a b : Str) : rowCount (a ++ c :: b) = rowCount a + rowCount b := by
  obtain ⟨ys, y, z, zs, h1, h2, h3⟩ := pieces_app a (c :: b)
  rw [pieces, if_pos hc] at h2
  cases h2
  unfold rowCount
  rw [h1, h3, contentLines_app, contentLines_app, List.length_append, List.length_append, List.append_nil, contentLines_one,
    contentLines_cons_len]
  omega

theorem isBreak_ws {c : Char} (h : isBreak c = true) : isWs c = true := by
  unfold isBreak at h
  rw [Bool.or_eq_true, beq_iff_eq, beq_iff_eq] at h
  rcases h with rfl | rfl <;> decide

theorem rowCount_pos {u : Str} (h : ¬Blank u) : 1 ≤ rowCount u := by
  have : ∃ c ∈ u, ¬isWs c = true := Classical.byContradiction fun hn => h fun c hc => Classical.byContradiction fun hw => hn ⟨c, hc, hw⟩
  obtain ⟨c, hc, hw⟩ := this
  obtain ⟨a, b, rfl⟩ := List.append_of_mem hc
  refine Nat.le_trans ?_ (rowCount_right a (c :: b))
  refine Nat.le_trans ?_ (rowCount_left [c] b)
  have hb : ¬isBreak c = true := fun h => hw (isBreak_ws h)
  simp only [rowCount, pieces, if_neg hb]
  rw [contentLines_one, if_neg fun h => hw (h c (by simp))]
  exact Nat.le_refl 1

theorem rowCount_blank {u : Str} (h : Blank u) : rowCount u = 0 := by
  induction u with
  | nil => exact rowCount_nil
  | cons c u ih =>
    have h' := ih fun d hd => h d (.tail _ hd)
    obtain ⟨ys, y, z, zs, h1, h2, h3⟩ := pieces_app [c] u
    unfold rowCount at h' ⊢
    by_cases hc : isBreak c = true
    · rw [pieces, if_pos hc, contentLines_cons_len, if_pos blank_nil, h']
    · rw [pieces, if_neg hc, h2]
      rw [h2, contentLines_cons_len] at h'
      show (contentLines ((c :: z) :: zs)).length = 0
      rw [contentLines_cons_len]
      have hz : Blank z := Classical.byContradiction fun hz => by rw [if_neg hz] at h'; omega
      rw [if_pos, Nat.zero_add]
      · omega
      · intro d hd
        rcases List.mem_cons.1 hd with rfl | hd
        · exact h _ (.head _)
        · exact hz d hd

theorem blank_stripCR {u : Str} : Blank (stripCR u) ↔ Blank u := by
  unfold stripCR
  split
  · rename_i h
    obtain ⟨a, rfl⟩ := List.getLast?_eq_some_iff.1 h
    rw [List.dropLast_concat, blank_app]
    exact ⟨fun h => ⟨h, by decide⟩, fun h => h.1⟩
  · rfl

/-- There are at least as many rows as lines that are not blank. -/
theorem lines_le_rows (s : Str) : (contentLines (lines s)).length ≤ rowCount s := by
  obtain ⟨n, hn⟩ : ∃ n, s.length = n := ⟨_, rfl⟩
  induction n using Nat.strongRecOn generalizing s with
  | _ n ih =>
    obtain ⟨u, rest, rfl, hu, hr⟩ := firstLine_split s
    rcases hr with rfl | ⟨r, rfl⟩
    · rw [List.append_nil]
      by_cases hne : u = []
      · subst hne; simp [lines_nil, contentLines]
      · rw [lines_single hu hne, contentLines_one]
        by_cases hb : Blank u
        · rw [if_pos hb]; omega
        · rw [if_neg hb]; exact rowCount_pos hb
    · rw [lines_cons hu, contentLines_cons_len, rowCount_break (by decide)]
      have := ih r.length (by rw [← hn]; simp; omega) r rfl
      by_cases hb : Blank u
      · rw [if_pos (blank_stripCR.2 hb)]; omega
      · rw [if_neg fun h => hb (blank_stripCR.1 h)]
        have := rowCount_pos hb
        omega

theorem rowCount_plain {u : Str} (h1 : '\n' ∉ u) (h2 : '\r' ∉ u) : rowCount u = if Blank u then 0 else 1 := by
  have : pieces u = [u] := by
    induction u with
    | nil => rfl
    | cons c u ih =>
      have hc : ¬isBreak c = true := by
        unfold isBreak
        rw [Bool.or_eq_true, beq_iff_eq, beq_iff_eq]
        rintro (rfl | rfl)
        · exact h1 (.head _)
        · exact h2 (.head _)
      rw [pieces, if_neg hc, ih (fun h => h1 (.tail _ h)) fun h => h2 (.tail _ h)]
  rw [rowCount, this, contentLines_one]

/-- If carriage returns stand before line feeds only, the rows are the lines that are not blank. -/
theorem rows_eq_lines {s : Str} (hp : PlainBreaks s) : rowCount s = (contentLines (lines s)).length := by
  obtain ⟨n, hn⟩ : ∃ n, s.length = n := ⟨_, rfl⟩
  induction n using Nat.strongRecOn generalizing s with
  | _ n ih =>
    obtain ⟨u, rest, rfl, hu, hr⟩ := firstLine_split s
    have hu' : '\n' ∉ u := fun h => by
      exact absurd (hu _ h) (by decide)
    rcases hr with rfl | ⟨r, rfl⟩
    · rw [List.append_nil] at hp ⊢
      have hcr : '\r' ∉ u := by
        intro h
        obtain ⟨a, b, rfl⟩ := List.append_of_mem h
        obtain ⟨b', rfl⟩ := hp a b rfl
        exact hu' (by simp)
      by_cases hne : u = []
      · subst hne; simp [lines_nil, contentLines, rowCount_nil]
      · rw [lines_single hu hne, contentLines_one, rowCount_plain hu' hcr]
    · rw [lines_cons hu, contentLines_cons_len, rowCount_break (by decide)]
      have hr : PlainBreaks r := fun a b e => hp (u ++ '\n' :: a) b (by rw [e]; simp)
      rw [ih r.length (by rw [← hn]; simp; omega) hr rfl]
      congr 1
      have hcr : ∀ a b, u = a ++ '\r' :: b → b = [] := by
        rintro a b rfl
        obtain ⟨b', e⟩ := hp a (b ++ '\n' :: r) (by simp)
        cases b with
        | nil => rfl
        | cons d b =>
          injection e with e _
          exact absurd (by rw [← e]; simp) hu'
      by_cases h : '\r' ∈ u
      · obtain ⟨a, b, e⟩ := List.append_of_mem h
        obtain rfl := hcr a b e
        subst e
        have ha : '\r' ∉ a := by
          intro h
          obtain ⟨a', b', rfl⟩ := List.append_of_mem h
          have := hcr a' (b' ++ ['\r']) (by simp)
          simp at this
        rw [rowCount_break (by decide), rowCount_nil, Nat.add_zero, rowCount_plain (fun h => hu' (List.mem_append_left _ h)) ha]
        have : stripCR (a ++ ['\r']) = a := by simp [stripCR]
        rw [this]
      · rw [rowCount_plain hu' h]
        simp only [blank_stripCR]

/-! ### Entries of sections -/

section
variable {D : Type} [DecLib D]

theorem parseLines_len {E α : Type} {f : Str → Res E α} {s : Str} {as : List α} (h : parseLines f s = .ok as) :
    as.length = (contentLines (lines s)).length := by
  have := congrArg List.length (parseLines_ok_iff.1 h)
  rw [List.length_map, List.length_map] at this
  rw [contentLines_eq, this]

omit [DecLib D] in
theorem cmdLines_len {R : Str → Nat × Command D → Prop} {ls : List Str} {xs : List (Nat × Command D)} (h : CmdLines R ls xs) :
    ls.length = xs.length := by
  induction h with
  | nil => rfl
  | cons _ _ ih => rw [List.length_cons, List.length_cons, ih]

theorem section_entries {v : Nat} {R : Str → Nat × Command D → Prop} {ls : List Str} {evs : List (Event D)}
    (h : SectionReads v R ls evs) : eventEntries evs = ls.length := by
  induction h with
  | nil => rfl
  | cons hh hc hs ih =>
    unfold eventEntries at ih ⊢
    rw [List.map_cons, List.sum_cons, ih, List.length_cons, List.length_append, cmdLines_len hc]
    omega

omit [DecLib D] in
theorem cmdLines_level {R : Str → Nat × Command D → Prop} (hR : ∀ l x, R l x → indentOf l = x.1) {ls : List Str}
    {xs : List (Nat × Command D)} (h : CmdLines R ls xs) : xs.map Prod.fst = ls.map indentOf := by
  induction h with
  | nil => rfl
  | cons h _ ih => rw [List.map_cons, List.map_cons, ih, hR _ _ h]

theorem head_indent {v : Nat} {l : Str} {e : Event D} (h : HeadReads v l e) : indentOf l = 0 := by
  have key : ∀ (c : Char) (r : Str), (c == ' ' || c == '_') = false → indentOf (c :: r) = 0 := by
    intro c r hc
    unfold indentOf
    rw [List.takeWhile_cons, hc]; rfl
  cases h with
  | comment s => exact key _ _ (by decide)
  | event h =>
    have hj : l = join [','] (splitOnC ',' l) := (join_splitOnC ',' l).symm
    cases l with
    | nil => rfl
    | cons c r =>
      apply key
      cases hs : splitOnC ',' (c :: r) with
      | nil => rw [hs] at h; cases h
      | cons p ps =>
        have hp : ∀ d q, p = d :: q → c = d := by
          rintro d q rfl
          rw [hs] at hj
          cases ps with
          | nil => simp [join] at hj; exact hj.1
          | cons => simp [join] at hj; exact hj.1
        rw [hs] at h
        cases h with
        | @video _ _ _ _ _ _ _ short hh _ _ _ => cases short <;> (subst hh; rw [hp _ _ rfl]; decide)
        | @break_ _ _ _ _ _ _ _ short hh _ _ _ _ => cases short <;> (subst hh; rw [hp _ _ rfl]; decide)
        | background => rw [hp _ _ rfl]; decide
        | colourTransformation => rw [hp _ _ rfl]; decide
        | spriteLegacy => rw [hp _ _ rfl]; decide
        | animationLegacy => rw [hp _ _ rfl]; decide
        | sampleLegacy => rw [hp _ _ rfl]; decide
        | sprite => rw [hp _ _ rfl]; decide
        | animation => rw [hp _ _ rfl]; decide
        | audioSample => rw [hp _ _ rfl]; decide

theorem section_depth {v : Nat} {R : Str → Nat × Command D → Prop} (hR : ∀ l x, R l x → 1 ≤ x.1 ∧ indentOf l = x.1) {ls : List Str}
    {evs : List (Event D)} (h : SectionReads v R ls evs) (n : Nat) : HasDepth evs n ↔ 1 ≤ n ∧ ∃ l ∈ ls, indentOf l = n := by
  induction h with
  | nil =>
    constructor
    · rintro ⟨_, h, _⟩; cases h
    · rintro ⟨_, _, h, _⟩; cases h
  | @cons hd cls ls e evs hh hc hs ih =>
    have hl := cmdLines_level (fun l x h => (hR l x h).2) hc
    have h1 : ∀ x ∈ listing 1 (e.commands.getD []), 1 ≤ x.1 := by
      clear hl ih hs hh
      generalize listing 1 (e.commands.getD []) = xs at hc
      induction hc with
      | nil => nofun
      | cons h _ ih =>
        intro x hx
        rcases List.mem_cons.1 hx with rfl | hx
        · exact (hR _ _ h).1
        · exact ih x hx
    have hm : (∃ x ∈ listing 1 (e.commands.getD []), x.1 = n) ↔ ∃ l ∈ cls, indentOf l = n := by
      have := congrArg (n ∈ ·) hl
      simp only [List.mem_map, eq_iff_iff] at this
      exact this
    unfold HasDepth at ih ⊢
    constructor
    · rintro ⟨e', he', x, hx, rfl⟩
      rcases List.mem_cons.1 he' with rfl | he'
      · obtain ⟨l, hl, e⟩ := hm.1 ⟨x, hx, rfl⟩
        exact ⟨h1 x hx, l, by simp [hl], e⟩
      · obtain ⟨h2, l, hl, e⟩ := ih.1 ⟨e', he', x, hx, rfl⟩
        exact ⟨h2, l, by simp [hl], e⟩
    · rintro ⟨h2, l, hl, rfl⟩
      rcases List.mem_cons.1 hl with rfl | hl
      · rw [head_indent hh] at h2; omega
      rcases List.mem_append.1 hl with hl | hl
      · obtain ⟨x, hx, hi⟩ := hm.2 ⟨l, hl, rfl⟩
        exact ⟨e, .head _, x, hx, hi⟩
      · obtain ⟨e', he', r⟩ := ih.2 ⟨h2, l, hl, rfl⟩
        exact ⟨e', .tail _ he', r⟩

theorem vars_len {ls : List Str} {vs : List Variable} (h : VarsRead ls vs) : vs.length = ls.length := by
  induction h with
  | nil => rfl
  | cons _ _ ih => rw [List.length_cons, List.length_cons, ih]

/-! ### Key/value sections -/

theorem kv_rows {s r : Str} {es : List (KVLine × Str)} (h : KVEntries s es r) : es.length ≤ rowCount s := by
  induction h with
  | nil => simp
  | @cons l gap s es r hk hw hv hh hg hb hs he h ih =>
    have ht : 1 ≤ rowCount l.text := by
      apply rowCount_pos
      intro hb
      have := hb ':' (by simp [KVLine.text])
      exact absurd this (by decide)
    cases gap with
    | nil =>
      obtain rfl := he rfl
      rw [rowCount_nil] at ih
      have := rowCount_left l.text ([] ++ [])
      simp only [List.length_cons]
      omega
    | cons c g =>
      have hc : isBreak c = true := by
        have : (!(c == '\r' || c == '\n')) = false := hb c g rfl
        rw [Bool.not_eq_false'] at this
        unfold isBreak
        rw [Bool.or_comm]; exact this
      rw [List.cons_append, rowCount_break hc, List.length_cons]
      have := rowCount_right g s
      omega

/-- Things with different names, each backed by something of that name, are no more than these weigh. -/
theorem sum_backed {α β : Type} {N : Type} (na : α → N) (nb : β → N) (wa : α → Nat) (wb : β → Nat) (as : List α) (bs : List β)
    (hn : (as.map na).Nodup) (h : ∀ a ∈ as, wa a = 0 ∨ ∃ b ∈ bs, nb b = na a ∧ wa a ≤ wb b) :
    (as.map wa).sum ≤ (bs.map wb).sum := by
  induction as generalizing bs with
  | nil => simp
  | cons a as ih =>
    rw [List.map_cons, List.nodup_cons] at hn
    rw [List.map_cons, List.sum_cons]
    rcases h a (.head _) with h0 | ⟨b, hb, hab, hw⟩
    · rw [h0, Nat.zero_add]
      exact ih bs hn.2 fun x hx => h x (.tail _ hx)
    · obtain ⟨p, q, rfl⟩ := List.append_of_mem hb
      have := ih (p ++ q) hn.2 fun x hx => by
        rcases h x (.tail _ hx) with h | ⟨b', hb', hx', hw'⟩
        · exact .inl h
        · refine .inr ⟨b', ?_, hx', hw'⟩
          rcases List.mem_append.1 hb' with h | h
          · exact List.mem_append_left _ h
          · rcases List.mem_cons.1 h with rfl | h
            · exfalso
              apply hn.1
              rw [← hab, hx']
              exact List.mem_map_of_mem hx
            · exact List.mem_append_right _ h
      simp only [List.map_append, List.sum_append, List.map_cons, List.sum_cons] at this ⊢
      omega

theorem filled_sum (view : FView D) : filled view = (view.map fun p => if p.2.isSome then 1 else 0).sum := by
  unfold filled
  induction view with
  | nil => rfl
  | cons p view ih =>
    rw [List.map_cons, List.sum_cons, ← ih, List.filter_cons]
    by_cases h : p.2.isSome = true
    · rw [if_pos h, if_pos h, List.length_cons]; omega
    · rw [if_neg h, if_neg h]; omega

theorem filled_le {v : Nat} {es : List (KVLine × Str)} {view : FView D} (hn : (view.map fun p => p.1.name).Nodup) (h : FReads v es view) :
    filled view ≤ es.length := by
  have := sum_backed (fun p : FField × Option (FVal D) => p.1.name) (fun e : KVLine × Str => e.1.key)
    (fun p => if p.2.isSome then 1 else 0) (fun _ => 1) view es hn fun p hp => by
      rcases h.2.2 p hp with ⟨e, he, hk, -⟩ | ⟨-, h⟩
      · exact .inr ⟨e, he, hk, by split <;> omega⟩
      · left; rw [h]; rfl
  rw [filled_sum]
  rwa [List.map_const', List.sum_replicate_nat, Nat.mul_one] at this

/-! ### Files -/

theorem sections_rows {t rest : Str} {xs : List Sect} (h : Sections t xs rest) : (xs.map fun x => rowCount x.body).sum ≤ rowCount t := by
  induction h with
  | nil => simp
  | @cons x s xs r hw hn hw2 hb he h ih =>
    rw [List.map_cons, List.sum_cons]
    have h1 : rowCount (x.body ++ s) ≤ rowCount (x.ws ++ '[' :: (x.name ++ ']' :: (x.ws2 ++ (x.body ++ s)))) := by
      have := rowCount_right (x.ws ++ '[' :: (x.name ++ ']' :: x.ws2)) (x.body ++ s)
      simpa using this
    refine Nat.le_trans ?_ h1
    rcases he.1 with rfl | ⟨r', rfl⟩
    · rw [rowCount_nil] at ih
      rw [List.append_nil]; omega
    · rw [rowCount_break (by decide)]
      have h2 : rowCount ('\n' :: '[' :: r') = rowCount ('[' :: r') := by
        have := rowCount_break (c := '\n') (by decide) [] ('[' :: r')
        rw [rowCount_nil, Nat.zero_add] at this
        exact this
      omega

theorem rowCount_joined {ls : List Str} : (contentLines ls).length ≤ rowCount (join ['\n'] ls) := by
  induction ls with
  | nil => simp [contentLines]
  | cons l ls ih =>
    rw [contentLines_cons_len]
    have h1 : (if Blank l then 0 else 1) ≤ rowCount l := by
      by_cases h : Blank l
      · rw [if_pos h]; omega
      · rw [if_neg h]; exact rowCount_pos h
    cases ls with
    | nil => simpa [join, contentLines] using h1
    | cons m ls =>
      have : join ['\n'] (l :: m :: ls) = l ++ '\n' :: join ['\n'] (m :: ls) := by simp [join]
      rw [this, rowCount_break (by decide)]
      omega

/-- The text that the lines of a text make up has no more rows than it. -/
theorem rowCount_lines_drop (s : Str) (pre ls : List Str) (h : lines s = pre ++ ls) : rowCount (join ['\n'] ls) ≤ rowCount s := by
  obtain ⟨n, hn⟩ : ∃ n, s.length = n := ⟨_, rfl⟩
  induction n using Nat.strongRecOn generalizing s pre ls with
  | _ n ih =>
    obtain ⟨u, rest, rfl, hu, hr⟩ := firstLine_split s
    rcases hr with rfl | ⟨r, rfl⟩
    · rw [List.append_nil] at h ⊢
      by_cases hne : u = []
      · subst hne
        rw [lines_nil] at h
        obtain ⟨rfl, rfl⟩ := List.append_eq_nil_iff.1 h.symm
        simp [join]
      · rw [lines_single hu hne] at h
        cases pre with
        | nil => rw [List.nil_append] at h; subst h; simp [join]
        | cons p pre =>
          rw [List.cons_append] at h
          injection h with _ h
          obtain ⟨-, rfl⟩ := List.append_eq_nil_iff.1 h.symm
          simp [join, rowCount_nil]
    · rw [lines_cons hu] at h
      rw [rowCount_break (by decide)]
      have hlt : r.length < n := by rw [← hn]; simp; omega
      cases pre with
      | cons p pre =>
        rw [List.cons_append] at h
        injection h with _ h
        have := ih _ hlt r pre ls h rfl
        omega
      | nil =>
        rw [List.nil_append] at h
        subst h
        have h1 := ih _ hlt r [] (lines r) rfl rfl
        have h2 : rowCount (stripCR u) ≤ rowCount u := by
          obtain ⟨b, hb⟩ := stripCR_prefix u
          conv => rhs; rw [hb]
          exact rowCount_left _ _
        cases hl : lines r with
        | nil => simp only [join]; omega
        | cons m ls =>
          have : join ['\n'] (stripCR u :: m :: ls) = stripCR u ++ '\n' :: join ['\n'] (m :: ls) := by simp [join]
          rw [this, rowCount_break (by decide), ← hl]
          omega

theorem layout_rows {s rest : Str} {pre : List Str} {xs : List Sect} (h : Layout s pre xs rest) :
    (xs.map fun x => rowCount x.body).sum ≤ rowCount s := by
  obtain ⟨ls, h1, -, -, h4⟩ := h
  exact Nat.le_trans (sections_rows h4) (rowCount_lines_drop s pre ls h1)

end
end Osu
