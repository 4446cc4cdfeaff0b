/-
Line numbers in a file.
-/
import Verif.Proof.FileTop

namespace Osu
open Parser Ev

theorem lines_len (s : Str) : (lines s).length = feeds s + indent s := by
  have h := lines_length s
  unfold feeds indent
  split at h <;> rename_i hc <;> simp only [hc, if_true, if_false] <;> omega

theorem feeds_append (a b : Str) : feeds (a ++ b) = feeds a + feeds b := List.count_append
theorem feeds_cons {c : Char} (h : c ≠ '\n') (s : Str) : feeds (c :: s) = feeds s := List.count_cons_of_ne h
theorem feeds_noLF {s : Str} (h : '\n' ∉ s) : feeds s = 0 := List.count_eq_zero.2 h

theorem counted_eq {x : Sect} (hb : x.body ≠ []) (hn : '\n' ∉ x.name) :
    x.counted + x.gap = feeds x.text + indent x.ws + indent x.ws2 := by
  unfold Sect.counted Sect.gap Sect.text
  rw [feeds_append, feeds_cons (by decide), feeds_append, feeds_cons (by decide), feeds_append, feeds_noLF hn,
    lines_len, lines_len, lines_len]
  by_cases h : x.body.getLast? = some '\n'
  · have : feeds x.body ≥ 1 := List.count_pos_iff.2 (List.mem_of_getLast? h)
    rw [if_pos h]
    have : indent x.body = 0 := if_pos (.inr h)
    omega
  · rw [if_neg h]
    have : indent x.body = 1 := if_neg (fun e => e.elim hb h)
    omega

theorem sections_body_ne {t rest : Str} {pre post : List Sect} {x : Sect} (h : Sections t (pre ++ x :: post) rest) :
    ∀ y ∈ pre, y.body ≠ [] := by
  induction pre generalizing t with
  | nil => intro y hy; cases hy
  | cons z pre ih =>
    intro y hy
    cases h with
    | cons hw hn hw2 hb he h' =>
      rcases List.mem_cons.1 hy with rfl | hy
      · intro e
        rw [e] at hb he
        rcases he.1 with rfl | ⟨r', rfl⟩
        · change Sections [] (pre ++ x :: post) rest at h'
          generalize hg : ([] : Str) = g at h'
          cases pre with
          | nil => cases h'; simp at hg
          | cons z pre => cases h'; simp at hg
        · exact absurd hb.of_cons (by decide)
      · exact ih h' y hy

theorem sections_name {t rest : Str} {xs : List Sect} (h : Sections t xs rest) : ∀ y ∈ xs, '\n' ∉ y.name := by
  induction h with
  | nil _ => intro y hy; cases hy
  | cons hw hn hw2 hb he h' ih =>
    intro y hy
    rcases List.mem_cons.1 hy with rfl | hy
    · exact hn.2
    · exact ih y hy

theorem sections_text {t rest : Str} {xs : List Sect} (h : Sections t xs rest) : t = (xs.map Sect.text).flatten ++ rest := by
  induction h with
  | nil _ => rfl
  | cons hw hn hw2 hb he h' ih =>
    conv => lhs; rw [ih]
    simp [Sect.text, List.append_assoc]

theorem counted_sum {pre : List Sect} (hb : ∀ y ∈ pre, y.body ≠ []) (hn : ∀ y ∈ pre, '\n' ∉ y.name) :
    (pre.map Sect.counted).sum + (pre.map Sect.gap).sum =
      feeds (pre.map Sect.text).flatten + (pre.map fun y => indent y.ws + indent y.ws2).sum := by
  induction pre with
  | nil => rfl
  | cons x pre ih =>
    have h1 := counted_eq (hb x (by simp)) (hn x (by simp))
    have h2 := ih (fun y hy => hb y (by simp [hy])) (fun y hy => hn y (by simp [hy]))
    simp only [List.map_cons, List.sum_cons, List.flatten_cons, feeds_append]
    omega

theorem nameLine_eq {t rest : Str} {pre post : List Sect} {x : Sect} (h : Sections t (pre ++ x :: post) rest) (start : Nat) :
    nameLine start pre x + (pre.map Sect.gap).sum =
      start + feeds (upToName pre x) + (pre.map fun y => indent y.ws + indent y.ws2).sum + indent x.ws := by
  have h1 := counted_sum (sections_body_ne h) (fun y hy => sections_name h y (by simp [hy]))
  unfold nameLine upToName
  rw [feeds_append, lines_len]
  omega

theorem bodyLine_eq {t rest : Str} {pre post : List Sect} {x : Sect} (h : Sections t (pre ++ x :: post) rest) (start : Nat) :
    bodyLine start pre x + (pre.map Sect.gap).sum =
      start + feeds (upToBody pre x) + ((pre ++ [x]).map fun y => indent y.ws + indent y.ws2).sum := by
  have h1 := nameLine_eq h start
  have hn := sections_name h x (by simp)
  unfold bodyLine upToBody upToName at *
  rw [feeds_append] at h1 ⊢
  rw [feeds_append, feeds_cons (by decide), feeds_append, feeds_cons (by decide), feeds_noLF hn, lines_len]
  simp only [List.map_append, List.map_cons, List.map_nil, List.sum_append, List.sum_cons, List.sum_nil]
  omega

/-! ### Lines of parts of a text -/

theorem splitNL_app {a b : Str} : ∃ A x y B, splitNL a = A ++ [x] ∧ splitNL b = y :: B ∧ splitNL (a ++ b) = A ++ (x ++ y) :: B ∧
    A.length = feeds a ∧ (a = [] ∨ a.getLast? = some '\n' → x = []) := by
  induction a with
  | nil =>
    cases h : splitNL b with
    | nil => exact absurd h (splitNL_ne_nil b)
    | cons y B => exact ⟨[], [], y, B, rfl, rfl, by simpa using h, rfl, fun _ => rfl⟩
  | cons c a ih =>
    obtain ⟨A, x, y, B, h1, h2, h3, h4, h5⟩ := ih
    rw [List.cons_append, splitNL, splitNL]
    by_cases hc : c = '\n'
    · subst hc
      rw [if_pos rfl, if_pos rfl]
      refine ⟨[] :: A, x, y, B, by rw [h1]; rfl, h2, by rw [h3]; rfl, by simp [feeds, h4], ?_⟩
      intro h
      apply h5
      cases a with
      | nil => exact .inl rfl
      | cons d a => rw [List.getLast?_cons_cons] at h; exact .inr (h.resolve_left (by simp))
    · rw [if_neg hc, if_neg hc, h1, h3]
      cases A with
      | nil =>
        refine ⟨[], c :: x, y, B, rfl, h2, rfl, ?_, ?_⟩
        · rw [feeds_cons hc]; exact h4
        · intro h
          exfalso
          have h := h.resolve_left (by simp)
          cases a with
          | nil => simp [hc] at h
          | cons d a =>
            rw [List.getLast?_cons_cons] at h
            have : feeds (d :: a) ≥ 1 := List.count_pos_iff.2 (List.mem_of_getLast? h)
            simp only [List.length_nil] at h4
            omega
      | cons z A =>
        refine ⟨(c :: z) :: A, x, y, B, rfl, h2, rfl, ?_, ?_⟩
        · rw [feeds_cons hc]; exact h4
        · intro h
          apply h5
          have h := h.resolve_left (by simp)
          cases a with
          | nil => exact .inl rfl
          | cons d a => rw [List.getLast?_cons_cons] at h; exact .inr h

theorem splitNL_app_get {a b : Str} {i : Nat} {l : Str} (h : (splitNL b)[i]? = some l) :
    ∃ p, (splitNL (a ++ b))[feeds a + i]? = some (p ++ l) ∧ (1 ≤ i ∨ a = [] ∨ a.getLast? = some '\n' → p = []) := by
  obtain ⟨A, x, y, B, h1, h2, h3, h4, h5⟩ := splitNL_app (a := a) (b := b)
  rw [h3, ← h4]
  rw [h2] at h
  cases i with
  | zero =>
    simp only [List.getElem?_cons_zero, Option.some.injEq] at h
    subst h
    refine ⟨x, by simp, ?_⟩
    rintro (h | h)
    · omega
    · exact h5 h
  | succ i =>
    refine ⟨[], ?_, fun _ => rfl⟩
    rw [List.getElem?_append_right (by omega)]
    simpa using h

theorem splitNL_pre_get {b r : Str} (hr : r = [] ∨ ∃ r', r = '\n' :: r') {i : Nat} {l : Str} (h : (splitNL b)[i]? = some l) :
    (splitNL (b ++ r))[i]? = some l := by
  obtain ⟨A, x, y, B, h1, h2, h3, h4, h5⟩ := splitNL_app (a := b) (b := r)
  have hy : y = [] := by
    rcases hr with rfl | ⟨r', rfl⟩
    · cases h2; rfl
    · rw [splitNL, if_pos rfl] at h2; cases h2; rfl
  subst hy
  rw [h1] at h
  rw [h3, List.append_nil]
  have hi : i < (A ++ [x]).length := by
    rcases Nat.lt_or_ge i (A ++ [x]).length with h' | h'
    · exact h'
    · rw [List.getElem?_eq_none h'] at h; cases h
  have : A ++ x :: B = (A ++ [x]) ++ B := by simp
  rw [this, List.getElem?_append_left hi]
  exact h

theorem linesOf_get : ∀ {ls : List Str} {i : Nat} {l : Str}, (linesOf ls)[i]? = some l →
    ∃ l', ls[i]? = some l' ∧ (l = l' ∨ l = stripCR l')
  | [], i, l, h => by simp [linesOf] at h
  | [a], i, l, h => by
    rw [linesOf] at h
    split at h
    · simp at h
    · exact ⟨l, h, .inl rfl⟩
  | a :: b :: ls, i, l, h => by
    rw [linesOf] at h
    cases i with
    | zero =>
      simp only [List.getElem?_cons_zero, Option.some.injEq] at h
      exact ⟨a, rfl, .inr h.symm⟩
    | succ i =>
      rw [List.getElem?_cons_succ] at h ⊢
      exact linesOf_get h

theorem linesOf_append (A : List Str) (z : Str) (B : List Str) : linesOf (A ++ z :: B) = A.map stripCR ++ linesOf (z :: B) := by
  induction A with
  | nil => rfl
  | cons a A ih =>
    cases A with
    | nil => rfl
    | cons b A => rw [List.cons_append, List.cons_append, linesOf, ← List.cons_append, ih]; rfl

theorem linesOf_head {p y : Str} {B : List Str} {j : Nat} {l : Str} (h : (linesOf (y :: B))[j]? = some l) :
    ∃ q, (linesOf ((p ++ y) :: B))[j]? = some (q ++ l) ∧ (1 ≤ j ∨ p = [] → q = []) := by
  cases B with
  | nil =>
    rw [linesOf] at h
    split at h
    · simp at h
    · rename_i hy
      rw [linesOf, if_neg (by simp [hy])]
      cases j with
      | zero =>
        simp only [List.getElem?_cons_zero, Option.some.injEq] at h
        subst h
        exact ⟨p, rfl, fun h => h.resolve_left (by omega)⟩
      | succ j => simp at h
  | cons z B =>
    rw [linesOf] at h ⊢
    cases j with
    | zero =>
      simp only [List.getElem?_cons_zero, Option.some.injEq] at h ⊢
      subst h
      by_cases hy : y = []
      · subst hy
        refine ⟨stripCR p, by simp [stripCR], ?_⟩
        rintro (h | rfl)
        · omega
        · rfl
      · refine ⟨p, ?_, fun h => h.resolve_left (by omega)⟩
        have hl : (p ++ y).getLast? = y.getLast? := by
          rw [List.getLast?_append]
          cases hg : y.getLast? with
          | none => exact absurd (List.getLast?_eq_none_iff.1 hg) hy
          | some c => rfl
        unfold stripCR
        rw [hl]
        split
        · rw [List.dropLast_append_of_ne_nil hy]
        · rfl
    | succ j =>
      rw [List.getElem?_cons_succ] at h ⊢
      exact ⟨[], h, fun _ => rfl⟩

theorem lines_app_get {a b : Str} {j : Nat} {l : Str} (h : (lines b)[j]? = some l) :
    ∃ p, (lines (a ++ b))[feeds a + j]? = some (p ++ l) ∧ (1 ≤ j ∨ a = [] ∨ a.getLast? = some '\n' → p = []) := by
  obtain ⟨A, x, y, B, h1, h2, h3, h4, h5⟩ := splitNL_app (a := a) (b := b)
  unfold lines at h ⊢
  rw [h2] at h
  obtain ⟨q, h6, h7⟩ := linesOf_head (p := x) h
  refine ⟨q, ?_, fun h => h7 (h.imp_right h5)⟩
  rw [h3, linesOf_append, ← h4, List.getElem?_append_right (by simp)]
  simpa using h6

/-! ### Lines of sections in the input -/

theorem sections_rest {t rest : Str} {pre post : List Sect} {x : Sect} (h : Sections t (pre ++ x :: post) rest) :
    ∃ r, t = upToBody pre x ++ (x.body ++ r) ∧ (r = [] ∨ ∃ r', r = '\n' :: r') := by
  induction pre generalizing t with
  | nil =>
    rw [List.nil_append] at h
    cases h with
    | cons hw hn hw2 hb he h' =>
      rename_i s0
      refine ⟨s0, by simp [upToBody, List.append_assoc], ?_⟩
      rcases he.1 with rfl | ⟨r', rfl⟩
      · exact .inl rfl
      · exact .inr ⟨_, rfl⟩
  | cons z pre ih =>
    rw [List.cons_append] at h
    cases h with
    | cons hw hn hw2 hb he h' =>
      obtain ⟨r, e, hr⟩ := ih h'
      refine ⟨r, ?_, hr⟩
      conv => lhs; rw [e]
      simp [upToBody, Sect.text, List.append_assoc]

theorem getElem?_mem' {α : Type} {l : List α} {i : Nat} {a : α} (h : l[i]? = some a) : a ∈ l := List.mem_of_getElem? h

theorem upToName_le (pre : List Sect) (x : Sect) : upToBody pre x = upToName pre x ++ ('[' :: (x.name ++ ']' :: x.ws2)) := by
  simp [upToBody, upToName, List.append_assoc]

/-- Lines of the text of the sections are lines of the whole text. -/
theorem layout_lines {s a r : Str} {pre : List Str} {xs : List Sect} {rest : Str} (hs : s = a ++ r) (h : Layout r pre xs rest)
    (hcr : ∀ l ∈ lines r, l.getLast? ≠ some '\r') :
    ∃ t, Sections t xs rest ∧ (∀ l ∈ splitNL t, l.getLast? ≠ some '\r') ∧
      ∀ j l, t ≠ [] → (splitNL t)[j]? = some l → ∃ p, (lines s)[feeds a + pre.length + j]? = some (p ++ l) ∧
        (1 ≤ pre.length + j → p = []) := by
  obtain ⟨ls, h1, h2, h3, h4⟩ := h
  by_cases hls : ls = []
  · subst hls
    refine ⟨[], h4, ?_, fun j l h => absurd rfl h⟩
    intro l hl
    simp only [splitNL, List.mem_singleton] at hl
    subst hl; simp
  · have hsp : splitNL (join ['\n'] ls) = ls := splitNL_join hls fun l hl => lines_noLF r l (by rw [h1]; simp [hl])
    refine ⟨_, h4, ?_, ?_⟩
    · rw [hsp]
      intro l hl
      exact hcr l (by rw [h1]; simp [hl])
    · intro j l _ hj
      rw [hsp] at hj
      have : (lines r)[pre.length + j]? = some l := by
        rw [h1, List.getElem?_append_right (by omega)]
        simpa using hj
      obtain ⟨p, h5, h6⟩ := lines_app_get (a := a) this
      rw [hs, Nat.add_assoc]
      exact ⟨p, h5, fun h => h6 (.inl h)⟩

end Osu
