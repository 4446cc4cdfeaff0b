/-
`separated_list0` over a one character separator, and splitting/joining of text.
-/
import Verif.Proof.Nom
import Verif.Spec.Split

namespace Osu

/-- Each piece preceded by the separator. -/
def preC (c : Char) (qs : List Str) : Str := qs.flatMap (fun q => c :: q)

theorem join_eq_preC (c : Char) (q : Str) (qs : List Str) : join [c] (q :: qs) = q ++ preC c qs := by
  induction qs generalizing q with
  | nil => simp [join, preC]
  | cons q' qs ih => rw [join_cons_cons, ih]; simp [preC]

theorem splitOnC_ne_nil (c : Char) (s : Str) : splitOnC c s ≠ [] := by
  cases s with
  | nil => simp [splitOnC]
  | cons d s =>
    rw [splitOnC]
    split
    · simp
    · split <;> simp

theorem join_splitOnC (c : Char) (s : Str) : join [c] (splitOnC c s) = s := by
  induction s with
  | nil => rfl
  | cons d s ih =>
    rw [splitOnC]
    cases hs : splitOnC c s with
    | nil => exact absurd hs (splitOnC_ne_nil c s)
    | cons l ls =>
      rw [hs] at ih
      split
      · rename_i h
        subst h
        rw [join_cons_cons, ih]; simp
      · rw [join_eq_preC] at ih ⊢
        simp [ih]

theorem splitOnC_chars (c : Char) (s : Str) : ∀ q ∈ splitOnC c s, AllC (fun d => !(d == c)) q := by
  induction s with
  | nil => intro q hq; simp [splitOnC] at hq; subst hq; exact .nil
  | cons d s ih =>
    rw [splitOnC]
    cases hs : splitOnC c s with
    | nil => exact absurd hs (splitOnC_ne_nil c s)
    | cons l ls =>
      rw [hs] at ih
      split
      · intro q hq
        rcases List.mem_cons.1 hq with rfl | hq
        · exact .nil
        · exact ih q hq
      · rename_i h
        intro q hq
        rcases List.mem_cons.1 hq with rfl | hq
        · exact .cons (by simpa using h) (ih l (by simp))
        · exact ih q (by simp [hq])

theorem splitOnC_append {c : Char} {q : Str} (h : AllC (fun d => !(d == c)) q) (s : Str) :
    splitOnC c (q ++ c :: s) = q :: splitOnC c s := by
  induction q with
  | nil => simp [splitOnC]
  | cons d q ih =>
    obtain ⟨h1, h2⟩ := h.of_cons
    rw [List.cons_append, splitOnC, if_neg (by simpa using h1), ih h2]

theorem splitOnC_single {c : Char} {q : Str} (h : AllC (fun d => !(d == c)) q) : splitOnC c q = [q] := by
  induction q with
  | nil => rfl
  | cons d q ih =>
    obtain ⟨h1, h2⟩ := h.of_cons
    rw [splitOnC, if_neg (by simpa using h1), ih h2]

/-- Splitting undoes joining. -/
theorem splitOnC_join {c : Char} {qs : List Str} (hne : qs ≠ [])
    (h : ∀ q ∈ qs, AllC (fun d => !(d == c)) q) : splitOnC c (join [c] qs) = qs := by
  induction qs with
  | nil => exact absurd rfl hne
  | cons q qs ih =>
    cases qs with
    | nil => exact splitOnC_single (h q (by simp))
    | cons q' qs =>
      rw [join_cons_cons, List.append_assoc, List.singleton_append, splitOnC_append (h q (by simp)),
        ih (by simp) (fun x hx => h x (by simp [hx]))]

namespace Parser
variable {γ α ε : Type}

section
variable {c : Char} {f : Char → Bool} (hc : f c = false) {g : Str → Res ε α}

include hc in
theorem headNot_preC {qs : List Str} {T : Str} (hT : HeadNot f T) : HeadNot f (preC c qs ++ T) := by
  cases qs with
  | nil => simpa [preC] using hT
  | cons q qs => exact .cons hc

include hc in
/-- The loop of `separated_list0` over accepted pieces, up to a text without a leading separator. -/
theorem sepLoop_pre {qs : List Str} {as : List α} (hq : ∀ q ∈ qs, AllC f q)
    (hg : qs.map g = as.map .ok) {T : Str} (hT : HeadNot f T) (hT' : HeadNot (· == c) T) :
    sepLoop (tag [c]) (mapRes (takeWhile f) g) (preC c qs ++ T) = (.ok T as : PRes γ (List α)) := by
  induction qs generalizing as with
  | nil =>
    cases as with
    | cons _ _ => simp at hg
    | nil =>
      rw [sepLoop_eq (mapRes_shrinks (takeWhile_shrinks f))]
      have : ∃ e, (tag [c] : Parser γ Str) T = .error e := by
        cases T with
        | nil => exact ⟨_, rfl⟩
        | cons d T =>
          have := hT'.of_cons
          simp at this
          have h' : ¬ c = d := fun h => this h.symm
          simp [tag, List.isPrefixOf, h']
      obtain ⟨e, he⟩ := this
      simp [preC, he]
  | cons q qs ih =>
    cases as with
    | nil => simp at hg
    | cons a as =>
      simp only [List.map_cons, List.cons.injEq] at hg
      rw [sepLoop_eq (mapRes_shrinks (takeWhile_shrinks f))]
      have e1 : preC c (q :: qs) ++ T = c :: (q ++ (preC c qs ++ T)) := by simp [preC]
      rw [e1, tag1_ok]
      have h1 := mapRes_ok (γ := γ) (f := g)
        (takeWhile_ok (hq q (by simp)) (headNot_preC hc (qs := qs) hT)) hg.1
      simp only [List.length_cons, Nat.lt_add_one, if_true, h1]
      rw [ih (fun x hx => hq x (by simp [hx])) hg.2]

include hc in
/-- The loop stops before the first rejected piece. -/
theorem sepLoop_bad {qs : List Str} {as : List α} (hq : ∀ q ∈ qs, AllC f q)
    (hg : qs.map g = as.map .ok) {b U : Str} (hb : AllC f b) (hU : HeadNot f U) {e : ε} (hgb : g b = .err e) :
    sepLoop (tag [c]) (mapRes (takeWhile f) g) (preC c qs ++ c :: (b ++ U)) =
      (.ok (c :: (b ++ U)) as : PRes γ (List α)) := by
  induction qs generalizing as with
  | nil =>
    cases as with
    | cons _ _ => simp at hg
    | nil =>
      rw [sepLoop_eq (mapRes_shrinks (takeWhile_shrinks f))]
      have h1 := mapRes_err (γ := γ) (f := g) (takeWhile_ok hb hU) hgb
      simp only [preC, List.flatMap_nil, List.nil_append]
      rw [tag1_ok]
      simp [h1]
  | cons q qs ih =>
    cases as with
    | nil => simp at hg
    | cons a as =>
      simp only [List.map_cons, List.cons.injEq] at hg
      rw [sepLoop_eq (mapRes_shrinks (takeWhile_shrinks f))]
      have e1 : preC c (q :: qs) ++ c :: (b ++ U) = c :: (q ++ (preC c qs ++ c :: (b ++ U))) := by simp [preC]
      rw [e1, tag1_ok]
      have h1 := mapRes_ok (γ := γ) (f := g)
        (takeWhile_ok (hq q (by simp)) (headNot_preC hc (qs := qs) (T := c :: (b ++ U)) (.cons hc))) hg.1
      simp only [List.length_cons, Nat.lt_add_one, if_true, h1]
      rw [ih (fun x hx => hq x (by simp [hx])) hg.2]

include hc in
/-- `separated_list0` on joined accepted pieces. -/
theorem sepList0_join {qs : List Str} {as : List α} (hne : qs ≠ []) (hq : ∀ q ∈ qs, AllC f q)
    (hg : qs.map g = as.map .ok) {T : Str} (hT : HeadNot f T) (hT' : HeadNot (· == c) T) :
    sepList0 (tag [c]) (mapRes (takeWhile f) g) (join [c] qs ++ T) = (.ok T as : PRes γ (List α)) := by
  cases qs with
  | nil => exact absurd rfl hne
  | cons q qs =>
    cases as with
    | nil => simp at hg
    | cons a as =>
      simp only [List.map_cons, List.cons.injEq] at hg
      rw [sepList0_eq (mapRes_shrinks (takeWhile_shrinks f)), join_eq_preC, List.append_assoc]
      have h1 := mapRes_ok (γ := γ) (f := g)
        (takeWhile_ok (hq q (by simp)) (headNot_preC hc (qs := qs) hT)) hg.1
      simp only [h1]
      rw [sepLoop_pre hc (fun x hx => hq x (by simp [hx])) hg.2 hT hT']

/-- Longest accepted prefix of a list of pieces. -/
theorem accepted_prefix (g : Str → Res ε α) (hg : ∀ q, g q ≠ .panic) (qs : List Str) :
    (∃ as : List α, qs.map g = as.map .ok) ∨
    ∃ (ps : List Str) (b : Str) (bs : List Str) (as : List α) (e : ε), qs = ps ++ b :: bs ∧ ps.map g = as.map .ok ∧ g b = .err e := by
  induction qs with
  | nil => exact .inl ⟨[], rfl⟩
  | cons q qs ih =>
    cases h : g q with
    | panic => exact absurd h (hg q)
    | err e => exact .inr ⟨[], q, qs, [], e, rfl, rfl, h⟩
    | ok a =>
      rcases ih with ⟨as, ih⟩ | ⟨ps, b, bs, as, e, rfl, h1, h2⟩
      · exact .inl ⟨a :: as, by simp [h, ih]⟩
      · exact .inr ⟨q :: ps, b, bs, a :: as, e, rfl, by simp [h, h1], h2⟩

end
end Parser
end Osu
