/-
Parsers run on the comma (or colon) separated pieces of a text.
-/
import Verif.Spec.HitObjects
import Verif.Proof.TimingPoints

namespace Osu
open Parser

/-- Free of the character `c`. -/
abbrev NoC (c : Char) (s : Str) : Prop := AllC (fun d => !(d == c)) s

theorem preC_cons (c : Char) (q : Str) (qs : List Str) : preC c (q :: qs) = c :: (q ++ preC c qs) := by simp [preC]

theorem preC_nil (c : Char) : preC c [] = [] := rfl

theorem preC_cons_join (c : Char) (q : Str) (qs : List Str) : preC c (q :: qs) = c :: join [c] (q :: qs) := by
  rw [join_eq_preC, preC_cons]

theorem splitOnC_iff {c : Char} {s p : Str} {qs : List Str} :
    splitOnC c s = p :: qs ↔ s = p ++ preC c qs ∧ NoC c p ∧ ∀ q ∈ qs, NoC c q := by
  constructor
  · intro h
    have hj := join_splitOnC c s
    have hc := splitOnC_chars c s
    rw [h] at hj hc
    exact ⟨by rw [← hj, join_eq_preC], hc p (by simp), fun q hq => hc q (by simp [hq])⟩
  · rintro ⟨rfl, h1, h2⟩
    rw [← join_eq_preC]
    exact splitOnC_join (by simp) fun q hq => by
      rcases List.mem_cons.1 hq with rfl | hq
      · exact h1
      · exact h2 q hq

theorem atComma_preC (qs : List Str) : AtComma (preC ',' qs) := by
  cases qs with
  | nil => exact .nil
  | cons q qs => rw [preC_cons]; exact .cons

theorem headNot_pre {f : Char → Bool} {c : Char} (hc : f c = false) (qs : List Str) : HeadNot f (preC c qs) := by
  cases qs with
  | nil => exact .nil
  | cons q qs => rw [preC_cons]; exact .cons hc

theorem takeWhile_pieces {γ : Type} {c : Char} {p : Str} {qs : List Str} (hp : NoC c p) :
    (Parser.takeWhile (fun d => !(d == c)) : Parser γ Str) (p ++ preC c qs) = .ok (preC c qs) p :=
  takeWhile_ok hp (headNot_pre (by simp) qs)

theorem commaField_pieces {γ : Type} {p : Str} {qs : List Str} (hp : NoC ',' p) :
    (commaField : Parser γ Str) (p ++ preC ',' qs) = .ok (preC ',' qs) p :=
  commaField_eq_ok.2 ⟨rfl, hp, atComma_preC qs⟩

theorem commaFieldType_pieces {γ ε α : Type} {f : Str → Res ε α} {p r : Str} {qs : List Str} {a : α} (hp : NoC ',' p) :
    (commaFieldType f : Parser γ α) (p ++ preC ',' qs) = .ok r a ↔ f p = .ok a ∧ r = preC ',' qs := by
  unfold commaFieldType
  rw [mapRes_eq_ok]
  constructor
  · rintro ⟨t, h, hf⟩; rw [commaField_pieces hp] at h; cases h; exact ⟨hf, rfl⟩
  · rintro ⟨hf, rfl⟩; exact ⟨p, commaField_pieces hp, hf⟩

theorem comma_pieces {γ : Type} {c1 : γ} {α : Type} {p : Parser γ α} {qs : List Str} {r : Str} {a : α} :
    preceded (context c1 comma) p (preC ',' qs) = .ok r a ↔ ∃ q qs', qs = q :: qs' ∧ p (q ++ preC ',' qs') = .ok r a := by
  simp only [preceded_eq_ok, context_eq_ok, comma_eq_ok]
  constructor
  · rintro ⟨r1, _, ⟨h, _⟩, h'⟩
    cases qs with
    | nil => cases h
    | cons q qs => rw [preC_cons] at h; cases h; exact ⟨q, qs, rfl, h'⟩
  · rintro ⟨q, qs', rfl, h⟩
    exact ⟨_, _, ⟨preC_cons _ _ _, rfl⟩, h⟩

theorem commaThen_pieces {γ ε α : Type} {c1 c2 : γ} {f : Str → Res ε α} {qs : List Str} {r : Str} {a : α}
    (hqs : ∀ q ∈ qs, NoC ',' q) :
    preceded (context c1 comma) (context c2 (commaFieldType f)) (preC ',' qs) = .ok r a ↔
      ∃ q qs', qs = q :: qs' ∧ f q = .ok a ∧ r = preC ',' qs' := by
  rw [comma_pieces]
  constructor
  · rintro ⟨q, qs', rfl, h⟩
    rw [context_eq_ok, commaFieldType_pieces (hqs q (by simp))] at h
    exact ⟨q, qs', rfl, h⟩
  · rintro ⟨q, qs', rfl, h⟩
    refine ⟨q, qs', rfl, ?_⟩
    rw [context_eq_ok, commaFieldType_pieces (hqs q (by simp))]
    exact h

/-! ### Blanks -/

theorem blanks_iff {s : Str} : blanks s = true ↔ AllC isSpace s := by
  unfold blanks AllC isSpace; rw [List.all_eq_true]

theorem lacks_iff {c : Char} {s : Str} : lacks c s = true ↔ NoC c s := by
  unfold lacks; rw [List.all_eq_true]; rfl

theorem space_preC {c : Char} (hc : isSpace c = false) {qs : List Str} (h : AllC isSpace (preC c qs)) : qs = [] := by
  cases qs with
  | nil => rfl
  | cons q qs =>
    rw [preC_cons] at h
    have := h.of_cons.1
    rw [hc] at this; cases this

theorem nothing_preC {γ : Type} {c : Char} (hc : isSpace c = false) {qs : List Str} {r a : Str} :
    (nothing : Parser γ Str) (preC c qs) = .ok r a ↔ qs = [] ∧ r = [] ∧ a = [] := by
  rw [nothing_eq_ok]
  constructor
  · rintro ⟨h, h'⟩; exact ⟨space_preC hc h, h'⟩
  · rintro ⟨rfl, h'⟩; exact ⟨.nil, h'⟩

theorem dropBlankLast_cons {q : Str} {qs : List Str} (h : dropBlankLast (q :: qs) ≠ []) :
    dropBlankLast (q :: qs) = q :: dropBlankLast qs := by
  cases qs with
  | nil =>
    simp only [dropBlankLast] at h ⊢
    split
    · rename_i hb; rw [if_pos hb] at h; exact absurd rfl h
    · rfl
  | cons q' qs => rfl

theorem dropBlankLast_nil {qs : List Str} : dropBlankLast qs = [] ↔ qs = [] ∨ ∃ q, qs = [q] ∧ blanks q = true := by
  cases qs with
  | nil => simp [dropBlankLast]
  | cons q qs =>
    cases qs with
    | nil => simp [dropBlankLast]
    | cons q' qs => simp [dropBlankLast]

/-! ### Bar separated lists -/

/-- Characters of an item. -/
abbrev pipeC (c : Char) : Bool := !(c == '|' || c == ',' || c == '\r' || c == '\n')

theorem pipeVec_eq {γ ε α : Type} (f : Str → Res ε α) :
    (pipeVec f : Parser γ (List α)) = sepList0 (tag ['|']) (mapRes (Parser.takeWhile pipeC) f) := rfl

theorem pipeC_noBar {s : Str} (h : AllC pipeC s) : NoC '|' s :=
  h.mono fun c hc => by simp [pipeC] at hc; simpa using hc.1.1.1

theorem headNot_comma {T : Str} (h : AtComma T) : HeadNot pipeC T ∧ HeadNot (· == '|') T := by
  rcases h with rfl | ⟨r, rfl⟩
  · exact ⟨.nil, .nil⟩
  · exact ⟨.cons (by decide), .cons (by decide)⟩

theorem PipeReads.items {p : Str} (hp : NoC ',' p)
    (h1 : lacks '\r' p = true) (h2 : lacks '\n' p = true) : ∀ q ∈ splitOnC '|' p, AllC pipeC q := by
  intro q hq c hc
  have hb := splitOnC_chars '|' p q hq c hc
  have hm : c ∈ p := by
    cases hs : splitOnC '|' p with
    | nil => exact absurd hs (splitOnC_ne_nil _ _)
    | cons x xs =>
      obtain ⟨e, _, _⟩ := splitOnC_iff.1 hs
      rw [hs] at hq
      rw [e]
      rcases List.mem_cons.1 hq with rfl | hq
      · simp [hc]
      · have : ∀ xs : List Str, q ∈ xs → c ∈ preC '|' xs := by
          intro xs
          induction xs with
          | nil => intro h; cases h
          | cons y ys ih =>
            intro h
            rw [preC_cons]
            rcases List.mem_cons.1 h with rfl | h
            · simp [hc]
            · have := ih h; simp [this]
        have := this xs hq
        simp [this]
  have h3 := hp c hm
  have h4 := lacks_iff.1 h1 c hm
  have h5 := lacks_iff.1 h2 c hm
  simp at hb h3 h4 h5
  simp [pipeC, hb, h3, h4, h5]

/-- Accepted lists are read completely. -/
theorem pipeVec_ok {γ ε α : Type} {f : Str → Res ε α} (hf : ∃ e, f [] = .err e) {p T : Str} {l : List α} (hp : NoC ',' p)
    (hT : AtComma T) (h : PipeReads f p l) : (pipeVec f : Parser γ (List α)) (p ++ T) = .ok T l := by
  obtain ⟨g1, g2⟩ := headNot_comma hT
  rw [pipeVec_eq]
  rcases h with ⟨rfl, rfl⟩ | ⟨h1, h2, h3⟩
  · obtain ⟨e, he⟩ := hf
    rw [sepList0_eq (mapRes_shrinks (takeWhile_shrinks _))]
    have : (mapRes (Parser.takeWhile pipeC) f : Parser γ α) ([] ++ T) = .error [([] ++ T, .nom .mapRes)] :=
      Parser.mapRes_err (takeWhile_ok .nil g1) he
    rw [List.nil_append] at this ⊢
    simp only [this]
  · have := sepList0_join (γ := γ) (c := '|') (f := pipeC) (by decide) (g := f) (qs := splitOnC '|' p) (as := l)
      (splitOnC_ne_nil _ _) (PipeReads.items hp h1 h2) h3 g1 g2
    rwa [join_splitOnC] at this

/-- What else can happen: the list stops early. -/
theorem pipeVec_cases {γ ε α : Type} {f : Str → Res ε α} (hf : ∃ e, f [] = .err e) (hn : ∀ q, f q ≠ .panic) {p T : Str}
    (hp : NoC ',' p) (hT : AtComma T) :
    ∃ r l, (pipeVec f : Parser γ (List α)) (p ++ T) = .ok (r ++ T) l ∧ NoC ',' r ∧
      ((r = [] ∧ PipeReads f p l) ∨ (r ≠ [] ∧ ((l = [] ∧ r = p) ∨ ∃ c r', r = c :: r' ∧ pipeC c = false))) := by
  obtain ⟨g1, g2⟩ := headNot_comma hT
  by_cases hnil : p = []
  · subst hnil
    exact ⟨[], [], pipeVec_ok hf hp hT (.inl ⟨rfl, rfl⟩), .nil, .inl ⟨rfl, .inl ⟨rfl, rfl⟩⟩⟩
  -- split off what follows a line break
  have hsplit : ∃ a u, p = a ++ u ∧ AllC (fun c => !(c == '\r' || c == '\n')) a ∧ HeadNot (fun c => !(c == '\r' || c == '\n')) u :=
    ⟨_, _, (List.takeWhile_append_dropWhile).symm, takeWhile_allC _ _, dropWhile_headNot _ _⟩
  obtain ⟨a, u, hau, ha, hu⟩ := hsplit
  have hac : NoC ',' a := fun c hc => hp c (by rw [hau]; simp [hc])
  have huc : NoC ',' u := fun c hc => hp c (by rw [hau]; simp [hc])
  have hq : ∀ q ∈ splitOnC '|' a, AllC pipeC q := by
    refine PipeReads.items hac ?_ ?_
    · rw [lacks_iff]; exact ha.mono fun c hc => by simp at hc; simpa using hc.1
    · rw [lacks_iff]; exact ha.mono fun c hc => by simp at hc; simpa using hc.2
  have hstop : u ≠ [] → ∃ c r', u = c :: r' ∧ pipeC c = false := by
    intro h
    cases u with
    | nil => exact absurd rfl h
    | cons c r =>
      have := hu.of_cons
      refine ⟨c, r, rfl, ?_⟩
      simp at this
      by_cases hcr : c = '\r'
      · subst hcr; decide
      · have := this hcr; subst this; decide
  have hU : HeadNot pipeC (u ++ T) ∧ HeadNot (· == '|') (u ++ T) := by
    cases hu' : u with
    | nil => exact ⟨g1, g2⟩
    | cons c r =>
      obtain ⟨c', r', h1, h2⟩ := hstop (by rw [hu']; simp)
      rw [hu'] at h1; cases h1
      refine ⟨.cons h2, .cons ?_⟩
      have := hu
      rw [hu'] at this
      have := this.of_cons
      simp at this ⊢
      rintro rfl
      exact absurd this (by decide)
  rcases accepted_prefix f hn (splitOnC '|' a) with ⟨as, has⟩ | ⟨ps, b, bs, as, e, h1, h2, h3⟩
  · have hrun := sepList0_join (γ := γ) (c := '|') (f := pipeC) (by decide) (g := f) (splitOnC_ne_nil _ _) hq has hU.1 hU.2
    rw [join_splitOnC, ← List.append_assoc, ← hau] at hrun
    refine ⟨u, as, hrun, huc, ?_⟩
    by_cases hu0 : u = []
    · subst hu0
      simp at hau
      subst hau
      refine .inl ⟨rfl, .inr ⟨?_, ?_, has⟩⟩
      · rw [lacks_iff]; exact ha.mono fun c hc => by simp at hc; simpa using hc.1
      · rw [lacks_iff]; exact ha.mono fun c hc => by simp at hc; simpa using hc.2
    · exact .inr ⟨hu0, .inr (hstop hu0)⟩
  · have hj := join_splitOnC '|' a
    rw [h1] at hj hq
    cases ps with
    | nil =>
      -- the first item is rejected
      have hb : AllC pipeC b := hq b (by simp)
      have hjoin : p ++ T = b ++ (preC '|' bs ++ (u ++ T)) := by
        rw [hau, ← hj, List.nil_append, join_eq_preC]; simp
      have hhd : HeadNot pipeC (preC '|' bs ++ (u ++ T)) := headNot_preC (by decide) hU.1
      refine ⟨p, [], ?_, hp, .inr ⟨hnil, .inl ⟨rfl, rfl⟩⟩⟩
      rw [pipeVec_eq]
      rw [sepList0_eq (mapRes_shrinks (takeWhile_shrinks _))]
      have : (mapRes (Parser.takeWhile pipeC) f : Parser γ α) (p ++ T) = .error [(p ++ T, .nom .mapRes)] := by
        rw [hjoin]; exact Parser.mapRes_err (takeWhile_ok hb hhd) h3
      simp only [this]
    | cons q0 ps =>
      cases as with
      | nil => simp at h2
      | cons a0 as =>
        simp only [List.map_cons, List.cons.injEq] at h2
        have hb : AllC pipeC b := hq b (by simp)
        have hq0 : AllC pipeC q0 := hq q0 (by simp)
        have hps : ∀ q ∈ ps, AllC pipeC q := fun q hq' => hq q (by simp [hq'])
        have hhd : HeadNot pipeC (preC '|' bs ++ (u ++ T)) := headNot_preC (by decide) hU.1
        have hpre : preC '|' (ps ++ b :: bs) = preC '|' ps ++ '|' :: (b ++ preC '|' bs) := by simp [preC]
        have hjoin : p ++ T = q0 ++ (preC '|' ps ++ '|' :: (b ++ (preC '|' bs ++ (u ++ T)))) := by
          rw [hau, ← hj, List.cons_append, join_eq_preC, hpre]; simp
        have hrest : AllC (fun d => !(d == ',')) ('|' :: (b ++ (preC '|' bs ++ u))) := by
          intro c hc
          apply hp c
          rw [hau, ← hj, List.cons_append, join_eq_preC, hpre]
          simp only [List.mem_append, List.mem_cons] at hc ⊢
          rcases hc with h | h | h | h
          · exact .inl (.inr (.inr (.inl h)))
          · exact .inl (.inr (.inr (.inr (.inl h))))
          · exact .inl (.inr (.inr (.inr (.inr h))))
          · exact .inr h
        refine ⟨'|' :: (b ++ (preC '|' bs ++ u)), a0 :: as, ?_, hrest, .inr ⟨by simp, .inr ⟨_, _, rfl, by decide⟩⟩⟩
        rw [pipeVec_eq]
        rw [sepList0_eq (mapRes_shrinks (takeWhile_shrinks _)), hjoin]
        have hfirst : (mapRes (Parser.takeWhile pipeC) f : Parser γ α)
            (q0 ++ (preC '|' ps ++ '|' :: (b ++ (preC '|' bs ++ (u ++ T))))) =
            .ok (preC '|' ps ++ '|' :: (b ++ (preC '|' bs ++ (u ++ T)))) a0 :=
          Parser.mapRes_ok (takeWhile_ok hq0 (headNot_preC (by decide) (.cons (by decide)))) h2.1
        simp only [hfirst]
        rw [sepLoop_bad (γ := γ) (c := '|') (f := pipeC) (by decide) hps h2.2 hb hhd h3]
        simp

end Osu
