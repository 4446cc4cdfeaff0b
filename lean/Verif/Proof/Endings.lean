/-
Line endings: texts that differ in LF or CRLF only have the same lines, and the same key/value entries.
-/
import Verif.Spec.Endings
import Verif.Proof.KVGrammar
import Verif.Proof.FileTop

namespace Osu
open Parser

namespace SameText

theorem symm {s t : Str} (h : SameText s t) : SameText t s := by
  induction h with
  | nil => exact .nil
  | char h1 h2 _ ih => exact .char h1 h2 ih
  | feed h1 h2 _ ih => exact .feed h2 h1 ih

theorem refl {s : Str} (h : '\r' ∉ s) : SameText s s := by
  induction s with
  | nil => exact .nil
  | cons c s ih =>
    have hs := ih (fun hm => h (List.mem_cons_of_mem _ hm))
    by_cases hc : c = '\n'
    · subst hc
      exact .feed (e := ['\n']) (e' := ['\n']) (.inl rfl) (.inl rfl) hs
    · exact .char (fun e => h (by simp [e])) hc hs

theorem crlf {s : Str} (h : '\r' ∉ s) : SameText (toCRLF s) s := by
  induction s with
  | nil => exact .nil
  | cons c s ih =>
    have hs := ih (fun hm => h (List.mem_cons_of_mem _ hm))
    unfold toCRLF
    rw [List.flatMap_cons]
    by_cases hc : c = '\n'
    · subst hc
      rw [if_pos rfl]
      exact .feed (e' := ['\n']) (.inr rfl) (.inl rfl) hs
    · rw [if_neg hc]
      exact .char (fun e => h (by simp [e])) hc hs

/-- The lines of both texts. -/
theorem split {s t : Str} (h : SameText s t) : ∃ x xs x' xs' y, splitNL s = x :: xs ∧ splitNL t = x' :: xs' ∧ '\r' ∉ y ∧
    ((xs = [] ∧ xs' = [] ∧ x = y ∧ x' = y) ∨
      (xs ≠ [] ∧ xs' ≠ [] ∧ (x = y ∨ x = y ++ ['\r']) ∧ (x' = y ∨ x' = y ++ ['\r']) ∧ linesOf xs = linesOf xs')) := by
  induction h with
  | nil => exact ⟨[], [], [], [], [], rfl, rfl, by simp, .inl ⟨rfl, rfl, rfl, rfl⟩⟩
  | @char c s t h1 h2 _ ih =>
    obtain ⟨x, xs, x', xs', y, e1, e2, hy, h⟩ := ih
    refine ⟨c :: x, xs, c :: x', xs', c :: y, by simp [splitNL, h2, e1], by simp [splitNL, h2, e2], ?_, ?_⟩
    · simp only [List.mem_cons, not_or]
      exact ⟨fun e => h1 e.symm, hy⟩
    · rcases h with ⟨rfl, rfl, rfl, rfl⟩ | ⟨h3, h4, h5, h6, h7⟩
      · exact .inl ⟨rfl, rfl, rfl, rfl⟩
      · refine .inr ⟨h3, h4, ?_, ?_, h7⟩
        · rcases h5 with rfl | rfl <;> simp
        · rcases h6 with rfl | rfl <;> simp
  | @feed e e' s t h1 h2 _ ih =>
    obtain ⟨x, xs, x', xs', y, e1, e2, hy, h⟩ := ih
    have hl : linesOf (x :: xs) = linesOf (x' :: xs') := by
      have st : ∀ {z : Str}, z = y ∨ z = y ++ ['\r'] → stripCR z = y := by
        rintro z (rfl | rfl)
        · exact stripCR_id (fun e => hy (List.mem_of_getLast? e))
        · simp [stripCR]
      rcases h with ⟨rfl, rfl, rfl, rfl⟩ | ⟨h3, h4, h5, h6, h7⟩
      · rfl
      · cases xs with
        | nil => exact absurd rfl h3
        | cons a xs => cases xs' with
          | nil => exact absurd rfl h4
          | cons b xs' => rw [linesOf, linesOf, h7, st h5, st h6]
    have key : ∀ {e s x xs}, (e = ['\n'] ∨ e = ['\r', '\n']) → splitNL s = x :: xs →
        ∃ z, splitNL (e ++ s) = z :: x :: xs ∧ (z = [] ∨ z = [] ++ ['\r']) := by
      rintro e s x xs (rfl | rfl) hs
      · exact ⟨[], by simp [splitNL, hs], .inl rfl⟩
      · exact ⟨['\r'], by simp [splitNL, hs], .inr rfl⟩
    obtain ⟨z, f1, f2⟩ := key h1 e1
    obtain ⟨z', g1, g2⟩ := key h2 e2
    exact ⟨z, _, z', _, [], f1, g1, by simp, .inr ⟨by simp, by simp, f2, g2, hl⟩⟩

theorem lines {s t : Str} (h : SameText s t) : Osu.lines s = Osu.lines t := by
  have := split (.feed (e := ['\n']) (e' := ['\n']) (.inl rfl) (.inl rfl) h)
  obtain ⟨x, xs, x', xs', y, e1, e2, -, h⟩ := this
  simp only [List.cons_append, List.nil_append, splitNL, if_true, List.cons.injEq] at e1 e2
  obtain ⟨rfl, rfl⟩ := e1
  obtain ⟨rfl, rfl⟩ := e2
  rcases h with ⟨h, -⟩ | ⟨-, -, -, -, h⟩
  · exact absurd h (splitNL_ne_nil s)
  · exact h

theorem app {a b t : Str} (h : SameText (a ++ b) t) (hab : NoEndCR a ∨ ∀ b', b ≠ '\n' :: b') :
    ∃ a' b', t = a' ++ b' ∧ SameText a a' ∧ SameText b b' := by
  induction hn : a.length using Nat.strongRecOn generalizing a t with
  | _ n ih =>
    cases a with
    | nil => exact ⟨[], t, rfl, .nil, h⟩
    | cons c a =>
      subst hn
      have tail : NoEndCR (c :: a) → NoEndCR a := by
        intro hc
        cases a with
        | nil => simp [NoEndCR]
        | cons d a => simpa [NoEndCR] using hc
      generalize hs : (c :: a) ++ b = s at h
      cases h with
      | nil => cases hs
      | @char c' s t h1 h2 h =>
        rw [List.cons_append, List.cons.injEq] at hs
        obtain ⟨rfl, rfl⟩ := hs
        obtain ⟨a', b', rfl, ha, hb⟩ := ih a.length (by simp) h (hab.imp_left tail) rfl
        exact ⟨c :: a', b', rfl, .char h1 h2 ha, hb⟩
      | @feed e e' s t h1 h2 h =>
        rcases h1 with rfl | rfl
        · simp only [List.cons_append, List.nil_append, List.cons.injEq] at hs
          obtain ⟨rfl, rfl⟩ := hs
          obtain ⟨a', b', rfl, ha, hb⟩ := ih a.length (by simp) h (hab.imp_left tail) rfl
          exact ⟨e' ++ a', b', by simp, .feed (e := ['\n']) (.inl rfl) h2 ha, hb⟩
        · simp only [List.cons_append, List.nil_append, List.cons.injEq] at hs
          obtain ⟨rfl, hs⟩ := hs
          cases a with
          | nil =>
            exfalso
            rw [List.nil_append] at hs
            rcases hab with h | h
            · exact h rfl
            · exact h _ hs
          | cons d a =>
            simp only [List.cons_append, List.cons.injEq] at hs
            obtain ⟨rfl, rfl⟩ := hs
            obtain ⟨a', b', rfl, ha, hb⟩ := ih a.length (by simp; omega) h (hab.imp_left fun h => by
              cases a with
              | nil => simp [NoEndCR]
              | cons d a => simpa [NoEndCR] using h) rfl
            exact ⟨e' ++ a', b', by simp, .feed (e := ['\r', '\n']) (.inr rfl) h2 ha, hb⟩

theorem of_break {e a : Str} (h : SameText e a) (he : e = ['\n'] ∨ e = ['\r', '\n']) : a = ['\n'] ∨ a = ['\r', '\n'] := by
  have hl : ∀ {s t : Str}, SameText s t → s = [] → t = [] := by
    intro s t h
    cases h with
    | nil => exact id
    | char => intro e; cases e
    | feed h1 => rcases h1 with rfl | rfl <;> intro e <;> cases e
  cases h with
  | nil => exact he
  | char h1 h2 h =>
    exfalso
    rcases he with e | e
    · exact h2 (List.cons.inj e).1
    · exact h1 (List.cons.inj e).1
  | @feed e1 e2 s t h1 h2 h =>
    have : s = [] := by
      rcases h1 with rfl | rfl <;> rcases he with e | e <;> simp at e
      · exact e
      · exact e
    rw [hl h this, List.append_nil]
    exact h2

theorem trans {s t u : Str} (h : SameText s t) (h' : SameText t u) : SameText s u := by
  induction h generalizing u with
  | nil => exact h'
  | @char c s t h1 h2 _ ih =>
    generalize ht : c :: t = w at h'
    cases h' with
    | nil => cases ht
    | char _ _ h' => cases ht; exact .char h1 h2 (ih h')
    | feed h3 =>
      exfalso
      rcases h3 with rfl | rfl
      · exact h2 (List.cons.inj ht).1
      · exact h1 (List.cons.inj ht).1
  | @feed e e' s t h1 h2 _ ih =>
    obtain ⟨a, b, rfl, ha, hb⟩ := h'.app (.inl (by rcases h2 with rfl | rfl <;> decide))
    exact .feed h1 (ha.of_break h2) (ih hb)

/-- The text with `\n` for every `\r\n`, if there is no other `\r`. -/
def toLF : Str → Option Str
  | [] => some []
  | '\r' :: '\n' :: s => (toLF s).map ('\n' :: ·)
  | '\r' :: _ => none
  | c :: s => (toLF s).map (c :: ·)

theorem of_toLF : ∀ {s u : Str}, toLF s = some u → SameText s u := by
  intro s
  induction s using toLF.induct with
  | case1 => intro u h; cases h; exact .nil
  | case2 s ih =>
    intro u h
    rw [toLF, Option.map_eq_some_iff] at h
    obtain ⟨w, h, rfl⟩ := h
    exact .feed (e := ['\r', '\n']) (e' := ['\n']) (.inr rfl) (.inl rfl) (ih h)
  | case3 s hs => intro u h; rw [toLF] at h; cases h; exact hs
  | case4 c s h1 h2 ih =>
    intro u h
    rw [toLF, Option.map_eq_some_iff] at h
    · obtain ⟨w, h, rfl⟩ := h
      by_cases hc : c = '\n'
      · subst hc
        exact .feed (e := ['\n']) (e' := ['\n']) (.inl rfl) (.inl rfl) (ih h)
      · exact .char h2 hc (ih h)
    · exact h1
    · exact h2

/-- A way to show that two texts are the same. -/
theorem of_toLF_eq {s t : Str} (h : toLF s = toLF t) (hs : (toLF s).isSome) : SameText s t := by
  obtain ⟨u, hu⟩ := Option.isSome_iff_exists.1 hs
  exact (of_toLF hu).trans (of_toLF (h ▸ hu)).symm

theorem eq_of_noLF {s t : Str} (h : SameText s t) (hs : '\n' ∉ s) : t = s ∧ '\r' ∉ s := by
  induction h with
  | nil => simp
  | char h1 h2 _ ih =>
    obtain ⟨rfl, h⟩ := ih (fun h => hs (List.mem_cons_of_mem _ h))
    exact ⟨rfl, by simp only [List.mem_cons, not_or]; exact ⟨fun e => h1 e.symm, h⟩⟩
  | feed h1 h2 _ ih => rcases h1 with rfl | rfl <;> simp at hs

theorem allMulti {s t : Str} (h : SameText s t) (hs : AllC isMultispace s) : AllC isMultispace t := by
  induction h with
  | nil => exact hs
  | char h1 h2 _ ih =>
    intro c hc
    rcases List.mem_cons.1 hc with rfl | hc
    · exact hs _ (by simp)
    · exact ih (fun c h => hs c (List.mem_cons_of_mem _ h)) c hc
  | @feed e e' s t h1 h2 _ ih =>
    intro c hc
    rcases List.mem_append.1 hc with hc | hc
    · rcases h2 with rfl | rfl
      · simp only [List.mem_singleton] at hc; subst hc; decide
      · simp only [List.mem_cons, List.not_mem_nil, or_false] at hc
        rcases hc with rfl | rfl <;> decide
    · exact ih (fun c h => hs c (List.mem_append.2 (.inr h))) c hc

theorem allWs {s t : Str} (h : SameText s t) (hs : AllC isWs s) : AllC isWs t := by
  induction h with
  | nil => exact hs
  | char h1 h2 _ ih =>
    intro c hc
    rcases List.mem_cons.1 hc with rfl | hc
    · exact hs _ (by simp)
    · exact ih (fun c h => hs c (List.mem_cons_of_mem _ h)) c hc
  | @feed e e' s t h1 h2 _ ih =>
    intro c hc
    rcases List.mem_append.1 hc with hc | hc
    · rcases h2 with rfl | rfl
      · simp only [List.mem_singleton] at hc; subst hc; decide
      · simp only [List.mem_cons, List.not_mem_nil, or_false] at hc
        rcases hc with rfl | rfl <;> decide
    · exact ih (fun c h => hs c (List.mem_append.2 (.inr h))) c hc

theorem trim_nil {s t : Str} (h : SameText s t) : trim s = [] ↔ trim t = [] := by
  rw [trim_eq_nil, trim_eq_nil]
  exact ⟨h.allWs, h.symm.allWs⟩

theorem mem_lf {s t : Str} (h : SameText s t) (hs : '\n' ∈ s) : '\n' ∈ t := by
  induction h with
  | nil => exact hs
  | char h1 h2 _ ih =>
    rcases List.mem_cons.1 hs with rfl | hs
    · exact absurd rfl h2
    · exact List.mem_cons_of_mem _ (ih hs)
  | feed h1 h2 _ ih => rcases h2 with rfl | rfl <;> simp

theorem nil_iff {s t : Str} (h : SameText s t) : s = [] → t = [] := by
  cases h with
  | nil => exact id
  | char h1 h2 _ => intro e; cases e
  | feed h1 h2 _ => rcases h1 with rfl | rfl <;> intro e <;> cases e

theorem headNotMulti {s t : Str} (h : SameText s t) (hs : HeadNot isMultispace s) : HeadNot isMultispace t := by
  cases h with
  | nil => exact hs
  | char h1 h2 _ => intro c t e; cases e; exact hs _ _ rfl
  | feed h1 h2 _ =>
    exfalso
    rcases h1 with rfl | rfl
    · exact absurd (hs _ _ rfl) (by decide)
    · exact absurd (hs _ _ rfl) (by decide)

theorem headBreak {s t : Str} (h : SameText s t) (hs : HeadNot (fun c => !(c == '\r' || c == '\n')) s) :
    HeadNot (fun c => !(c == '\r' || c == '\n')) t := by
  cases h with
  | nil => exact hs
  | char h1 h2 _ => intro c t e; cases e; exact hs _ _ rfl
  | feed h1 h2 _ => rcases h2 with rfl | rfl <;> (intro c t e; cases e; rfl)

theorem noEntry {s t : Str} (h : SameText s t) (hs : NoEntry s) : NoEntry t := by
  rintro a b rfl
  obtain ⟨a', b', rfl, ha, hb⟩ := h.symm.app (.inr fun b' e => by cases e)
  generalize hc : ':' :: b = w at hb
  cases hb with
  | nil => cases hc
  | char h1 h2 hb =>
    cases hc
    exact ha.symm.mem_lf (hs _ _ rfl)
  | feed h1 h2 hb =>
    rcases h1 with rfl | rfl <;> exact absurd (List.cons.inj hc).1 (by decide)

end SameText

/-- The entries of both texts. -/
theorem kvEntries_same {s t r : Str} {es : List (KVLine × Str)} (h : KVEntries s es r) (ht : SameText s t) :
    ∃ es' r', KVEntries t es' r' ∧ SameText r r' ∧
      es'.map (fun e => (e.1, lines e.2)) = es.map fun e => (e.1, lines e.2) := by
  induction h generalizing t with
  | nil r => exact ⟨[], t, .nil t, ht, rfl⟩
  | @cons l gap s es r hk hw hv hh hg hb hs he h ih =>
    have htext : NoEndCR l.text := by
      intro e
      have hm : '\r' ∈ ':' :: (l.ws ++ l.value) := by
        unfold KVLine.text at e
        obtain ⟨x, hx⟩ : ∃ x, (':' :: (l.ws ++ l.value)).getLast? = some x := ⟨_, List.getLast?_cons⟩
        rw [List.getLast?_append, hx, Option.some_or] at e
        cases e
        exact List.mem_of_getLast? hx
      simp only [List.mem_cons, List.mem_append] at hm
      rcases hm with hm | hm | hm
      · exact absurd hm (by decide)
      · exact absurd (hw _ hm) (by decide)
      · exact absurd (hv _ hm) (by decide)
    obtain ⟨u, v, rfl, hu, hv'⟩ := ht.app (.inl htext)
    have hnl : '\n' ∉ l.text := by
      unfold KVLine.text
      simp only [List.mem_append, List.mem_cons, not_or]
      exact ⟨fun e => absurd (hk _ e) (by decide), by decide, fun e => absurd (hw _ e) (by decide), fun e => absurd (hv _ e) (by decide)⟩
    obtain ⟨rfl, -⟩ := hu.eq_of_noLF hnl
    obtain ⟨g, s', rfl, hg', hs'⟩ := hv'.app (.inr fun b' e => by subst e; exact absurd (hs _ _ rfl) (by decide))
    obtain ⟨es', r', h1, h2, h3⟩ := ih hs'
    refine ⟨(l, g) :: es', r', .cons hk hw hv hh (hg'.allMulti hg) (hg'.headBreak hb) (hs'.headNotMulti hs) ?_ h1, h2, ?_⟩
    · intro e
      exact hs'.nil_iff (he (hg'.symm.nil_iff e))
    · simp only [List.map_cons, h3, hg'.lines]

namespace Schema
variable {S : Schema}

theorem run_same (v : Nat) : ∀ {es es' : List (KVLine × Str)}, es'.map (fun e => (e.1, lines e.2)) = es.map (fun e => (e.1, lines e.2)) →
    ∀ (n : Nat) (seen : List Str) (sec : S.Section),
      S.run v (es'.map toFieldLine) n seen sec = S.run v (es.map toFieldLine) n seen sec := by
  intro es
  induction es with
  | nil =>
    intro es' h n seen sec
    cases es' with
    | nil => rfl
    | cons _ _ => cases h
  | cons e es ih =>
    intro es' h n seen sec
    cases es' with
    | nil => cases h
    | cons e' es' =>
      simp only [List.map_cons, List.cons.injEq, Prod.mk.injEq] at h
      obtain ⟨⟨h1, h2⟩, h3⟩ := h
      simp only [List.map_cons, run, toFieldLine, h1, h2]
      simp only [ih h3]

theorem fromStr_same {s t : Str} (h : SameText s t) (v : Nat) : S.fromStr v s = S.fromStr v t := by
  obtain ⟨es, r, he, hr⟩ := kvSplits_exists s
  obtain ⟨es', r', he', hr', hm⟩ := kvEntries_same he h
  unfold fromStr
  rw [getFields_iff.2 ⟨es, ⟨he, hr⟩, rfl⟩, getFields_iff.2 ⟨es', ⟨he', hr'.noEntry hr⟩, rfl⟩]
  have hc : ((es'.map toFieldLine).map fun f => (lines f.ws2).length).sum = ((es.map toFieldLine).map fun f => (lines f.ws2).length).sum := by
    have := congrArg (fun l => (l.map fun p => p.2.length).sum) hm
    simpa [List.map_map, Function.comp_def, toFieldLine] using this
  simp only [hc, run_same v hm, ne_eq, hr'.trim_nil]

end Schema

section
variable {D : Type} [DecLib D]

theorem versioned_same {s t ws num r : Str} (h : Versioned s ws num r) (ht : SameText s t) :
    ∃ ws' r', Versioned t ws' num r' ∧ lines ws' = lines ws ∧ lines r' = lines r := by
  obtain ⟨⟨bom, hb, rfl⟩, hw, hn1, hn2, hr⟩ := h
  have hmid : '\n' ∉ bom ++ c!"osu file format v" ++ num := by
    simp only [List.mem_append, not_or]
    refine ⟨⟨?_, by decide⟩, hn2⟩
    rcases hb with rfl | rfl <;> decide
  rw [List.append_assoc, List.append_assoc, List.append_assoc] at ht
  obtain ⟨ws', t1, rfl, h1, ht⟩ := ht.app (.inr fun b' e => by rcases hb with rfl | rfl <;> cases e)
  rw [← List.append_assoc, ← List.append_assoc] at ht
  have hcr : NoEndCR (bom ++ c!"osu file format v" ++ num) := by
    intro e
    have hm := List.mem_of_getLast? e
    simp only [List.mem_append] at hm
    rcases hm with (hm | hm) | hm
    · rcases hb with rfl | rfl <;> revert hm <;> decide
    · revert hm; decide
    · exact hn1 hm
  obtain ⟨m, r', rfl, h2, h3⟩ := ht.app (.inl hcr)
  obtain ⟨rfl, -⟩ := h2.eq_of_noLF hmid
  refine ⟨ws', r', ⟨⟨bom, hb, by simp only [List.append_assoc]⟩, h1.allMulti hw, hn1, hn2, ?_⟩, h1.lines.symm, h3.lines.symm⟩
  cases h3 with
  | nil => exact .inl rfl
  | char a b _ =>
    exfalso
    rcases hr with e | ⟨r', e | e⟩
    · cases e
    · cases e; exact a rfl
    · cases e; exact b rfl
  | feed a b _ =>
    rcases b with rfl | rfl
    · exact .inr ⟨_, .inr rfl⟩
    · exact .inr ⟨_, .inl rfl⟩

theorem parseRest_lines [UniLib] {v : Nat} {ws ws' r r' : Str} (h1 : lines ws' = lines ws) (h2 : lines r' = lines r) :
    (OsuFile.parseRest v ws' r' : Res _ (OsuFile D)) = OsuFile.parseRest v ws r := by
  unfold OsuFile.parseRest sectionText preCount
  simp only [h1, h2]

theorem parse_same [UniLib] {s t : Str} (h : SameText s t) :
    (OsuFile.parse s : Res (LErr FileErr) (OsuFile D)) = OsuFile.parse t := by
  by_cases hv : ∃ ws num r, Versioned s ws num r
  · obtain ⟨ws, num, r, hv⟩ := hv
    obtain ⟨ws', r', hv', h1, h2⟩ := versioned_same hv h
    by_cases hk : ∃ v, KnownVersion num v
    · obtain ⟨v, hk⟩ := hk
      rw [parse_versioned hv hk, parse_versioned hv' hk, parseRest_lines h1 h2]
    · rw [parse_badVersion hv hk, parse_badVersion hv' hk]
  · have hv' : ¬∃ ws num r, Versioned t ws num r := by
      rintro ⟨ws, num, r, hv'⟩
      obtain ⟨ws', r', h', -⟩ := versioned_same hv' h.symm
      exact hv ⟨_, _, _, h'⟩
    rw [parse_unversioned hv, parse_unversioned hv']

end

/-! ## The end of the last line -/

theorem lines_final {s : Str} (hs : s ≠ []) (h1 : s.getLast? ≠ some '\n') (h2 : s.getLast? ≠ some '\r') :
    lines (s ++ ['\n']) = lines s := by
  unfold lines
  rw [splitNL_snoc]
  have hn : splitNL s ≠ [] := splitNL_ne_nil s
  have hl : (splitNL s).getLast? ≠ some [] := by
    rw [Ne, splitNL_getLast]
    exact fun e => e.elim hs h1
  have hc := splitNL_last h2
  generalize splitNL s = ls at *
  induction ls with
  | nil => exact absurd rfl hn
  | cons x xs ih =>
    cases xs with
    | nil =>
      have h3 := hc x rfl
      have h4 : x ≠ [] := fun e => hl (by rw [e]; rfl)
      simp [linesOf, stripCR_id h3, h4]
    | cons y ys =>
      rw [List.cons_append, List.cons_append, linesOf, linesOf, ← List.cons_append]
      rw [ih (by simp) (by simpa using hl) (by simpa using hc)]

theorem noEntry_final {r : Str} (h : NoEntry r) : NoEntry (r ++ ['\n']) := by
  intro a b e
  by_cases hb : b = []
  · subst hb
    have := congrArg List.getLast? e
    simp at this
  · obtain ⟨b', c, rfl⟩ : ∃ b' c, b = b' ++ [c] := ⟨_, _, (List.dropLast_concat_getLast hb).symm⟩
    have e2 : r ++ ['\n'] = (a ++ ':' :: b') ++ [c] := by rw [e]; simp
    exact h a b' (List.append_inj_left' e2 rfl)

theorem kvEntries_final {s r : Str} {es : List (KVLine × Str)} (h : KVEntries s es r) :
    ((r ≠ [] ∨ es = []) ∧ KVEntries (s ++ ['\n']) es (r ++ ['\n'])) ∨
      ∃ es0 l gap, r = [] ∧ es = es0 ++ [(l, gap)] ∧ KVEntries (s ++ ['\n']) (es0 ++ [(l, gap ++ ['\n'])]) [] := by
  induction h with
  | nil r => exact .inl ⟨.inr rfl, .nil _⟩
  | @cons l gap s es r hk hw hv hh hg hb hs he h ih =>
    have hcons : ∀ {es' r'}, s ≠ [] → KVEntries (s ++ ['\n']) es' r' →
        KVEntries (l.text ++ (gap ++ s) ++ ['\n']) ((l, gap) :: es') r' := by
      intro es' r' hne h'
      rw [List.append_assoc, List.append_assoc]
      refine .cons hk hw hv hh hg hb ?_ (fun e => absurd (he e) hne) h'
      cases s with
      | nil => exact absurd rfl hne
      | cons c s => intro c' t e; cases e; exact hs _ _ rfl
    by_cases hne : s = []
    · subst hne
      have : es = [] ∧ r = [] := by
        generalize hz : ([] : Str) = z at h
        cases h with
        | nil => exact ⟨rfl, rfl⟩
        | @cons l gap s es r _ _ _ _ _ _ _ _ _ =>
          have := congrArg List.length hz
          have hl := l.text_length
          simp at this
          omega
      obtain ⟨rfl, rfl⟩ := this
      refine .inr ⟨[], l, gap, rfl, rfl, ?_⟩
      have e : l.text ++ (gap ++ []) ++ ['\n'] = l.text ++ ((gap ++ ['\n']) ++ []) := by simp
      rw [e]
      refine .cons hk hw hv hh ?_ ?_ .nil (fun _ => rfl) (.nil _)
      · intro c hc
        rcases List.mem_append.1 hc with hc | hc
        · exact hg c hc
        · simp only [List.mem_singleton] at hc; subst hc; decide
      · cases gap with
        | nil => intro c t e; cases e; rfl
        | cons c g => intro c' t e; cases e; exact hb _ _ rfl
    · rcases ih with ⟨h1, h2⟩ | ⟨es0, l', gap', rfl, rfl, h2⟩
      · refine .inl ⟨.inl ?_, hcons hne h2⟩
        rcases h1 with h1 | rfl
        · exact h1
        · generalize hz : ([] : List (KVLine × Str)) = z at h
          cases h with
          | nil => exact hne
          | cons => cases hz
      · exact .inr ⟨(l, gap) :: es0, l', gap', rfl, rfl, hcons hne h2⟩

theorem trim_final (r : Str) : trim (r ++ ['\n']) = [] ↔ trim r = [] := by
  rw [trim_eq_nil, trim_eq_nil]
  constructor
  · exact fun h c hc => h c (List.mem_append.2 (.inl hc))
  · intro h c hc
    rcases List.mem_append.1 hc with hc | hc
    · exact h c hc
    · simp only [List.mem_singleton] at hc; subst hc; decide

namespace Schema
variable {S : Schema}

theorem run_lastGap (v : Nat) (l : KVLine) (g g' : Str) : ∀ (es : List (KVLine × Str)) (n : Nat) (seen : List Str) (sec : S.Section),
    S.run v ((es ++ [(l, g)]).map toFieldLine) n seen sec = S.run v ((es ++ [(l, g')]).map toFieldLine) n seen sec := by
  intro es
  induction es with
  | nil =>
    intro n seen sec
    simp only [List.nil_append, List.map_cons, List.map_nil, run, toFieldLine]
  | cons e es ih =>
    intro n seen sec
    simp only [List.cons_append, List.map_cons, run, ih]

theorem fromStr_final (v : Nat) (s : Str) : S.fromStr v (s ++ ['\n']) = S.fromStr v s := by
  obtain ⟨es, r, he, hr⟩ := kvSplits_exists s
  unfold fromStr
  rw [getFields_iff.2 ⟨es, ⟨he, hr⟩, rfl⟩]
  rcases kvEntries_final he with ⟨-, h⟩ | ⟨es0, l, gap, rfl, rfl, h⟩
  · rw [getFields_iff.2 ⟨es, ⟨h, noEntry_final hr⟩, rfl⟩]
    simp only [ne_eq, trim_final]
  · rw [getFields_iff.2 ⟨_, ⟨h, hr⟩, rfl⟩]
    simp only [ne_eq]
    rw [if_neg (by decide), if_neg (by decide), run_lastGap]

end Schema

end Osu
