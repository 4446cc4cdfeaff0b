/-
The section splitter.
-/
import Verif.Spec.File
import Verif.Proof.Cmds

namespace Osu
open Parser

theorem splitAt_none {s : Str} : splitAt ['\n', '['] s = none ↔ ∀ a b, s ≠ a ++ '\n' :: '[' :: b := by
  induction s with
  | nil => simp [splitAt]
  | cons c s ih =>
    rw [splitAt]
    split
    · rename_i hp
      constructor
      · intro h; cases h
      · intro h
        rw [List.isPrefixOf_iff_prefix] at hp
        obtain ⟨t, ht⟩ := hp
        exact absurd ht.symm (h [] t)
    · rename_i hp
      constructor
      · intro h a b e
        have hs : splitAt ['\n', '['] s = none := by
          cases hq : splitAt ['\n', '['] s with
          | none => rfl
          | some p => rw [hq] at h; cases h
        cases a with
        | nil =>
          apply hp
          rw [List.isPrefixOf_iff_prefix]
          exact ⟨b, by simpa using e.symm⟩
        | cons d a =>
          simp only [List.cons_append, List.cons.injEq] at e
          exact ih.1 hs a b e.2
      · intro h
        rw [ih.2 (fun a b e => h (c :: a) b (by simp [e]))]

theorem splitAt_some {s a b : Str} : splitAt ['\n', '['] s = some (a, b) ↔
    s = a ++ b ∧ (∃ r, b = '\n' :: '[' :: r) ∧ ∀ x y, a ≠ x ++ '\n' :: '[' :: y := by
  induction s generalizing a with
  | nil =>
    simp only [splitAt]
    constructor
    · intro h; cases h
    · rintro ⟨h, ⟨r, rfl⟩, -⟩; simp at h
  | cons c s ih =>
    rw [splitAt]
    split
    · rename_i hp
      rw [List.isPrefixOf_iff_prefix] at hp
      obtain ⟨t, ht⟩ := hp
      simp only [List.cons_append, List.nil_append, List.cons.injEq] at ht
      obtain ⟨rfl, rfl⟩ := ht
      constructor
      · intro h; cases h; exact ⟨rfl, ⟨t, rfl⟩, by intro x y e; simp at e⟩
      · rintro ⟨h1, ⟨r, rfl⟩, h3⟩
        cases a with
        | nil =>
          simp only [List.nil_append, List.cons.injEq, true_and] at h1
          rw [h1]
        | cons d a =>
          simp only [List.cons_append, List.cons.injEq] at h1
          obtain ⟨rfl, h1⟩ := h1
          cases a with
          | nil => simp at h1
          | cons d a =>
            simp only [List.cons_append, List.cons.injEq] at h1
            obtain ⟨rfl, h1⟩ := h1
            exact absurd rfl (h3 [] a)
    · rename_i hp
      constructor
      · intro h
        cases hq : splitAt ['\n', '['] s with
        | none => rw [hq] at h; cases h
        | some p =>
          obtain ⟨a', b'⟩ := p
          rw [hq] at h
          cases h
          obtain ⟨rfl, h2, h3⟩ := ih.1 hq
          refine ⟨rfl, h2, ?_⟩
          intro x y e
          cases x with
          | nil =>
            simp only [List.nil_append, List.cons.injEq] at e
            obtain ⟨rfl, rfl⟩ := e
            exact hp (by simp [List.isPrefixOf])
          | cons d x =>
            simp only [List.cons_append, List.cons.injEq] at e
            exact h3 x y e.2
      · rintro ⟨h1, ⟨r, rfl⟩, h3⟩
        cases a with
        | nil =>
          simp only [List.nil_append, List.cons.injEq] at h1
          obtain ⟨rfl, rfl⟩ := h1
          exact absurd (by simp [List.isPrefixOf]) hp
        | cons d a =>
          simp only [List.cons_append, List.cons.injEq] at h1
          obtain ⟨rfl, rfl⟩ := h1
          rw [(ih (a := a)).2 ⟨rfl, ⟨r, rfl⟩, fun x y e => h3 (c :: x) y (by simp [e])⟩]

theorem bodyP_iff {s r a : Str} : (alt [takeUntil ['\n', '['], rest] : Parser Unit Str) s = .ok r a ↔
    s = a ++ r ∧ BodyEnds a r := by
  rw [alt_cons_eq_ok, alt_cons_eq_ok]
  simp only [alt_nil_eq_ok, and_false, or_false, rest_eq_ok]
  unfold takeUntil BodyEnds
  cases h : splitAt ['\n', '['] s with
  | none =>
    have hn := splitAt_none.1 h
    constructor
    · rintro (h' | ⟨-, rfl, rfl⟩)
      · simp at h'
      · exact ⟨by simp, .inl rfl, hn⟩
    · rintro ⟨rfl, (rfl | ⟨r', rfl⟩), hn'⟩
      · exact .inr ⟨⟨_, rfl⟩, rfl, by simp⟩
      · exact absurd rfl (hn a r')
  | some p =>
    obtain ⟨a', b'⟩ := p
    obtain ⟨rfl, ⟨r1, rfl⟩, h3⟩ := splitAt_some.1 h
    constructor
    · rintro (h' | ⟨⟨e, h'⟩, -⟩)
      · simp only [PRes.ok.injEq] at h'
        obtain ⟨rfl, rfl⟩ := h'
        exact ⟨rfl, .inr ⟨_, rfl⟩, h3⟩
      · cases h'
    · rintro ⟨e, hr, hn⟩
      left
      rcases hr with rfl | ⟨r', rfl⟩
      · exact absurd (by simpa using e.symm) (hn a' r1)
      · have := splitAt_some.2 ⟨e, ⟨r', rfl⟩, hn⟩
        rw [h] at this
        simp only [Option.some.injEq, Prod.mk.injEq] at this
        rw [this.1, this.2]

theorem notBr {n : Str} : AllC (fun c => !(c == ']' || c == '\n')) n ↔ ']' ∉ n ∧ '\n' ∉ n := by
  constructor
  · intro h
    exact ⟨fun hm => absurd (h _ hm) (by decide), fun hm => absurd (h _ hm) (by decide)⟩
  · rintro ⟨h1, h2⟩ c hc
    have e1 : c ≠ ']' := by rintro rfl; exact h1 hc
    have e2 : c ≠ '\n' := by rintro rfl; exact h2 hc
    simp [e1, e2]

theorem squareSection_iff {s r : Str} {x : Sect} : squareSection s = .ok r x ↔
    s = x.ws ++ '[' :: (x.name ++ ']' :: (x.ws2 ++ (x.body ++ r))) ∧ AllC isMultispace x.ws ∧
      (']' ∉ x.name ∧ '\n' ∉ x.name) ∧ AllC isMultispace x.ws2 ∧ HeadNot isMultispace (x.body ++ r) ∧ BodyEnds x.body r := by
  unfold squareSection multispace0 delimited takeTill
  simp only [bind_eq_ok, ret_eq_ok, takeWhile_eq_ok, tag_eq_ok, bodyP_iff]
  constructor
  · rintro ⟨r1, ws, ⟨rfl, h1, -⟩, r2, nm, ⟨_, _, ⟨rfl, rfl⟩, _, _, ⟨rfl, h2, -⟩, _, _, ⟨rfl, rfl⟩, rfl, rfl⟩,
      _, ws2, ⟨rfl, h3, h4⟩, _, body, ⟨rfl, h5⟩, rfl, rfl⟩
    exact ⟨by simp, h1, notBr.1 h2, h3, h4, h5⟩
  · obtain ⟨ws, nm, ws2, body⟩ := x
    rintro ⟨rfl, h1, h2, h3, h4, h5⟩
    refine ⟨'[' :: (nm ++ ']' :: (ws2 ++ (body ++ r))), ws, ⟨rfl, h1, .cons (by decide)⟩, ws2 ++ (body ++ r), nm,
      ⟨nm ++ ']' :: (ws2 ++ (body ++ r)), ['['], ⟨rfl, rfl⟩, ']' :: (ws2 ++ (body ++ r)), nm,
        ⟨rfl, notBr.2 h2, .cons (by decide)⟩, ws2 ++ (body ++ r), [']'], ⟨rfl, rfl⟩, rfl, rfl⟩,
      body ++ r, ws2, ⟨rfl, h3, h4⟩, r, body, ⟨rfl, h5⟩, rfl, rfl⟩

theorem bodyEnds_exists (s : Str) : ∃ a r, s = a ++ r ∧ BodyEnds a r := by
  cases h : splitAt ['\n', '['] s with
  | none => exact ⟨s, [], by simp, .inl rfl, splitAt_none.1 h⟩
  | some p =>
    obtain ⟨a, b⟩ := p
    obtain ⟨h1, h2, h3⟩ := splitAt_some.1 h
    exact ⟨a, b, h1, .inr h2, h3⟩

theorem hasHeader_iff {s : Str} : HasHeader s ↔ ∃ r x, squareSection s = .ok r x := by
  constructor
  · rintro ⟨ws, nm, r, rfl, h1, h2⟩
    obtain ⟨a, b, e, hb⟩ := bodyEnds_exists (r.dropWhile isMultispace)
    refine ⟨b, ⟨ws, nm, r.takeWhile isMultispace, a⟩, squareSection_iff.2 ⟨?_, h1, h2, takeWhile_allC _ _, ?_, hb⟩⟩
    · simp only
      rw [← e, List.takeWhile_append_dropWhile]
    · rw [← e]; exact dropWhile_headNot _ _
  · rintro ⟨r, x, h⟩
    obtain ⟨rfl, h1, h2, -⟩ := squareSection_iff.1 h
    exact ⟨_, _, _, rfl, h1, h2⟩

theorem soft_takeWhile {γ : Type} (f : Char → Bool) : Soft (takeWhile f : Parser γ Str) := fun _ => .inl ⟨_, _, rfl⟩

theorem squareSection_soft : Soft squareSection := by
  unfold squareSection multispace0 delimited takeTill
  refine (soft_takeWhile _).bind fun ws => Soft.bind ?_ fun nm => (soft_takeWhile _).bind fun ws2 => Soft.bind ?_ fun b => Soft.ret _
  · exact (Soft.tag _).bind fun _ => (soft_takeWhile _).bind fun _ => (Soft.tag _).bind fun _ => Soft.ret _
  · intro s
    obtain ⟨a, r, e, hb⟩ := bodyEnds_exists s
    exact .inl ⟨r, a, bodyP_iff.2 ⟨e, hb⟩⟩

theorem squareSection_error {s : Str} : (∃ e, squareSection s = .error e) ↔ ¬HasHeader s := by
  rw [hasHeader_iff]
  rcases squareSection_soft s with ⟨r, a, h⟩ | ⟨e, h⟩
  · simp [h]
  · simp [h]

theorem sections_iff {s r : Str} {xs : List Sect} : many0 squareSection s = .ok r xs ↔ Sections s xs r := by
  constructor
  · intro h
    induction xs generalizing s with
    | nil =>
      rw [many0_iff] at h
      rcases h with ⟨e, h, rfl, -⟩ | ⟨_, _, _, _, _, _, h⟩
      · exact .nil (squareSection_error.1 ⟨e, h⟩)
      · cases h
    | cons x xs ih =>
      rw [many0_iff] at h
      rcases h with ⟨e, h, rfl, h'⟩ | ⟨r1, a, as', h1, h2, h3, h4⟩
      · cases h'
      · cases h4
        obtain ⟨rfl, a1, a2, a3, a4, a5⟩ := squareSection_iff.1 h1
        exact .cons a1 a2 a3 a4 a5 (ih h3)
  · intro h
    induction h with
    | nil h =>
      obtain ⟨e, he⟩ := squareSection_error.2 h
      exact many0_iff.2 (.inl ⟨e, he, rfl, rfl⟩)
    | cons hw hn hw2 hb he h ih =>
      exact many0_iff.2 (.inr ⟨_, _, _, squareSection_iff.2 ⟨rfl, hw, hn, hw2, hb, he⟩, by simp; omega, ih, rfl⟩)

theorem sections_exists (s : Str) : ∃ xs r, Sections s xs r := by
  by_cases h : HasHeader s
  · obtain ⟨r, x, hx⟩ := hasHeader_iff.1 h
    obtain ⟨rfl, a1, a2, a3, a4, a5⟩ := squareSection_iff.1 hx
    have : r.length < (x.ws ++ '[' :: (x.name ++ ']' :: (x.ws2 ++ (x.body ++ r)))).length := by simp; omega
    obtain ⟨xs, r', h'⟩ := sections_exists r
    exact ⟨_, _, .cons a1 a2 a3 a4 a5 h'⟩
  · exact ⟨_, _, .nil h⟩
termination_by s.length

theorem sections_unique {s r r' : Str} {xs xs' : List Sect} (h : Sections s xs r) (h' : Sections s xs' r') :
    xs = xs' ∧ r = r' := by
  have h1 := sections_iff.2 h
  rw [sections_iff.2 h'] at h1
  cases h1
  exact ⟨rfl, rfl⟩

theorem many0_sections (s : Str) : ∃ xs r, Sections s xs r ∧ many0 squareSection s = .ok r xs := by
  obtain ⟨xs, r, h⟩ := sections_exists s
  exact ⟨xs, r, h, sections_iff.2 h⟩

end Osu
