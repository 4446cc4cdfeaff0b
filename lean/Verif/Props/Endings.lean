/-
C68: line endings do not matter.
-/
import Verif.Proof.Endings
import Verif.Props.File

namespace Osu
open SB Ev Parser

section
variable {D : Type} [DecLib D] [UniLib]

/-! ## LF and CRLF -/

/-- Files that differ in line endings only are read alike: same value, same error on the same line, same panic. -/
theorem C68_file {s t : Str} (h : SameText s t) : (OsuFile.parse s : Res (LErr FileErr) (OsuFile D)) = OsuFile.parse t :=
  parse_same h

/-- A file turned into one with CRLF is read as before. -/
theorem C68_crlf {s : Str} (h : '\r' ∉ s) : (OsuFile.parse (toCRLF s) : Res (LErr FileErr) (OsuFile D)) = OsuFile.parse s :=
  C68_file (.crlf h)

/-- The same for storyboard files. -/
theorem C68_osb {s t : Str} (h : SameText s t) (v : Nat) :
    (Osb.parse v s : Res (LErr OsbErr) (Option (Osb D))) = Osb.parse v t := by
  unfold Osb.parse sectionText preCount
  simp only [h.lines]

/-- The same for the content of each section. -/
theorem C68_section {s t : Str} (h : SameText s t) (v : Nat) (n : SName) :
    n.outcome D v s = n.outcome D v t ∧ ∀ f : OsuFile D, SectReads v f s n ↔ SectReads v f t n := by
  have hp : ∀ {E α : Type} (p : Str → Res E α), parseLines p s = parseLines p t := by
    intro E α p
    unfold parseLines
    rw [h.lines]
  have he : (Events.parse v s : Res _ (List (Event D))) = Events.parse v t := by
    unfold Events.parse Events.parseVars
    rw [h.lines]
  cases n
  case events => simp only [SName.outcome, SectReads, he, implies_true, and_self]
  case timingPoints => simp only [SName.outcome, SectReads, TimingPoints.parse, hp, implies_true, and_self]
  case colours => simp only [SName.outcome, SectReads, Colours.parse, hp, implies_true, and_self]
  case hitobjects => simp only [SName.outcome, SectReads, HitObjects.parse, hp, implies_true, and_self]
  all_goals simp only [SName.outcome, SectReads, Schema.fromStr_same h, implies_true, and_self]

/-! ## The end of the last line -/

theorem versioned_final {s ws num r : Str} (h : Versioned s ws num r) : Versioned (s ++ ['\n']) ws num (r ++ ['\n']) := by
  obtain ⟨⟨bom, hb, rfl⟩, hw, hn1, hn2, hr⟩ := h
  refine ⟨⟨bom, hb, by simp⟩, hw, hn1, hn2, .inr ?_⟩
  rcases hr with rfl | ⟨r', rfl | rfl⟩
  · exact ⟨[], .inr rfl⟩
  · exact ⟨_, .inl rfl⟩
  · exact ⟨_, .inr rfl⟩

theorem versioned_final_inv {s ws num r : Str} (h : Versioned (s ++ ['\n']) ws num r) : ∃ r', Versioned s ws num r' := by
  obtain ⟨⟨bom, hb, e⟩, hw, hn1, hn2, hr⟩ := h
  have hne : r ≠ [] := by
    rintro rfl
    have e' := congrArg List.getLast? e
    rw [List.append_nil, List.getLast?_append] at e'
    simp only [List.getLast?_singleton, Option.some_or] at e'
    have hm : '\n' ∈ c!"osu file format v" ++ num := by
      rw [List.append_assoc, List.getLast?_append] at e'
      cases hx : (c!"osu file format v" ++ num).getLast? with
      | none => rw [List.getLast?_eq_none_iff] at hx; cases hx
      | some x =>
        rw [hx, Option.some_or] at e'
        cases e'
        exact List.mem_of_getLast? hx
    rcases List.mem_append.1 hm with hm | hm
    · revert hm; decide
    · exact hn2 hm
  obtain ⟨r', c, rfl⟩ : ∃ r' c, r = r' ++ [c] := ⟨_, _, (List.dropLast_concat_getLast hne).symm⟩
  rw [← List.append_assoc] at e
  refine ⟨r', ⟨bom, hb, List.append_inj_left' e rfl⟩, hw, hn1, hn2, ?_⟩
  cases r' with
  | nil => exact .inl rfl
  | cons d r' =>
    rcases hr with e | ⟨q, e | e⟩
    · cases e
    · exact .inr ⟨r', .inl (by cases e; rfl)⟩
    · exact .inr ⟨r', .inr (by cases e; rfl)⟩

/-- A line feed at the end of the last line of a file makes no difference. -/
theorem C68_final_file {s : Str} (h1 : s.getLast? ≠ some '\n') (h2 : s.getLast? ≠ some '\r') :
    (OsuFile.parse (s ++ ['\n']) : Res (LErr FileErr) (OsuFile D)) = OsuFile.parse s := by
  by_cases hv : ∃ ws num r, Versioned s ws num r
  · obtain ⟨ws, num, r, hv⟩ := hv
    have hv' := versioned_final hv
    by_cases hk : ∃ v, KnownVersion num v
    · obtain ⟨v, hk⟩ := hk
      rw [parse_versioned hv hk, parse_versioned hv' hk]
      by_cases hr : r = []
      · subst hr
        rfl
      · refine parseRest_lines rfl (lines_final hr ?_ ?_)
        · intro e
          obtain ⟨⟨bom, hb, rfl⟩, -⟩ := hv
          exact h1 (by rw [List.getLast?_append, e, Option.some_or])
        · intro e
          obtain ⟨⟨bom, hb, rfl⟩, -⟩ := hv
          exact h2 (by rw [List.getLast?_append, e, Option.some_or])
    · rw [parse_badVersion hv hk, parse_badVersion hv' hk]
  · rw [parse_unversioned hv, parse_unversioned]
    rintro ⟨ws, num, r, hv'⟩
    obtain ⟨r', h⟩ := versioned_final_inv hv'
    exact hv ⟨_, _, _, h⟩

omit [UniLib] in
theorem lines_final_any {s : Str} (h : s.getLast? ≠ some '\r') :
    lines (s ++ ['\n']) = lines s ∨ lines (s ++ ['\n']) = lines s ++ [[]] := by
  by_cases hs : s = []
  · subst hs; exact .inr rfl
  · by_cases h1 : s.getLast? = some '\n'
    · obtain ⟨s', c, rfl⟩ : ∃ s' c, s = s' ++ [c] := ⟨_, _, (List.dropLast_concat_getLast hs).symm⟩
      simp only [List.getLast?_append, List.getLast?_singleton, Option.some_or, Option.some.injEq] at h1
      subst h1
      right
      rw [List.append_assoc]
      exact lines_append s' ['\n']
    · exact .inl (lines_final hs h1 h)

omit [UniLib] in
theorem lineLoop_snoc_blank {E α : Type} (p : Str → Res E α) : ∀ (ls : List Str) (n : Nat),
    lineLoop p n (ls ++ [[]]) = lineLoop p n ls := by
  intro ls
  induction ls with
  | nil => intro n; rfl
  | cons l ls ih => intro n; simp only [List.cons_append, lineLoop, ih]

theorem evLoop_blank (v : Nat) (vars : List Variable) : ∀ (ls : List Str) (n : Nat) (evs : List (Event D)),
    loop v vars n evs (ls ++ [[]]) = loop v vars n evs ls := by
  intro ls
  induction ls with
  | nil => intro n evs; rfl
  | cons l ls ih => intro n evs; simp only [List.cons_append, loop, ih]

/-- The same for the content of a section, even if it ends with empty lines. -/
theorem C68_final_section {s : Str} (h : s.getLast? ≠ some '\r') (v : Nat) (n : SName) :
    n.outcome D v (s ++ ['\n']) = n.outcome D v s ∧ ∀ f : OsuFile D, SectReads v f (s ++ ['\n']) n ↔ SectReads v f s n := by
  have hp : ∀ {E α : Type} (p : Str → Res E α), parseLines p (s ++ ['\n']) = parseLines p s := by
    intro E α p
    unfold parseLines
    rcases lines_final_any h with h | h <;> rw [h]
    exact lineLoop_snoc_blank p _ _
  have he : (Events.parse v (s ++ ['\n']) : Res _ (List (Event D))) = Events.parse v s := by
    unfold Events.parse Events.parseVars
    rcases lines_final_any h with h | h <;> rw [h]
    exact evLoop_blank _ _ _ _ _
  cases n
  case events => simp only [SName.outcome, SectReads, he, implies_true, and_self]
  case timingPoints => simp only [SName.outcome, SectReads, TimingPoints.parse, hp, implies_true, and_self]
  case colours => simp only [SName.outcome, SectReads, Colours.parse, hp, implies_true, and_self]
  case hitobjects => simp only [SName.outcome, SectReads, HitObjects.parse, hp, implies_true, and_self]
  all_goals simp only [SName.outcome, SectReads, Schema.fromStr_final, implies_true, and_self]

/-- A storyboard file with a line feed at the end of the last line. -/
theorem C68_final_osb {s : Str} (h1 : s.getLast? ≠ some '\n') (h2 : s.getLast? ≠ some '\r') (v : Nat) :
    (Osb.parse v (s ++ ['\n']) : Res (LErr OsbErr) (Option (Osb D))) = Osb.parse v s := by
  by_cases hs : s = []
  · subst hs
    rfl
  · unfold Osb.parse sectionText preCount
    simp only [lines_final hs h1 h2]

end

/-! ## Examples -/

section
attribute [local instance] asciiUni

/-- A file with mixed line endings and an error in its last line. -/
example : ∃ e, (OsuFile.parse c!"osu file format v14\r\n\n[General]\nMode: 1\r\n[Colours]\nCombo1 : 1,2\r\n" :
    Res (LErr FileErr) (OsuFile Dec96)) = .err e ∧ e = ⟨5, .colours (.rgb .missingBlue)⟩ := by
  refine ⟨_, ?_, rfl⟩
  rw [C68_file (t := c!"osu file format v14\n\n[General]\nMode: 1\n[Colours]\nCombo1 : 1,2\n") (.of_toLF_eq (by decide) (by decide))]
  exact Res.of_toErr (by decide)

example : SName.general.outcome Dec96 14 c!"Mode: 1\r\n\r\nCountdown: 7\r\n" = .err ⟨2, .general (.field .countdownUnknown)⟩ :=
  (C68_section (D := Dec96) (t := c!"Mode: 1\n\nCountdown: 7\n") (.of_toLF_eq (by decide) (by decide)) 14 .general).1.trans (by decide)

/-- A carriage return alone does not end a line. -/
theorem C68_false_cr : ∃ s t : Str, t = s.map (fun c => if c = '\n' then '\r' else c) ∧
    (Colours.parse 14 s).isOk = true ∧ (Colours.parse 14 t).isOk = false :=
  ⟨c!"Combo1 : 1,2,3\nCombo2 : 1,2,3", c!"Combo1 : 1,2,3\rCombo2 : 1,2,3", by decide, by decide, by decide⟩

/-- A second carriage return before the line feed is part of the line. -/
theorem C68_false_crcr : ∃ s t : Str, t = toCRLF s ∧ (∃ x y, (Events.parse 14 s : Res (LErr EvErr) (List (Event Dec96))) = .ok x ∧
    Events.parse 14 t = .ok y ∧ x ≠ y) :=
  ⟨c!"//a\r\n", c!"//a\r\r\n", by decide, [.comment c!"a"], [.comment c!"a\r"], by rfl, by rfl, fun h => by
    injection h with h; injection h with h; revert h; decide⟩

end

section
attribute [local instance] asciiUni

example : (OsuFile.parse (toCRLF c!"osu file format v14\n[General]\nMode: x") : Res (LErr FileErr) (OsuFile Dec96)) =
    OsuFile.parse c!"osu file format v14\n[General]\nMode: x" := C68_crlf (by decide)
example : (Osb.parse 14 c!"[Events]\r\n0,0,a\n" : Res (LErr OsbErr) (Option (Osb Dec96))) = Osb.parse 14 c!"[Events]\n0,0,a\n" :=
  C68_osb (.of_toLF_eq (by decide) (by decide)) 14
example : (OsuFile.parse (c!"osu file format v14\n[General]\nMode: 1" ++ ['\n']) : Res (LErr FileErr) (OsuFile Dec96)) =
    OsuFile.parse c!"osu file format v14\n[General]\nMode: 1" := C68_final_file (by decide) (by decide)
example : SName.colours.outcome Dec96 14 (c!"Combo1 : 1,2\n" ++ ['\n']) = SName.colours.outcome Dec96 14 c!"Combo1 : 1,2\n" :=
  (C68_final_section (by decide) 14 .colours).1

end

end Osu
