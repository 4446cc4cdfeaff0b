/-
C56 to C60: which error is reported for a line that is refused.
-/
import Verif.Proof.FaultsEvents
import Verif.Proof.FaultsHits
import Verif.Proof.FaultsColours
import Verif.Proof.Dec96

namespace Osu
open SB Ev

/-- A result is a value, an error, or a panic. -/
theorem Res.ok_of_not {ε α : Type} {r : Res ε α} (h1 : ∀ e, r ≠ .err e) (h2 : r ≠ .panic) : ∃ a, r = .ok a := by
  cases r with
  | ok a => exact ⟨a, rfl⟩
  | err e => exact absurd rfl (h1 e)
  | panic => exact absurd rfl h2

/-- The first bad line, as a split of the lines. -/
theorem firstBad_split {E α : Type} {f : Str → Res E α} {s : Str} {k : Nat} {e : E} : FirstBad f s k e ↔
    ∃ pre l post, lines s = pre ++ l :: post ∧ pre.length = k ∧ (∀ x ∈ pre, Blank x ∨ ∃ a, f x = .ok a) ∧ ¬Blank l ∧ f l = .err e := by
  unfold FirstBad
  constructor
  · rintro ⟨⟨l, h1, h2, h3⟩, h4⟩
    have hk : k < (lines s).length := (List.getElem?_eq_some_iff.1 h1).1
    refine ⟨(lines s).take k, l, (lines s).drop (k + 1), ?_, by simp; omega, ?_, h2, h3⟩
    · rw [← (List.getElem?_eq_some_iff.1 h1).2]; simp
    · intro x hx
      obtain ⟨j, hj, hx⟩ := List.mem_iff_getElem.1 hx
      simp only [List.length_take, List.getElem_take] at hj hx
      exact h4 j x (by omega) (by rw [← hx]; exact List.getElem?_eq_getElem _)
  · rintro ⟨pre, l, post, h1, rfl, h3, h4, h5⟩
    rw [h1]
    refine ⟨⟨l, by simp, h4, h5⟩, fun j x hj hx => h3 x ?_⟩
    rw [List.getElem?_append_left hj] at hx
    exact List.mem_of_getElem? hx

/-- A panic of a section, as a split of the lines. -/
theorem parseLines_panic_split {E α : Type} {f : Str → Res E α} {s : Str} : parseLines f s = .panic ↔
    ∃ pre l post, lines s = pre ++ l :: post ∧ (∀ x ∈ pre, Blank x ∨ ∃ a, f x = .ok a) ∧ ¬Blank l ∧ f l = .panic := by
  have hb : ∀ l, nonBlank l = true ↔ ¬Blank l := fun l => by
    rw [nonBlank_iff, Ne, trim_eq_nil]; rfl
  unfold parseLines
  rw [lineLoop_panic_iff]
  refine exists_congr fun pre => exists_congr fun l => exists_congr fun post => and_congr_right fun _ => ?_
  rw [hb]
  refine and_congr_left fun _ => ?_
  unfold EarlierOK
  refine forall_congr' fun x => forall_congr' fun _ => ?_
  rw [hb]
  exact ⟨fun h => (Classical.em (Blank x)).imp_right h, fun h hn => h.resolve_left hn⟩

theorem splitOnC_cons (c : Char) (s : Str) : ∃ p qs, splitOnC c s = p :: qs := by
  cases hs : splitOnC c s with
  | nil => exact absurd hs (splitOnC_ne_nil _ _)
  | cons p qs => exact ⟨p, qs, rfl⟩

section
variable {D : Type} [DecLib D]

/-! ## C56: timing points -/

/-- A timing point line is refused exactly with the error of its first missing or unreadable column. -/
theorem C56_line {v : Nat} {s p : Str} {qs : List Str} (hs : splitOnC ',' s = p :: qs) {e : TPErr} :
    (TimingPoint.parse v s : Res TPErr (TimingPoint D)) = .err e ↔
      ¬TimeOverflows D v p ∧ firstFault (tpColumns v (qs.length + 1)) (p :: qs) = some e := TimingPoint.parse_err_iff v hs

/-- It is accepted exactly if there is no such column and the time does not overflow. -/
theorem C56_accepted {v : Nat} {s p : Str} {qs : List Str} (hs : splitOnC ',' s = p :: qs) :
    (∃ t, (TimingPoint.parse v s : Res TPErr (TimingPoint D)) = .ok t) ↔
      ¬TimeOverflows D v p ∧ firstFault (tpColumns v (qs.length + 1)) (p :: qs) = none := by
  have hp : (TimingPoint.parse v s : Res TPErr (TimingPoint D)) = .panic ↔ TimeOverflows D v p := by
    rw [TimingPoint.parse_panic, hs]; rfl
  constructor
  · rintro ⟨t, ht⟩
    have hn : ¬TimeOverflows D v p := by rw [← hp, ht]; exact fun h => by cases h
    refine ⟨hn, ?_⟩
    cases hf : firstFault (tpColumns v (qs.length + 1)) (p :: qs) with
    | none => rfl
    | some e => have := (C56_line (D := D) hs (e := e)).2 ⟨hn, hf⟩; rw [ht] at this; cases this
  · rintro ⟨hn, hf⟩
    refine Res.ok_of_not (fun e h => ?_) (fun h => hn (hp.1 h))
    have := ((C56_line (D := D) hs).1 h).2
    rw [hf] at this; cases this

/-- A section is refused at line `k` with error `e` exactly if all lines before that are not blank have no fault (and no
overflow), and line `k` is not blank and has that fault. -/
theorem C56_section {v : Nat} {s : Str} {k : Nat} {e : TPErr} :
    (TimingPoints.parse v s : Res _ (List (TimingPoint D))) = .err ⟨k, e⟩ ↔
    ∃ pre l post p qs, lines s = pre ++ l :: post ∧ pre.length = k ∧
      (∀ x ∈ pre, Blank x ∨ ∃ p qs, splitOnC ',' x = p :: qs ∧ ¬TimeOverflows D v p ∧
        firstFault (tpColumns v (qs.length + 1)) (p :: qs) = none) ∧
      ¬Blank l ∧ splitOnC ',' l = p :: qs ∧ ¬TimeOverflows D v p ∧
      firstFault (tpColumns v (qs.length + 1)) (p :: qs) = some e := by
  rw [TimingPoints.parse, parseLines_firstBad, firstBad_split]
  constructor
  · rintro ⟨pre, l, post, h1, h2, h3, h4, h5⟩
    obtain ⟨p, qs, hs⟩ := splitOnC_cons ',' l
    refine ⟨pre, l, post, p, qs, h1, h2, fun x hx => (h3 x hx).imp_right fun h => ?_, h4, hs, (C56_line hs).1 h5⟩
    obtain ⟨p, qs, hs⟩ := splitOnC_cons ',' x
    exact ⟨p, qs, hs, (C56_accepted hs).1 h⟩
  · rintro ⟨pre, l, post, p, qs, h1, h2, h3, h4, hs, h5⟩
    refine ⟨pre, l, post, h1, h2, fun x hx => (h3 x hx).imp_right fun ⟨p, qs, hs, h⟩ => (C56_accepted hs).2 h, h4,
      (C56_line hs).2 h5⟩

example : ∃ pre l post p qs, lines c!"\n1,2,3,4,5,6,1,0\n1,2,x,4,5,6,1,0" = pre ++ l :: post ∧ pre.length = 2 ∧
    (∀ x ∈ pre, Blank x ∨ ∃ p qs, splitOnC ',' x = p :: qs ∧ ¬TimeOverflows Dec96 14 p ∧
      firstFault (tpColumns 14 (qs.length + 1)) (p :: qs) = none) ∧
    ¬Blank l ∧ splitOnC ',' l = p :: qs ∧ ¬TimeOverflows Dec96 14 p ∧
    firstFault (tpColumns 14 (qs.length + 1)) (p :: qs) = some .invalidMeter :=
  C56_section.1 (by rfl)

/-- A section panics exactly if, after lines that are blank or accepted, there is a line whose time overflows. -/
theorem C56_section_panics {v : Nat} {s : Str} : (TimingPoints.parse v s : Res _ (List (TimingPoint D))) = .panic ↔
    ∃ pre l post, lines s = pre ++ l :: post ∧
      (∀ x ∈ pre, Blank x ∨ ∃ p qs, splitOnC ',' x = p :: qs ∧ ¬TimeOverflows D v p ∧
        firstFault (tpColumns v (qs.length + 1)) (p :: qs) = none) ∧
      ¬Blank l ∧ TimeOverflows D v ((splitOnC ',' l).headD []) := by
  rw [TimingPoints.parse, parseLines_panic_split]
  have ha : ∀ x, (∃ t, (TimingPoint.parse v x : Res TPErr (TimingPoint D)) = .ok t) ↔ ∃ p qs, splitOnC ',' x = p :: qs ∧
      ¬TimeOverflows D v p ∧ firstFault (tpColumns v (qs.length + 1)) (p :: qs) = none := by
    intro x
    constructor
    · intro h
      obtain ⟨p, qs, hs⟩ := splitOnC_cons ',' x
      exact ⟨p, qs, hs, (C56_accepted hs).1 h⟩
    · rintro ⟨p, qs, hs, h⟩
      exact (C56_accepted hs).2 h
  simp only [ha, TimingPoint.parse_panic]

example : ∃ pre l post, lines c!"\n79228162514264337593543950335,1" = pre ++ l :: post ∧
    (∀ x ∈ pre, Blank x ∨ ∃ p qs, splitOnC ',' x = p :: qs ∧ ¬TimeOverflows Dec96 3 p ∧
      firstFault (tpColumns 3 (qs.length + 1)) (p :: qs) = none) ∧
    ¬Blank l ∧ TimeOverflows Dec96 3 ((splitOnC ',' l).headD []) :=
  C56_section_panics.1 (by rfl)

/-! ## C59: hit objects -/

/-- A hit object line is refused exactly with the error of its first missing or unreadable column. -/
theorem C59_line {v : Nat} {s : Str} {e : HOErr} : (HitObject.parse v s : Res HOErr (HitObject D)) = .err e ↔
    ¬HOPanics D v (splitOnC ',' s) ∧ hoFault D (splitOnC ',' s) = some e := HitObject.parse_err_iff

/-- A hit object line panics exactly if one of its times overflows. -/
theorem C59_panic {v : Nat} {s : Str} : (HitObject.parse v s : Res HOErr (HitObject D)) = .panic ↔
    HOPanics D v (splitOnC ',' s) := HitObject.parse_panic_iff

/-- It is accepted exactly in the other cases. -/
theorem C59_accepted {v : Nat} {s : Str} : (∃ o, (HitObject.parse v s : Res HOErr (HitObject D)) = .ok o) ↔
    ¬HOPanics D v (splitOnC ',' s) ∧ hoFault D (splitOnC ',' s) = none := by
  rw [← C59_panic]
  constructor
  · rintro ⟨t, ht⟩
    have hn : (HitObject.parse v s : Res HOErr (HitObject D)) ≠ .panic := by rw [ht]; exact fun h => by cases h
    refine ⟨hn, ?_⟩
    cases hf : hoFault D (splitOnC ',' s) with
    | none => rfl
    | some e => have := (C59_line (D := D) (e := e)).2 ⟨fun h => hn (C59_panic.2 h), hf⟩; rw [ht] at this; cases this
  · rintro ⟨hn, hf⟩
    refine Res.ok_of_not (fun e h => ?_) hn
    have := ((C59_line (D := D)).1 h).2
    rw [hf] at this; cases this

/-- A section is refused at line `k` with error `e` exactly if all lines before that are not blank have no fault (and no
overflow), and line `k` is not blank and has that fault. -/
theorem C59_section {v : Nat} {s : Str} {k : Nat} {e : HOErr} :
    (HitObjects.parse v s : Res _ (List (HitObject D))) = .err ⟨k, e⟩ ↔
    ∃ pre l post, lines s = pre ++ l :: post ∧ pre.length = k ∧
      (∀ x ∈ pre, Blank x ∨ ¬HOPanics D v (splitOnC ',' x) ∧ hoFault D (splitOnC ',' x) = none) ∧
      ¬Blank l ∧ ¬HOPanics D v (splitOnC ',' l) ∧ hoFault D (splitOnC ',' l) = some e := by
  rw [HitObjects.parse, parseLines_firstBad, firstBad_split]
  simp only [C59_accepted, C59_line]

example : ∃ pre l post, lines c!"1,2,3,1,0\n\n1,2,3,x,0" = pre ++ l :: post ∧ pre.length = 2 ∧
    (∀ x ∈ pre, Blank x ∨ ¬HOPanics Dec96 14 (splitOnC ',' x) ∧ hoFault Dec96 (splitOnC ',' x) = none) ∧
    ¬Blank l ∧ ¬HOPanics Dec96 14 (splitOnC ',' l) ∧ hoFault Dec96 (splitOnC ',' l) = some .invalidObjType :=
  C59_section.1 (by rfl)

/-- A section panics exactly if, after lines that are blank or accepted, there is a line with a time that overflows. -/
theorem C59_section_panics {v : Nat} {s : Str} : (HitObjects.parse v s : Res _ (List (HitObject D))) = .panic ↔
    ∃ pre l post, lines s = pre ++ l :: post ∧
      (∀ x ∈ pre, Blank x ∨ ¬HOPanics D v (splitOnC ',' x) ∧ hoFault D (splitOnC ',' x) = none) ∧
      ¬Blank l ∧ HOPanics D v (splitOnC ',' l) := by
  rw [HitObjects.parse, parseLines_panic_split]
  simp only [C59_accepted, C59_panic]

example : ∃ pre l post, lines c!"1,2,3,1,0\n1,2,79228162514264337593543950335,1,0" = pre ++ l :: post ∧
    (∀ x ∈ pre, Blank x ∨ ¬HOPanics Dec96 3 (splitOnC ',' x) ∧ hoFault Dec96 (splitOnC ',' x) = none) ∧
    ¬Blank l ∧ HOPanics Dec96 3 (splitOnC ',' l) :=
  C59_section_panics.1 (by rfl)

/-- An error comes from a column. -/
theorem firstFault_mem {E : Type} {e : E} : ∀ {cs : List (Column E)} {ps : List Str}, firstFault cs ps = some e →
    ∃ c ∈ cs, e = c.missing ∨ e = c.invalid := by
  intro cs
  induction cs with
  | nil => intro ps h; simp [firstFault] at h
  | cons c cs ih =>
    intro ps h
    cases ps with
    | nil => exact ⟨c, .head _, .inl (by simpa [firstFault, eq_comm] using h)⟩
    | cons p ps =>
      unfold firstFault at h
      by_cases hk : c.ok (if c.toEnd then join [','] (p :: ps) else p) = true
      · rw [if_pos hk] at h
        obtain ⟨d, hd, h⟩ := ih h
        exact ⟨d, .tail _ hd, h⟩
      · rw [if_neg hk] at h
        exact ⟨c, .head _, .inr (Option.some.inj h).symm⟩

/-- Errors that no line is refused with: in particular unreadable curve points, edge sounds and edge sets are never
reported as such. -/
theorem C59_never {v : Nat} {s : Str} {e : HOErr} (h : (HitObject.parse v s : Res HOErr (HitObject D)) = .err e) :
    e ∉ [HOErr.invalidCurvePoint, .missingCurvePoint, .invalidEdgeSound, .invalidEdgeSet, .invalidX, .invalidY,
      .invalidTime, .invalidLength] := by
  have h := (C59_line.1 h).2
  unfold hoFault at h
  split at h
  · rename_i e' he
    cases h
    obtain ⟨c, hc, h⟩ := firstFault_mem he
    simp only [hoHeadColumns, List.mem_cons, List.not_mem_nil, or_false] at hc
    rcases hc with rfl | rfl | rfl | rfl | rfl <;> rcases h with rfl | rfl <;> decide
  · split at h
    · rename_i k hk
      obtain ⟨c, hc, h⟩ := firstFault_mem h
      have hsample : ∀ qs, c ∈ sampleColumns qs → e = .missingHitSample ∨ e = .invalidHitSample := by
        intro qs hc
        unfold sampleColumns at hc
        split at hc
        · cases hc
        · simp only [List.mem_cons, List.not_mem_nil, or_false] at hc
          subst hc; exact h
      cases k with
      | circle => rcases hsample _ hc with rfl | rfl <;> decide
      | spinner =>
        rcases List.mem_cons.1 hc with rfl | hc
        · rcases h with rfl | rfl <;> decide
        · rcases hsample _ hc with rfl | rfl <;> decide
      | hold =>
        simp only [kindColumns, holdColumns, List.mem_cons, List.not_mem_nil, or_false] at hc
        subst hc
        rcases h with rfl | rfl
        · simp
        · dsimp only; split <;> decide
      | slider =>
        rcases List.mem_append.1 hc with hc | hc
        · simp only [List.mem_cons, List.not_mem_nil, or_false] at hc
          rcases hc with rfl | rfl | rfl
          · rcases h with rfl | rfl
            · simp [curveColumn]
            · simp only [curveColumn]; split <;> decide
          · rcases h with rfl | rfl <;> decide
          · rcases h with rfl | rfl <;> decide
        · unfold edgeColumns at hc
          split at hc <;> simp only [List.mem_cons, List.not_mem_nil, or_false] at hc
          · subst hc; rcases h with rfl | rfl <;> decide
          · rcases hc with rfl | rfl <;> rcases h with rfl | rfl <;> decide
          · rcases hc with rfl | rfl | rfl <;> rcases h with rfl | rfl <;> decide
    · cases h; decide

end

section
/-! Examples in the concrete decimal type. -/

example : firstFault (tpColumns 14 8) (splitOnC ',' c!"0,1,4,1,1,x,1,y") = some TPErr.invalidVolume := by decide
example : (TimingPoint.parse 14 c!"0,1,4,1,1,x,1,y" : Res TPErr (TimingPoint Dec96)) = .err .invalidVolume :=
  (C56_line (p := c!"0") (qs := [c!"1", c!"4", c!"1", c!"1", c!"x", c!"1", c!"y"]) (by decide)).2 ⟨fun h => by have := h.2.1; omega, by decide⟩
example : ∃ t, (TimingPoint.parse 5 c!"0,1,4,1,1,60,1" : Res TPErr (TimingPoint Dec96)) = .ok t :=
  (C56_accepted (p := c!"0") (qs := [c!"1", c!"4", c!"1", c!"1", c!"60", c!"1"]) (by decide)).2 ⟨fun h => by have := h.2.1; omega, by decide⟩
example : (TimingPoints.parse 14 c!"0,1,4,1,1,60,1,0\n\n7" : Res _ (List (TimingPoint Dec96))) = .err ⟨2, .missingBeatLength⟩ := by decide

/-- Unreadable curve points are reported as a missing slides count. -/
theorem C59_false_curve_point : (HitObject.parse 14 c!"1,2,3,2,0,B|x,1,9" : Res HOErr (HitObject Dec96)) = .err .missingSlidesCount := by decide
/-- Unreadable edge sounds are reported as missing edge sets. -/
theorem C59_false_edge_sound : (HitObject.parse 14 c!"1,2,3,2,0,B|1:2,1,9,x,0:0" : Res HOErr (HitObject Dec96)) = .err .missingEdgeSet := by decide
/-- Unreadable edge sets are reported as a missing hit sample. -/
theorem C59_false_edge_set : (HitObject.parse 14 c!"1,2,3,2,0,B|1:2,1,9,1,x,0:0:0:0:" : Res HOErr (HitObject Dec96)) = .err .missingHitSample := by decide

example : (HitObject.parse 14 c!"1,2,3,128,0,100" : Res HOErr (HitObject Dec96)) = .err .invalidEndTime :=
  C59_line.2 ⟨by
    have no : ∀ p, ¬ TimeOverflows Dec96 14 p := fun p hp => by have := hp.2.1; omega
    rintro (h | ⟨_, _, _, h⟩ | ⟨_, _, _, _, h⟩) <;> exact no _ h, by decide⟩
example : HOPanics Dec96 3 (splitOnC ',' c!"1,2,79228162514264337593543950335,1,0") :=
  C59_panic.1 (by decide)
example : ∃ o, (HitObject.parse 14 c!"1,2,3,8,0,100" : Res HOErr (HitObject Dec96)) = .ok o :=
  C59_accepted.2 ⟨by
    have no : ∀ p, ¬ TimeOverflows Dec96 14 p := fun p hp => by have := hp.2.1; omega
    rintro (h | ⟨_, _, _, h⟩ | ⟨_, _, _, _, h⟩) <;> exact no _ h, by decide⟩
example : (HitObjects.parse 4 c!"1,2,3,8,0,100\n\n1,2,79228162514264337593543950335,1,0\nx" : Res _ (List (HitObject Dec96))) = .panic := by
  decide
example : (TimingPoints.parse 4 c!"0,1,4,1,1\n79228162514264337593543950335,1,4,1,1" : Res _ (List (TimingPoint Dec96))) = .panic := by
  decide
example : (HitObjects.parse 14 c!"1,2,3,8,0,100\n1,2,3,0,0" : Res _ (List (HitObject Dec96))) = .err ⟨1, .unknownObjType⟩ := by decide
end

section
variable {D : Type} [DecLib D]

/-! ## C57: storyboard commands -/

/-- A command line is refused exactly with the error of its first missing or unreadable column, for the columns of
the command that its first piece names. -/
theorem C57_line [UniLib] {s p : Str} {qs : List Str} (hs : splitOnC ',' (s.dropWhile fun c => c == ' ' || c == '_') = p :: qs) {e : CmdErr} :
    (Command.parse s : Res CmdErr (Command D)) = .err e ↔ ¬CmdPanics (p :: qs) ∧ cmdFault p qs = some e :=
  Command.parse_err_iff hs

/-- It is accepted exactly if there is no such column and no panic. -/
theorem C57_accepted [UniLib] {s p : Str} {qs : List Str} (hs : splitOnC ',' (s.dropWhile fun c => c == ' ' || c == '_') = p :: qs) :
    (∃ c, (Command.parse s : Res CmdErr (Command D)) = .ok c) ↔ ¬CmdPanics (p :: qs) ∧ cmdFault p qs = none := by
  have hp : (Command.parse s : Res CmdErr (Command D)) = .panic ↔ CmdPanics (p :: qs) := by
    rw [← hs]; exact Command.command_panics
  constructor
  · rintro ⟨t, ht⟩
    have hn : ¬CmdPanics (p :: qs) := by rw [← hp, ht]; exact fun h => by cases h
    refine ⟨hn, ?_⟩
    cases hf : cmdFault p qs with
    | none => rfl
    | some e => have := (C57_line (D := D) hs (e := e)).2 ⟨hn, hf⟩; rw [ht] at this; cases this
  · rintro ⟨hn, hf⟩
    refine Res.ok_of_not (fun e h => ?_) (fun h => hn (hp.1 h))
    have := ((C57_line (D := D) hs).1 h).2
    rw [hf] at this; cases this

/-! ## C58: events -/

/-- A line is refused as the start of an event exactly with the error of its first missing or unreadable column. -/
theorem C58_line {v : Nat} {l p : Str} {qs : List Str} (hs : splitOnC ',' l = p :: qs) {e : EvErr} :
    (Ev.parseEvent v l : Res EvErr (Event D)) = .err e ↔ ¬EvPanics D v l ∧ evFault D p qs = some e := Ev.event_fault hs

/-- It is accepted exactly if there is no such column and no panic. -/
theorem C58_accepted {v : Nat} {l p : Str} {qs : List Str} (hs : splitOnC ',' l = p :: qs) :
    (∃ e, (Ev.parseEvent v l : Res EvErr (Event D)) = .ok e) ↔ ¬EvPanics D v l ∧ evFault D p qs = none := by
  have hp := Ev.event_panics (D := D) (v := v) (l := l)
  constructor
  · rintro ⟨t, ht⟩
    have hn : ¬EvPanics D v l := by rw [← hp, ht]; exact fun h => by cases h
    refine ⟨hn, ?_⟩
    cases hf : evFault D p qs with
    | none => rfl
    | some e => have := (C58_line (D := D) (v := v) hs (e := e)).2 ⟨hn, hf⟩; rw [ht] at this; cases this
  · rintro ⟨hn, hf⟩
    refine Res.ok_of_not (fun e h => ?_) (fun h => hn (hp.1 h))
    have := ((C58_line (D := D) hs).1 h).2
    rw [hf] at this; cases this

/-- The section is refused at line `k` with error `e` exactly if the lines before are accepted, and line `k` is not
blank, does not panic and has that fault. -/
theorem C58_section [UniLib] {v : Nat} {s : Str} {k : Nat} {e : EvErr} :
    (Events.parse v s : Res (LErr EvErr) (List (Event D))) = .err ⟨k, e⟩ ↔
    ∃ pre l post, ∃ evs : List (Event D), lines s = pre ++ l :: post ∧ pre.length = k ∧
      SectionReads v CmdLineReads (pre.filter nonBlank) evs ∧ ¬Blank l ∧ ¬LinePanics v evs l ∧ LineFault evs l e :=
  events_fault

end

section
attribute [local instance] asciiUni

example : (Command.parse c!" M,0,1,2,3" : Res CmdErr (Command Dec96)) = .err .missingMoveY :=
  (C57_line (p := c!"M") (qs := [c!"0", c!"1", c!"2", c!"3"]) (by decide)).2
    ⟨by rintro ⟨x, qs, h, _⟩; simp at h, by decide⟩
example : ∃ c, (Command.parse c!" C,0,1,,3,4,5" : Res CmdErr (Command Dec96)) = .ok c :=
  (C57_accepted (p := c!"C") (qs := [c!"0", c!"1", [], c!"3", c!"4", c!"5"]) (by decide)).2
    ⟨by rintro ⟨x, qs, h, _⟩; simp at h, by decide⟩
example : evFault Dec96 c!"Sprite" [c!"Pass", c!"Nowhere"] = some (.object .invalidOrigin) := by decide
example : (Events.parse 14 c!"0,0,a\n F,0,1,2" : Res (LErr EvErr) (List (Event Dec96))) = .err ⟨1, .command .missingStartOpacity⟩ := by rfl
example : (Events.parse 14 c!"0,0,a\n  F,0,1,2,1" : Res (LErr EvErr) (List (Event Dec96))) = .err ⟨1, .push ⟨1, 2⟩⟩ := by rfl

/-- A name that only starts with a command's name is reported as that command without its first value. -/
theorem C57_false_prefix : (Command.parse c!" Rotate,0,1,2,3" : Res CmdErr (Command Dec96)) = .err .missingEasing := by rfl
/-- The same for events. -/
theorem C58_false_prefix : (Events.parse 14 c!"Sprites,Pass,Centre,a.png,1,2" : Res (LErr EvErr) (List (Event Dec96))) =
    .err ⟨0, .object .missingLayer⟩ := by rfl
end

/-! ## C60: colours -/

/-- A line is read as a colour exactly if without the blanks around it it is a name, a colon and three numbers. -/
theorem C60_grammar {s : Str} {c : Colour} : Colour.parse s = .ok c ↔ ColourReads (trim s) c := Colour.ok_iff

example : ColourReads (trim c!" Combo12 : 1,2,3 ") (.combo 12 ⟨1, 2, 3⟩) := C60_grammar.1 (by decide)

/-- Otherwise it is refused with the error of the first fault. -/
theorem C60_line {s : Str} {e : ColourErr} : Colour.parse s = .err e ↔ colourFault (trim s) = some e := Colour.err_iff

/-- So the lines of the grammar are the ones without fault. -/
theorem C60_accepted {s : Str} : (∃ c, ColourReads (trim s) c) ↔ colourFault (trim s) = none := by
  constructor
  · rintro ⟨c, h⟩
    cases hf : colourFault (trim s) with
    | none => rfl
    | some e => have := C60_line.2 hf; rw [C60_grammar.2 h] at this; cases this
  · intro h
    obtain ⟨c, hc⟩ := Res.ok_of_not (r := Colour.parse s) (fun e he => by
      have := C60_line.1 he; rw [h] at this; cases this) (Colour.parse_no_panic s)
    exact ⟨c, C60_grammar.1 hc⟩

example : colourFault (trim c!" Combo12 : 1,2,3 ") = none := C60_accepted.1 ⟨.combo 12 ⟨1, 2, 3⟩, C60_grammar.1 (by decide)⟩

/-- A section is refused at line `k` with error `e` exactly if all lines before that are not blank have no fault, and line
`k` is not blank and has that fault. -/
theorem C60_section {v : Nat} (hv : ¬ (3 ≤ v ∧ v ≤ 4)) {s : Str} {k : Nat} {e : ColourErr} :
    Colours.parse v s = .err ⟨k, e⟩ ↔ ∃ pre l post, lines s = pre ++ l :: post ∧ pre.length = k ∧
      (∀ x ∈ pre, Blank x ∨ colourFault (trim x) = none) ∧ ¬Blank l ∧ colourFault (trim l) = some e := by
  have h : Colours.parse v s = .err ⟨k, e⟩ ↔ parseLines Colour.parse s = .err ⟨k, e⟩ := by
    rw [Colours.parse, if_neg hv]
    cases hp : parseLines Colour.parse s with
    | ok l => exact ⟨fun h => (by cases h), fun h => (by cases h)⟩
    | err x => exact ⟨fun h => (by cases h; rfl), fun h => (by cases h; rfl)⟩
    | panic => exact ⟨fun h => (by cases h), fun h => (by cases h)⟩
  rw [h, parseLines_firstBad, firstBad_split]
  have ha : ∀ x, (∃ c, Colour.parse x = .ok c) ↔ colourFault (trim x) = none := by
    intro x
    rw [← C60_accepted]
    exact exists_congr fun c => C60_grammar
  simp only [ha, C60_line]

example : ColourReads c!"Combo2\t: 1 ,\t2, 003" (.combo 2 ⟨1, 2, 3⟩) :=
  .mk (name := c!"Combo2") (b := c!"\t") (t := c!" 1 ,\t2, 003") (.combo (n := c!"2") (by decide) (by decide)) (by decide)
    (.mk (b0 := c!" ") (b1 := c!" ") (b2 := c!"\t") (b3 := []) (b4 := c!" ") (r := c!"1") (g := c!"2") (b := c!"003")
      (by decide) (by decide) (by decide) (by decide) (by decide) (by decide) (by decide) (by decide) (by decide) (by decide))
example : Colour.parse c!" SliderBorder : 1,256,x" = .err (.rgb .invalidGreen) := C60_line.2 (by decide)
example : Colour.parse c!"Combo : 1,2,3" = .err .invalidComboCount := C60_line.2 (by decide)
example : Colours.parse 14 c!"Combo1 : 1,2,3\nCombo2 : 1,2" = .err ⟨1, .rgb .missingBlue⟩ := by decide

section
attribute [local instance] asciiUni

private theorem noPanic : ¬EvPanics Dec96 14 c!"Sprite,Pass,Nowhere" := fun h => by
  have : (Ev.parseEvent 14 c!"Sprite,Pass,Nowhere" : Res EvErr (Event Dec96)) = .panic := Ev.event_panics.2 h
  have e : (Ev.parseEvent 14 c!"Sprite,Pass,Nowhere" : Res EvErr (Event Dec96)) = .err (.object .invalidOrigin) := by rfl
  rw [e] at this
  cases this

example : (Ev.parseEvent 14 c!"Sprite,Pass,Nowhere" : Res EvErr (Event Dec96)) = .err (.object .invalidOrigin) :=
  (C58_line (p := c!"Sprite") (qs := [c!"Pass", c!"Nowhere"]) (by decide)).2 ⟨noPanic, by decide⟩

example : ¬∃ e, (Ev.parseEvent 14 c!"Sprite,Pass,Nowhere" : Res EvErr (Event Dec96)) = .ok e := fun h => by
  have := ((C58_accepted (p := c!"Sprite") (qs := [c!"Pass", c!"Nowhere"]) (by decide)).1 h).2
  revert this
  decide

end

end Osu
